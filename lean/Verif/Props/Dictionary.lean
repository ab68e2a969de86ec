import Verif.Spec.Dictionary
/-! Properties C10-C11: metadata trees. -/
namespace Verif.Props.Dictionary
open Verif Verif.Dictionary Verif.DictionarySpec

variable {α : Type}

theorem lookup_putKey (k k' : String) (t : Tree α) : ∀ items : List (String × Tree α),
    lookup k' (putKey k t items) = if k' = k then some t else lookup k' items
  | [] => by
    unfold putKey lookup
    by_cases h : k' = k
    · simp [h]
    · simp [h, lookup, Ne.symm h]
  | (j, u) :: rest => by
    unfold putKey
    by_cases hj : j = k
    · subst hj
      by_cases h : k' = j
      · simp [lookup, h]
      · simp [lookup, h, Ne.symm h]
    · simp only [hj, if_false]
      unfold lookup
      rw [lookup_putKey k k' t rest]
      by_cases h : j = k'
      · subst h; simp [hj]
      · simp [h]

theorem getPath_cons (items : List (String × Tree α)) (k : String) (ks : List String)
    (h : ks ≠ []) : getPath items (k :: ks) =
      match lookup k items with
      | some (.node sub) => getPath sub ks
      | _ => none := by
  cases ks with
  | nil => exact absurd rfl h
  | cons k' ks => rfl

/-- What `set_item` does to the tree, when it succeeds. -/
theorem setPath_get : ∀ (path : List String) (items items' : List (String × Tree α)) (t : Tree α),
    setPath items path t = .ok items' → getPath items' path = some t ∧
      ∀ q, Apart path q → getPath items' q = getPath items q
  | [], _, _, _, h => by simp [setPath] at h
  | [k], items, items', t, h => by
    simp only [setPath, Except.ok.injEq] at h
    subst h
    refine ⟨by simp [getPath, lookup_putKey], fun q hq => ?_⟩
    match q with
    | [] => exact absurd (List.nil_prefix) hq.2
    | j :: js =>
      have hj : j ≠ k := by
        intro e; subst e
        exact hq.1 (by simp)
      cases js with
      | nil => simp [getPath, lookup_putKey, hj]
      | cons j' js => simp [getPath, lookup_putKey, hj]
  | k :: k' :: ks, items, items', t, h => by
    unfold setPath at h
    split at h
    · rename_i sub hsub
      split at h
      · rename_i sub' hs
        simp only [Except.ok.injEq] at h
        subst h
        obtain ⟨h1, h2⟩ := setPath_get (k' :: ks) sub sub' t hs
        refine ⟨by simp only [getPath, lookup_putKey, if_true]; exact h1, fun q hq => ?_⟩
        match q with
        | [] => exact absurd (List.nil_prefix) hq.2
        | [j] =>
          by_cases hj : j = k
          · subst hj
            exact absurd (by simp) hq.2
          · simp [getPath, lookup_putKey, hj]
        | j :: j' :: js =>
          by_cases hj : j = k
          · subst hj
            have : Apart (k' :: ks) (j' :: js) := by
              refine ⟨fun hp => hq.1 ?_, fun hp => hq.2 ?_⟩
              · exact (List.cons_prefix_cons).2 ⟨rfl, hp⟩
              · exact (List.cons_prefix_cons).2 ⟨rfl, hp⟩
            simp only [getPath, lookup_putKey, if_true, hsub]
            exact h2 _ this
          · simp [getPath, lookup_putKey, hj]
      · simp at h
    · simp at h

/-- `add_node` makes the path present and leaves unrelated paths alone. -/
theorem addNode_get : ∀ (path : List String) (items items' : List (String × Tree α)),
    path ≠ [] → addNode items path = .ok items' →
      (∃ t, getPath items' path = some t ∧ isNone t = false) ∧
      ∀ q, Apart path q → getPath items' q = getPath items q
  | [], _, _, hne, _ => absurd rfl hne
  | k :: ks, items, items', _, h => by
    unfold addNode at h
    have hchild : isNone (childOf k items) = false := by
      unfold childOf
      split
      · split
        · rfl
        · rename_i hh; simpa using hh
      · rfl
    generalize hc : childOf k items = child at h hchild
    cases ks with
    | nil =>
      simp only [Except.ok.injEq] at h
      subst h
      refine ⟨⟨child, by simp [getPath, lookup_putKey], hchild⟩, fun q hq => ?_⟩
      match q with
      | [] => exact absurd (List.nil_prefix) hq.2
      | j :: js =>
        have hj : j ≠ k := by
          intro e; subst e
          exact hq.1 (by simp)
        cases js <;> simp [getPath, lookup_putKey, hj]
    | cons k' ks =>
      match child, hc, h with
      | .leaf _, _, h => simp at h
      | .node sub, hc, h =>
        simp only at h
        split at h
        · rename_i sub' hs
          simp only [Except.ok.injEq] at h
          subst h
          obtain ⟨⟨t, h1, h1'⟩, h2⟩ := addNode_get (k' :: ks) sub sub' (by simp) hs
          refine ⟨⟨t, by simp only [getPath, lookup_putKey, if_true]; exact h1, h1'⟩, fun q hq => ?_⟩
          match q with
          | [] => exact absurd (List.nil_prefix) hq.2
          | [j] =>
            by_cases hj : j = k
            · subst hj
              exact absurd (by simp) hq.2
            · simp [getPath, lookup_putKey, hj]
          | j :: j' :: js =>
            by_cases hj : j = k
            · subst hj
              have : Apart (k' :: ks) (j' :: js) := by
                refine ⟨fun hp => hq.1 ?_, fun hp => hq.2 ?_⟩
                · exact (List.cons_prefix_cons).2 ⟨rfl, hp⟩
                · exact (List.cons_prefix_cons).2 ⟨rfl, hp⟩
              simp only [getPath, lookup_putKey, if_true]
              rw [h2 _ this]
              -- the old child was this node, or there was nothing to be found
              unfold childOf at hc
              split at hc
              · rename_i t' ht'
                rw [ht']
                split at hc
                · rename_i hnone
                  have : sub = [] := by injection hc with hc; exact hc.symm
                  subst this
                  match t', hnone with
                  | .leaf none, _ => cases js <;> simp [getPath, lookup]
                · rw [hc]
              · rename_i ht'
                rw [ht']
                have : sub = [] := by injection hc with hc; exact hc.symm
                subst this
                cases js <;> simp [getPath, lookup]
            · simp [getPath, lookup_putKey, hj]
        · simp at h

/-- When `add_node` fails it is because of a value in the way, and it always succeeds when no
proper initial part of the path holds a value. -/
theorem addNode_ok : ∀ (path : List String) (items : List (String × Tree α)),
    (∀ p, p <+: path → p ≠ path → ∀ v, getPath items p ≠ some (.leaf (some v))) →
    ∃ items', addNode items path = .ok items'
  | [], items, _ => ⟨items, rfl⟩
  | [k], items, _ => by
    unfold addNode
    exact ⟨_, rfl⟩
  | k :: k' :: ks, items, h => by
    unfold addNode
    have hk : ∀ v, lookup k items ≠ some (.leaf (some v)) := by
      intro v
      have := h [k] (by simp) (by simp) v
      simpa [getPath] using this
    have hstep : ∀ sub : List (String × Tree α),
        (lookup k items = some (.node sub) ∨ sub = []) →
        ∃ sub', addNode sub (k' :: ks) = .ok sub' := by
      intro sub hsub
      apply addNode_ok
      intro p hp hpn v hv
      rcases hsub with e | e
      · by_cases hp0 : p = []
        · subst hp0; simp [getPath] at hv
        · have := h (k :: p) ((List.cons_prefix_cons).2 ⟨rfl, hp⟩) (by
            intro e'; injection e' with _ e'; exact hpn e') v
          rw [getPath_cons _ _ _ hp0, e] at this
          exact this hv
      · subst e
        cases p with
        | nil => simp [getPath] at hv
        | cons j js => cases js <;> simp [getPath, lookup] at hv
    unfold childOf
    generalize lookup k items = l at *
    match l with
    | none =>
      simp only
      obtain ⟨s, hs⟩ := hstep [] (.inr rfl)
      exact ⟨_, by rw [hs]⟩
    | some (.leaf none) =>
      simp only [isNone, if_true]
      obtain ⟨s, hs⟩ := hstep [] (.inr rfl)
      exact ⟨_, by rw [hs]⟩
    | some (.leaf (some v)) => exact absurd rfl (hk v)
    | some (.node sub) =>
      simp only [isNone, Bool.false_eq_true, if_false]
      obtain ⟨s, hs⟩ := hstep sub (.inl rfl)
      exact ⟨_, by rw [hs]⟩

theorem setPath_ok : ∀ (path : List String) (items : List (String × Tree α)) (t u : Tree α),
    getPath items path = some u → ∃ items', setPath items path t = .ok items'
  | [], _, _, _, h => by simp [getPath] at h
  | [k], items, t, _, _ => ⟨_, rfl⟩
  | k :: k' :: ks, items, t, u, h => by
    simp only [getPath] at h
    split at h
    · rename_i sub hsub
      obtain ⟨s, hs⟩ := setPath_ok (k' :: ks) sub t u h
      exact ⟨putKey k (.node s) items, by simp [setPath, hsub, hs]⟩
    · simp at h

/-- C10. `set_item` of a non-empty path succeeds unless a value is in the way of the path; after
it the path holds the new value, `has_item` is true (unless the value is `None`), and every path
that is not above or below it holds what it held before. -/
theorem C10_set_item (items : List (String × Tree α)) (path : List String) (t : Tree α)
    (hne : path ≠ [])
    (hfree : ∀ p, p <+: path → p ≠ path → ∀ v, getPath items p ≠ some (.leaf (some v))) :
    ∃ items', setItem items path t = .ok items' ∧ getPath items' path = some t ∧
      (isNone t = false → hasItem items' path = true) ∧
      ∀ q, Apart path q → getPath items' q = getPath items q ∧ hasItem items' q = hasItem items q := by
  have key : ∃ items', setItem items path t = .ok items' ∧ getPath items' path = some t ∧
      ∀ q, Apart path q → getPath items' q = getPath items q := by
    unfold setItem
    by_cases ha : absent items path = true
    · rw [if_pos ha]
      obtain ⟨i1, h1⟩ := addNode_ok path items hfree
      obtain ⟨⟨u, hu, _⟩, hq⟩ := addNode_get path items i1 hne h1
      obtain ⟨i2, h2⟩ := setPath_ok path i1 t u hu
      obtain ⟨g1, g2⟩ := setPath_get path i1 i2 t h2
      refine ⟨i2, by rw [h1]; exact h2, g1, fun q hap => ?_⟩
      rw [g2 q hap, hq q hap]
    · rw [if_neg ha]
      unfold absent at ha
      split at ha
      · simp at ha
      · rename_i u hu
        obtain ⟨i2, h2⟩ := setPath_ok path items t u hu
        obtain ⟨g1, g2⟩ := setPath_get path items i2 t h2
        exact ⟨i2, h2, g1, g2⟩
  obtain ⟨items', h1, h2, h3⟩ := key
  refine ⟨items', h1, h2, ?_, fun q hq => ⟨h3 q hq, ?_⟩⟩
  · intro hn
    simp [hasItem, absent, h2, hn]
  · simp [hasItem, absent, h3 q hq]

/-- C10. `add_node` makes the path present and leaves unrelated paths alone. -/
theorem C10_add_node (items : List (String × Tree α)) (path : List String) (hne : path ≠ [])
    (hfree : ∀ p, p <+: path → p ≠ path → ∀ v, getPath items p ≠ some (.leaf (some v))) :
    ∃ items', addNode items path = .ok items' ∧ hasItem items' path = true ∧
      ∀ q, Apart path q → getPath items' q = getPath items q := by
  obtain ⟨i1, h1⟩ := addNode_ok path items hfree
  obtain ⟨⟨u, hu, hn⟩, hq⟩ := addNode_get path items i1 hne h1
  exact ⟨i1, h1, by simp [hasItem, absent, hu, hn], hq⟩

/-- Applying a list of `set_item` calls. -/
def setAll : List (String × Tree α) → List (List String × Tree α) → Py (List (String × Tree α))
  | items, [] => .ok items
  | items, op :: ops =>
    match setItem items op.1 op.2 with
    | .ok items' => setAll items' ops
    | .error e => .error e

/-- C10, for histories. A value that was set is still there after any number of successful
`set_item` calls on other paths that are not above or below it. -/
theorem C10_history (path : List String) (t : Tree α) :
    ∀ (ops : List (List String × Tree α)) (items items' : List (String × Tree α)),
      getPath items path = some t → (∀ op ∈ ops, Apart op.1 path) →
      setAll items ops = .ok items' → getPath items' path = some t
  | [], items, items', h, _, hs => by
    simp only [setAll, Except.ok.injEq] at hs
    rw [← hs]; exact h
  | op :: ops, items, items', h, hap, hs => by
    unfold setAll at hs
    split at hs
    · rename_i i1 h1
      refine C10_history path t ops i1 items' ?_ (fun o ho => hap o (by simp [ho])) hs
      have hop := hap op (by simp)
      unfold setItem at h1
      split at h1
      · split at h1
        · rename_i i0 h0
          by_cases hne : op.1 = []
          · rw [hne] at h1; simp [setPath] at h1
          · rw [(setPath_get _ _ _ _ h1).2 path hop, (addNode_get _ _ _ hne h0).2 path hop, h]
        · simp at h1
      · rw [(setPath_get _ _ _ _ h1).2 path hop, h]
    · simp at hs

/-- A value in the way of the path makes `set_item` fail with `AttributeError`. -/
theorem C10_value_in_the_way :
    setItem [("General", .leaf (some 3))] ["General", "title"] (.leaf (some 4)) =
      .error .attributeError := by rfl

example : setItem [("a", .node [("b", .leaf (some 1))]), ("c", .leaf none)] ["a", "d", "e"] (.leaf (some 7))
    = .ok [("a", .node [("b", .leaf (some 1)), ("d", .node [("e", .leaf (some 7))])]), ("c", .leaf none)] ∧
    Apart ["a", "d", "e"] ["a", "b"] := by
  refine ⟨rfl, ?_⟩
  unfold Apart
  constructor <;> simp [List.cons_prefix_cons]

/-! ### C11 -/

mutual
theorem dump_default (root : String) : ∀ items : List (String × Tree String),
    dump root "." " = " items = (leaves items).map fun q => line root "." " = " q.1 q.2
  | [] => by simp [dump, leaves]
  | (k, t) :: rest => by
    rw [dump, leaves, List.map_append, dumpItem_default root k t, dump_default root rest]
theorem dumpItem_default (root k : String) : ∀ t : Tree String,
    dumpItem root "." " = " k t = (leavesItem k t).map fun q => line root "." " = " q.1 q.2
  | .leaf v => by simp [dumpItem, leavesItem, line]
  | .node sub => by
    rw [dumpItem, leavesItem, dump_default (root ++ "." ++ k) sub, List.map_map]
    apply List.map_congr_left
    intro q _
    simp [line, Function.comp]
end

/-- C11 (partial). With the default separators `dump_dictionary` writes one line per leaf, in
order, with the full path. Missing: other separators (`C11_fails_custom_separators`), for which
it holds only on the first level (`C11_flat_partial`). -/
theorem C11_dump_partial (root : String) (items : List (String × Tree String)) :
    dump root "." " = " items = (leaves items).map fun q => line root "." " = " q.1 q.2 :=
  dump_default root items

/-- C11 (partial). A dictionary without sub-dictionaries is written with any separators. -/
theorem C11_flat_partial (root nsep vsep : String) (items : List (String × Tree String))
    (h : ∀ q ∈ items, ∃ v, q.2 = .leaf v) :
    dump root nsep vsep items = (leaves items).map fun q => line root nsep vsep q.1 q.2 := by
  induction items with
  | nil => simp [dump, leaves]
  | cons q rest ih =>
    obtain ⟨k, t⟩ := q
    obtain ⟨v, hv⟩ := h (k, t) (by simp)
    simp only at hv
    subst hv
    rw [dump, leaves, ih (fun r hr => h r (by simp [hr])), List.map_append]
    simp [dumpItem, leavesItem, line]

/-- C11 is false for other separators: below the first level the defaults are used. -/
theorem C11_fails_custom_separators :
    dump "root" "/" ": " [("a", .node [("b", .leaf (some "1"))])] = ["root/a.b = 1\n"] ∧
    (leaves [("a", .node [("b", .leaf (some "1"))])]).map (fun q => line "root" "/" ": " q.1 q.2) =
      ["root/a/b: 1\n"] := by
  constructor <;> decide +kernel

example : (leaves [("a", .node [("b", .leaf (some "1")), ("c", .node [])]), ("d", .leaf none)]).length = 2 := by
  decide

end Verif.Props.Dictionary
