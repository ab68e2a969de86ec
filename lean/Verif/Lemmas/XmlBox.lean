import Verif.Spec.Xml
import Verif.Props.Dictionary
/-! Lemmas for C82 (no errors) and C83. -/
namespace Verif.Lemmas.XmlBox
open Verif.Xml Verif.Spec.Xml Verif.Dictionary

section Total
variable {α : Type}

theorem evalV_ok {lit : Text → Py (V α)} (hl : ∀ t e, lit t = .error e → e = .valueError) : ∀ v, ∃ w, evalV lit v = .ok w
  | .str t => by
    cases h : lit t with
    | ok w => exact ⟨w, by rw [evalV, h]⟩
    | error e =>
      have he := hl t e h
      subst he
      exact ⟨.str t, by rw [evalV, h]⟩
  | .none => ⟨_, rfl⟩
  | .obj _ => ⟨_, rfl⟩
  | .dict _ => ⟨_, rfl⟩
  | .list _ => ⟨_, rfl⟩

theorem group_ok {lit : Text → Py (V α)} (hl : ∀ t e, lit t = .error e → e = .valueError) (vs : List (V α)) : ∃ w, group lit vs = .ok w := by
  unfold group
  split
  · exact evalV_ok hl _
  · exact ⟨_, rfl⟩

theorem mapM_ok {lit : Text → Py (V α)} (hl : ∀ t e, lit t = .error e → e = .valueError) : ∀ dd : List (Text × List (V α)),
    ∃ d, (dd.mapM fun e => (group lit e.2).map fun v => (e.1, v)) = (Except.ok d : Py _)
  | [] => ⟨[], rfl⟩
  | e :: dd => by
    obtain ⟨w, hw⟩ := group_ok hl e.2
    obtain ⟨d, hd⟩ := mapM_ok hl dd
    refine ⟨(e.1, w) :: d, ?_⟩
    rw [List.mapM_cons, hw, hd]
    rfl

theorem addAttrs_ok {lit : Text → Py (V α)} (hl : ∀ t e, lit t = .error e → e = .valueError) (pre : Text) : ∀ (attrs : List (Text × Text)) (d : List (Text × V α)),
    ∃ d', addAttrs lit pre attrs d = .ok d'
  | [], d => ⟨d, rfl⟩
  | e :: attrs, d => by
    obtain ⟨w, hw⟩ := evalV_ok hl (.str e.2)
    obtain ⟨d', hd'⟩ := addAttrs_ok hl pre attrs (setKw (pre ++ e.1) w d)
    refine ⟨d', ?_⟩
    unfold addAttrs
    rw [List.foldlM_cons, hw]
    exact hd'

theorem addText_ok {lit : Text → Py (V α)} (hl : ∀ t e, lit t = .error e → e = .valueError) (cfg : Cfg) (children : List El) (t : Text) (d : List (Text × V α)) :
    ∃ d', addText lit cfg children t d = .ok d' := by
  obtain ⟨w, hw⟩ := evalV_ok hl (.str t)
  unfold addText
  split
  · exact ⟨_, rfl⟩
  · exact ⟨_, by rw [hw]; rfl⟩
  · dsimp only
    split
    · exact ⟨_, rfl⟩
    · exact ⟨_, by rw [hw]; rfl⟩

theorem leaf_ok {lit : Text → Py (V α)} (hl : ∀ t e, lit t = .error e → e = .valueError) (cfg : Cfg) (attrs : List (Text × Text)) (t : Text) :
    ∃ v, leaf lit cfg attrs t = .ok v ∧ (attrs ≠ [] → ∃ d, v = .dict d) := by
  obtain ⟨w, hw⟩ := evalV_ok hl (.str t)
  unfold leaf
  split
  · rename_i ha
    have ha : attrs = [] := List.isEmpty_iff.mp ha
    split
    · exact ⟨_, rfl, fun h => absurd ha h⟩
    · exact ⟨w, hw, fun h => absurd ha h⟩
  · obtain ⟨d, hd⟩ := addAttrs_ok hl [] attrs []
    rw [hd]
    by_cases ht : t = []
    · exact ⟨.dict d, by subst ht; rfl, fun _ => ⟨d, rfl⟩⟩
    · refine ⟨.dict (setKw cfg.textKey w d), ?_, fun _ => ⟨_, rfl⟩⟩
      show (if t = [] then (Except.ok (V.dict d) : Py (V α)) else ((evalV lit (.str t)).map fun v => setKw cfg.textKey v d) >>= fun d => .ok (.dict d)) = _
      rw [if_neg ht, hw]
      rfl

mutual
theorem value_ok {lit : Text → Py (V α)} (hl : ∀ t e, lit t = .error e → e = .valueError) (cfg : Cfg) : ∀ e : El, Filled cfg e →
    ∃ v, value lit cfg e = .ok v ∧ (e.attrs ≠ [] ∨ e.children ≠ [] → ∃ d, v = .dict d)
  | .mk tag attrs text tail [], _ => by
    obtain ⟨v, h1, h2⟩ := leaf_ok hl cfg attrs (strip (text.getD []))
    refine ⟨v, by rw [value]; exact h1, ?_⟩
    rintro (h | h)
    · exact h2 h
    · exact absurd rfl h
  | .mk tag attrs text tail (c :: cs), h => by
    rw [Filled] at h
    obtain ⟨dd, hdd⟩ := groups_ok hl cfg (c :: cs) [] h
    obtain ⟨d1, h1⟩ := mapM_ok hl dd
    obtain ⟨d2, h2⟩ := addAttrs_ok hl cfg.pre attrs d1
    obtain ⟨d3, h3⟩ := addText_ok hl cfg (c :: cs) (strip (text.getD [])) d2
    have e : value lit cfg (.mk tag attrs text tail (c :: cs)) =
        if strip (text.getD []) = [] then (Except.ok (V.dict d2) : Py _) else
            addText lit cfg (c :: cs) (strip (text.getD [])) d2 >>= fun d => .ok (.dict d) := by
      rw [value]
      simp only [List.isEmpty_cons, Bool.false_eq_true, if_false]
      rw [hdd]
      dsimp only
      rw [h1]
      show (addAttrs lit cfg.pre attrs d1 >>= _ : Py _) = _
      rw [h2]
      rfl
    rw [e]
    by_cases ht : strip (text.getD []) = []
    · exact ⟨_, by rw [if_pos ht], fun _ => ⟨_, rfl⟩⟩
    · exact ⟨.dict d3, by rw [if_neg ht, h3]; rfl, fun _ => ⟨_, rfl⟩⟩

theorem groups_ok {lit : Text → Py (V α)} (hl : ∀ t e, lit t = .error e → e = .valueError) (cfg : Cfg) : ∀ (cs : List El) (dd : List (Text × List (V α))),
    AllFilled cfg cs → ∃ dd', groups lit cfg cs dd = .ok dd'
  | [], dd, _ => ⟨dd, by rw [groups]⟩
  | c :: cs, dd, h => by
    rw [AllFilled] at h
    obtain ⟨v, h1, h2⟩ := value_ok hl cfg c h.1
    have : ∃ dd1, addChild dd (if c.tag ∈ cfg.flatten then v else .dict [(c.tag, v)]) = .ok dd1 := by
      by_cases hf : c.tag ∈ cfg.flatten
      · obtain ⟨d, hd⟩ := h2 (h.2.1 hf)
        rw [if_pos hf, hd]
        exact ⟨_, rfl⟩
      · rw [if_neg hf]
        exact ⟨_, rfl⟩
    obtain ⟨dd1, hdd1⟩ := this
    obtain ⟨dd', hdd'⟩ := groups_ok hl cfg cs dd1 h.2.2
    refine ⟨dd', ?_⟩
    rw [groups, h1]
    dsimp only
    rw [hdd1]
    exact hdd'
end

end Total

/-! ### Boxes -/

theorem putKey_new {k : String} {t : Tree Text} : ∀ {items : List (String × Tree Text)}, lookup k items = none → putKey k t items = items ++ [(k, t)]
  | [], _ => rfl
  | (k', t') :: items, h => by
    rw [lookup] at h
    split at h
    · cases h
    · rename_i hk
      rw [putKey, if_neg hk, putKey_new h]
      rfl

theorem putKey_last {k : String} {t u : Tree Text} : ∀ {items : List (String × Tree Text)}, lookup k items = none →
    putKey k t (items ++ [(k, u)]) = items ++ [(k, t)]
  | [], _ => by simp [putKey]
  | (k', t') :: items, h => by
    rw [lookup] at h
    split at h
    · cases h
    · rename_i hk
      rw [List.cons_append, putKey, if_neg hk, putKey_last h]
      rfl

theorem lookup_last {k : String} {u : Tree Text} : ∀ {items : List (String × Tree Text)}, lookup k items = none →
    lookup k (items ++ [(k, u)]) = some u
  | [], _ => by simp [lookup]
  | (k', t') :: items, h => by
    rw [lookup] at h
    split at h
    · cases h
    · rename_i hk
      rw [List.cons_append, lookup, if_neg hk, lookup_last h]

theorem lookup_none {k : String} : ∀ {items : List (String × Tree Text)}, lookup k items = none ↔ k ∉ items.map Prod.fst
  | [] => by simp [lookup]
  | (k', t') :: items => by
    rw [lookup, List.map_cons, List.mem_cons, not_or]
    by_cases hk : k' = k
    · simp [hk]
    · rw [if_neg hk, lookup_none]
      exact ⟨fun h => ⟨fun hh => hk hh.symm, h⟩, fun h => h.2⟩

theorem addNode_new {k : String} {items : List (String × Tree Text)} (h : lookup k items = none) :
    addNode items [k] = .ok (items ++ [(k, .node [])]) := by
  rw [addNode]
  unfold childOf
  rw [h]
  dsimp only
  rw [putKey_new h]

theorem setItem_new {k : String} {items : List (String × Tree Text)} {t : Tree Text} (h : lookup k items = none) :
    setItem items [k] t = .ok (items ++ [(k, t)]) := by
  unfold setItem absent
  rw [getPath, h]
  simp only [if_true]
  rw [addNode_new h]
  dsimp only
  rw [setPath, putKey_last h]

theorem modifyAt_new {k : String} {items : List (String × Tree Text)} {g : List (String × Tree Text) → Py (List (String × Tree Text))}
    {sub : List (String × Tree Text)} (h : lookup k items = none) (hg : g [] = .ok sub) :
    modifyAt g (items ++ [(k, .node [])]) [k] = .ok (items ++ [(k, .node sub)]) := by
  rw [modifyAt, lookup_last h]
  dsimp only
  rw [modifyAt, hg]
  dsimp only
  rw [putKey_last h]

mutual
/-- The tree of an element. -/
def treeOf : El → Tree Text
  | .mk _ attrs text _ children =>
    if text.getD [] ≠ [] then .leaf text
    else .node (attrs.map (fun a => (String.ofList a.1, .leaf (some a.2))) ++ treesOf children)

/-- The trees of elements, and their names. -/
def treesOf : List El → List (String × Tree Text)
  | [] => []
  | c :: cs => (String.ofList c.tag, treeOf c) :: treesOf cs
end

theorem treesOf_keys : ∀ cs : List El, (treesOf cs).map Prod.fst = cs.map fun c => String.ofList c.tag
  | [] => by rw [treesOf]; rfl
  | c :: cs => by rw [treesOf, List.map_cons, treesOf_keys cs]; rfl

theorem ofList_nodup {l : List Text} (h : l.Nodup) : (l.map String.ofList).Nodup := by
  refine List.Pairwise.map _ ?_ h
  intro a b hab hh
  exact hab (String.ofList_injective hh)

theorem attrs_fold : ∀ (attrs : List (Text × Text)) (items : List (String × Tree Text)),
    (items.map Prod.fst ++ attrs.map (fun a => String.ofList a.1)).Nodup →
    attrs.foldl (fun d e => putKey (String.ofList e.1) (.leaf (some e.2)) d) items =
      items ++ attrs.map (fun a => (String.ofList a.1, Tree.leaf (some a.2)))
  | [], items, _ => by simp
  | a :: attrs, items, h => by
    have hn : lookup (String.ofList a.1) items = none := by
      rw [lookup_none]
      intro hh
      rw [List.map_cons] at h
      exact (List.nodup_append.mp h).2.2 _ hh _ List.mem_cons_self rfl
    rw [List.foldl_cons, putKey_new hn, attrs_fold attrs]
    · simp
    · simpa using h

theorem pathOf_plain {tag : Text} (h : '.' ∉ tag) : pathOf tag = [String.ofList tag] := by
  unfold pathOf
  rw [splitChar_none h]
  rfl

mutual
theorem toBox_plain : ∀ (e : El) (items : List (String × Tree Text)), Plain e → lookup (String.ofList e.tag) items = none →
    toBox items e = .ok (items ++ [(String.ofList e.tag, treeOf e)])
  | .mk tag attrs text tail children, items, h, hl => by
    rw [Plain] at h
    obtain ⟨h1, h2, h3⟩ := h
    have hl : lookup (String.ofList tag) items = none := hl
    show _ = Except.ok (items ++ [(String.ofList tag, _)])
    rw [toBox, treeOf, pathOf_plain h1]
    by_cases ht : text.getD [] = []
    · rw [if_neg (by simp [ht]), if_neg (by simp [ht]), addNode_new hl]
      dsimp only
      obtain ⟨h4, h5⟩ := h3 ht
      have hs : ((attrs.map fun a => String.ofList a.1) ++ children.map fun c => String.ofList c.tag).Nodup := by
        have := ofList_nodup h4
        simpa [Function.comp_def] using this
      by_cases he : attrs.isEmpty = true ∧ children.isEmpty = true
      · rw [if_pos he]
        have e1 := List.isEmpty_iff.mp he.1
        have e2 := List.isEmpty_iff.mp he.2
        subst e1 e2
        rw [treesOf]
        rfl
      · rw [if_neg he]
        refine modifyAt_new hl ?_
        rw [attrs_fold attrs [] (by simpa using (List.nodup_append.mp hs).1), List.nil_append]
        refine allToBox_plain children _ h5 ?_
        simpa [Function.comp_def] using hs
    · rw [if_pos ht, if_pos ht]
      exact setItem_new hl

theorem allToBox_plain : ∀ (cs : List El) (items : List (String × Tree Text)), AllPlain cs →
    (items.map Prod.fst ++ cs.map fun c => String.ofList c.tag).Nodup → allToBox items cs = .ok (items ++ treesOf cs)
  | [], items, _, _ => by rw [allToBox, treesOf, List.append_nil]
  | c :: cs, items, h, hn => by
    rw [AllPlain] at h
    have hl : lookup (String.ofList c.tag) items = none := by
      rw [lookup_none]
      intro hh
      rw [List.map_cons] at hn
      exact (List.nodup_append.mp hn).2.2 _ hh _ List.mem_cons_self rfl
    rw [allToBox, toBox_plain c items h.1 hl]
    dsimp only
    rw [allToBox_plain cs _ h.2 (by simpa using hn), treesOf]
    simp
end

theorem getPath_step (k : String) (t : Tree Text) (items : List (String × Tree Text)) (k' : String) (ks : List String) :
    getPath ((k, t) :: items) (k' :: ks) = if k = k' then getPath [(k, t)] (k' :: ks) else getPath items (k' :: ks) := by
  by_cases h : k = k'
  · rw [if_pos h]
    cases ks <;> simp [getPath, lookup, h]
  · rw [if_neg h]
    cases ks <;> simp [getPath, lookup, h]

theorem getPath_step' {L : List (String × Tree Text)} : ∀ {A : List (String × Tree Text)} {k : String} {ks : List String}, 
    getPath (A ++ L) (k :: ks) = if k ∈ A.map Prod.fst then getPath A (k :: ks) else getPath L (k :: ks)
  | [], k, ks => by simp
  | (k', t) :: A, k, ks => by
    rw [List.cons_append, getPath_step, getPath_step k' t A]
    by_cases h : k' = k
    · simp [h]
    · rw [if_neg h, if_neg h, getPath_step']
      have h' : ¬ k = k' := fun hh => h hh.symm
      rw [List.map_cons]
      by_cases hm : k ∈ A.map Prod.fst
      · rw [if_pos hm, if_pos (List.mem_cons_of_mem _ hm)]
      · rw [if_neg hm, if_neg (fun hh => (List.mem_cons.mp hh).elim h' hm)]

theorem leaves_head : ∀ {e : El} {path : List String} {t : Text}, (path, t) ∈ leaves e → ∃ ks, path = String.ofList e.tag :: ks
  | .mk tag attrs text tail children, path, t, h => by
    rw [leaves] at h
    split at h
    · simp only [List.mem_singleton, Prod.mk.injEq] at h
      exact ⟨[], h.1⟩
    · rcases List.mem_append.mp h with h | h
      · obtain ⟨a, _, ha⟩ := List.mem_map.mp h
        simp only [Prod.mk.injEq] at ha
        exact ⟨_, ha.1.symm⟩
      · obtain ⟨a, _, ha⟩ := List.mem_map.mp h
        simp only [Prod.mk.injEq] at ha
        exact ⟨_, ha.1.symm⟩

theorem allLeaves_head : ∀ {cs : List El} {path : List String} {t : Text}, (path, t) ∈ allLeaves cs → ∃ k ks, path = k :: ks ∧ k ∈ cs.map fun c => String.ofList c.tag
  | [], path, t, h => by rw [allLeaves] at h; cases h
  | c :: cs, path, t, h => by
    rw [allLeaves] at h
    rcases List.mem_append.mp h with h | h
    · obtain ⟨ks, hk⟩ := leaves_head h
      exact ⟨_, ks, hk, List.mem_cons_self⟩
    · obtain ⟨k, ks, h1, h2⟩ := allLeaves_head h
      exact ⟨k, ks, h1, List.mem_cons_of_mem _ h2⟩

theorem attrs_stand : ∀ {attrs : List (Text × Text)}, (attrs.map fun a => String.ofList a.1).Nodup → ∀ (k : String) (ks : List String) (t : Text),
    getPath (attrs.map (fun a => (String.ofList a.1, Tree.leaf (some a.2)))) (k :: ks) = some (.leaf (some t)) ↔
      ∃ a ∈ attrs, k :: ks = [String.ofList a.1] ∧ t = a.2
  | [], _, k, ks, t => by cases ks <;> simp [getPath, lookup]
  | a :: attrs, h, k, ks, t => by
    rw [List.map_cons, List.nodup_cons] at h
    rw [List.map_cons, getPath_step]
    by_cases hk : String.ofList a.1 = k
    · rw [if_pos hk]
      constructor
      · intro hh
        cases ks with
        | nil =>
          simp only [getPath, lookup, hk, if_true, Option.some.injEq, Tree.leaf.injEq] at hh
          exact ⟨a, List.mem_cons_self, by rw [hk], hh.symm⟩
        | cons x xs =>
          simp only [getPath, lookup, hk, if_true] at hh
          cases hh
      · rintro ⟨b, hb, h1, h2⟩
        injection h1 with h1 h3
        subst h3
        rcases List.mem_cons.mp hb with rfl | hb
        · simp [getPath, lookup, hk, h2]
        · exact absurd (List.mem_map.mpr ⟨b, hb, by rw [hk, h1]⟩) h.1
    · rw [if_neg hk, attrs_stand h.2]
      constructor
      · rintro ⟨b, hb, h1⟩
        exact ⟨b, List.mem_cons_of_mem _ hb, h1⟩
      · rintro ⟨b, hb, h1⟩
        rcases List.mem_cons.mp hb with rfl | hb
        · injection h1.1 with h1
          exact absurd h1.symm hk
        · exact ⟨b, hb, h1⟩

mutual
theorem stands_el : ∀ (e : El), Plain e → ∀ (k : String) (ks : List String) (t : Text),
    getPath [(String.ofList e.tag, treeOf e)] (k :: ks) = some (.leaf (some t)) ↔ (k :: ks, t) ∈ leaves e
  | .mk tag attrs text tail children, h, k, ks, t => by
    rw [Plain] at h
    obtain ⟨h1, h2, h3⟩ := h
    rw [leaves, treeOf]
    show getPath [(String.ofList tag, _)] _ = _ ↔ _
    by_cases ht : text.getD [] = []
    · rw [if_neg (by simp [ht]), if_neg (by simp [ht])]
      obtain ⟨h4, h5⟩ := h3 ht
      have hs : ((attrs.map fun a => String.ofList a.1) ++ children.map fun c => String.ofList c.tag).Nodup := by
        have := ofList_nodup h4
        simpa [Function.comp_def] using this
      obtain ⟨hs1, hs2, hs3⟩ := List.nodup_append.mp hs
      by_cases hk : String.ofList tag = k
      · cases ks with
        | nil =>
          simp only [getPath, lookup, hk, if_true]
          constructor
          · intro hh
            cases hh
          · intro hh
            exfalso
            rcases List.mem_append.mp hh with hh | hh
            · obtain ⟨a, _, ha⟩ := List.mem_map.mp hh
              simp at ha
            · obtain ⟨a, hm, ha⟩ := List.mem_map.mp hh
              obtain ⟨p, u⟩ := a
              obtain ⟨x, xs, hp, _⟩ := allLeaves_head hm
              rw [hp] at ha
              simp at ha
        | cons x xs =>
          have e : getPath [(String.ofList tag, Tree.node (attrs.map (fun a => (String.ofList a.1, Tree.leaf (some a.2))) ++ treesOf children))] (k :: x :: xs) =
              getPath (attrs.map (fun a => (String.ofList a.1, Tree.leaf (some a.2))) ++ treesOf children) (x :: xs) := by
            rw [getPath, lookup, if_pos hk]
          rw [e, getPath_step']
          have hmem : ((k :: x :: xs, t) ∈ attrs.map (fun a => ([String.ofList tag, String.ofList a.1], a.2)) ++
              (allLeaves children).map fun p => (String.ofList tag :: p.1, p.2)) ↔
              (∃ a ∈ attrs, x :: xs = [String.ofList a.1] ∧ t = a.2) ∨ (x :: xs, t) ∈ allLeaves children := by
            rw [List.mem_append, List.mem_map, List.mem_map]
            constructor
            · rintro (⟨a, ha, hh⟩ | ⟨p, hp, hh⟩)
              · simp only [Prod.mk.injEq, List.cons.injEq] at hh
                exact Or.inl ⟨a, ha, by rw [← hh.1.2.1, ← hh.1.2.2], hh.2.symm⟩
              · simp only [Prod.mk.injEq, List.cons.injEq] at hh
                obtain ⟨p1, p2⟩ := p
                dsimp only at hh
                rw [← hh.1.2, ← hh.2]
                exact Or.inr hp
            · rintro (⟨a, ha, hh, hh2⟩ | hp)
              · injection hh with hh hh3
                exact Or.inl ⟨a, ha, by rw [hk, hh, hh3, hh2]⟩
              · exact Or.inr ⟨_, hp, by rw [hk]⟩
          rw [hmem]
          by_cases hx : x ∈ (attrs.map (fun a => (String.ofList a.1, Tree.leaf (some a.2)) )).map Prod.fst
          · rw [if_pos hx, attrs_stand hs1]
            constructor
            · exact Or.inl
            · rintro (hh | hh)
              · exact hh
              · obtain ⟨y, ys, hy1, hy2⟩ := allLeaves_head hh
                injection hy1 with hy1 _
                rw [← hy1] at hy2
                refine absurd rfl (hs3 x ?_ x hy2)
                simpa [Function.comp_def] using hx
          · rw [if_neg hx, stands_all children h5 hs2]
            constructor
            · exact Or.inr
            · rintro (⟨a, ha, hh, _⟩ | hh)
              · injection hh with hh _
                refine absurd ?_ hx
                rw [hh]
                simp only [List.map_map, Function.comp_def]
                exact List.mem_map.mpr ⟨a, ha, rfl⟩
              · exact hh
      · constructor
        · intro hh
          cases ks <;> simp [getPath, lookup, hk] at hh
        · intro hh
          exfalso
          rcases List.mem_append.mp hh with hh | hh
          · obtain ⟨a, _, ha⟩ := List.mem_map.mp hh
            simp only [Prod.mk.injEq, List.cons.injEq] at ha
            exact hk ha.1.1
          · obtain ⟨a, hm, ha⟩ := List.mem_map.mp hh
            simp only [Prod.mk.injEq, List.cons.injEq] at ha
            exact hk ha.1.1
    · rw [if_pos ht, if_pos ht]
      cases text with
      | none => exact absurd rfl ht
      | some u =>
        rw [List.mem_singleton]
        cases ks with
        | nil =>
          by_cases hk : String.ofList tag = k
          · simp only [getPath, lookup, hk, if_true, Option.getD_some, Option.some.injEq, Tree.leaf.injEq, Prod.mk.injEq, true_and]
            exact eq_comm
          · simp [getPath, lookup, hk, Ne.symm hk]
        | cons x xs =>
          by_cases hk : String.ofList tag = k
          · simp [getPath, lookup, hk]
          · simp [getPath, lookup, hk]

theorem stands_all : ∀ (cs : List El), AllPlain cs → (cs.map fun c => String.ofList c.tag).Nodup → ∀ (k : String) (ks : List String) (t : Text),
    getPath (treesOf cs) (k :: ks) = some (.leaf (some t)) ↔ (k :: ks, t) ∈ allLeaves cs
  | [], _, _, k, ks, t => by
    rw [treesOf, allLeaves]
    cases ks <;> simp [getPath, lookup]
  | c :: cs, h, hn, k, ks, t => by
    rw [AllPlain] at h
    rw [List.map_cons, List.nodup_cons] at hn
    rw [treesOf, allLeaves, getPath_step, List.mem_append]
    by_cases hk : String.ofList c.tag = k
    · rw [if_pos hk, stands_el c h.1]
      constructor
      · exact Or.inl
      · rintro (hh | hh)
        · exact hh
        · obtain ⟨y, ys, hy1, hy2⟩ := allLeaves_head hh
          injection hy1 with hy1 _
          rw [← hy1, ← hk] at hy2
          exact absurd hy2 hn.1
    · rw [if_neg hk, stands_all cs h.2 hn.2]
      constructor
      · exact Or.inr
      · rintro (hh | hh)
        · obtain ⟨ks', hks⟩ := leaves_head hh
          injection hks with hks _
          exact absurd hks.symm hk
        · exact hh
end

end Verif.Lemmas.XmlBox
