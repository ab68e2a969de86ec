import Verif.Props.UsidWrite
/-! USID files: C117 (the attributes written for the metadata). -/
namespace Verif.Props.Usid
open Verif Verif.Usid

mutual
/-- The values of a tree with their paths. -/
def leavesT (ks : List Text) : Tree → List (List Text × V)
  | .leaf v => [(ks, v)]
  | .node l => leavesL ks l
/-- The values of a dictionary with their paths. -/
def leavesL (ks : List Text) : List (Text × Tree) → List (List Text × V)
  | [] => []
  | (k, t) :: l => leavesT (ks ++ [k]) t ++ leavesL ks l
end

/-- Clean keys in a tree. -/
def CleanT : Tree → Prop
  | .leaf _ => True
  | .node e => CleanKeys e

theorem clean_cons {k : Text} {t : Tree} {l : List (Text × Tree)} (h : CleanKeys ((k, t) :: l)) :
    CleanT t ∧ CleanKeys l ∧ (k ≠ [] ∧ '-' ∉ k) ∧ k ∉ l.map Prod.fst := by
  cases h with
  | mk h1 h2 h3 =>
    rw [List.map_cons, List.nodup_cons] at h1
    refine ⟨?_, .mk h1.2 (fun k hk => h2 k (List.mem_cons_of_mem _ hk)) fun k e hk => h3 k e (List.mem_cons_of_mem _ hk),
      h2 k (by simp), h1.1⟩
    cases t with
    | leaf v => trivial
    | node e => exact h3 k e (List.mem_cons_self ..)

/-! ### Paths and values -/

mutual
theorem leavesT_mem (ks : List Text) (p : List Text) (v : V) : ∀ t : Tree, (p, v) ∈ leavesT ks t ↔
    ((p = ks ∧ t = .leaf v) ∨ ∃ e q, t = .node e ∧ p = ks ++ q ∧ LeafAt e q v)
  | .leaf w => by
    simp only [leavesT, List.mem_singleton, Prod.mk.injEq, Tree.leaf.injEq, reduceCtorEq, false_and, exists_false, or_false]
    exact ⟨fun h => ⟨h.1, h.2.symm⟩, fun h => ⟨h.1, h.2.symm⟩⟩
  | .node l => by
    simp only [leavesT, reduceCtorEq, and_false, Tree.node.injEq, false_or]
    rw [leavesL_mem ks p v l]
    constructor
    · rintro ⟨q, h⟩; exact ⟨l, q, rfl, h⟩
    · rintro ⟨e, q, rfl, h⟩; exact ⟨q, h⟩
theorem leavesL_mem (ks : List Text) (p : List Text) (v : V) : ∀ l : List (Text × Tree), (p, v) ∈ leavesL ks l ↔
    ∃ q, p = ks ++ q ∧ LeafAt l q v
  | [] => by
    simp only [leavesL, List.not_mem_nil, false_iff]
    rintro ⟨q, -, h⟩
    cases h with
    | leaf h => cases h
    | node h _ => cases h
  | (k, t) :: l => by
    rw [leavesL, List.mem_append, leavesT_mem (ks ++ [k]) p v t, leavesL_mem ks p v l]
    constructor
    · rintro ((⟨rfl, rfl⟩ | ⟨e, q, rfl, rfl, h⟩) | ⟨q, rfl, h⟩)
      · exact ⟨[k], rfl, .leaf (List.mem_cons_self ..)⟩
      · exact ⟨k :: q, by simp, .node (List.mem_cons_self ..) h⟩
      · refine ⟨q, rfl, ?_⟩
        cases h with
        | leaf h => exact .leaf (List.mem_cons_of_mem _ h)
        | node h h' => exact .node (List.mem_cons_of_mem _ h) h'
    · rintro ⟨q, rfl, h⟩
      cases h with
      | leaf h =>
        rcases List.mem_cons.1 h with e | e
        · injection e with e1 e2
          subst e1; subst e2
          exact .inl (.inl ⟨rfl, rfl⟩)
        · exact .inr ⟨_, rfl, .leaf e⟩
      | node h h' =>
        rcases List.mem_cons.1 h with e | e
        · injection e with e1 e2
          subst e1; subst e2
          exact .inl (.inr ⟨_, _, rfl, by simp, h'⟩)
        · exact .inr ⟨_, rfl, .node e h'⟩
end

theorem leafAt_head {l : List (Text × Tree)} {q : List Text} {v : V} (h : LeafAt l q v) : ∃ k r, q = k :: r ∧ k ∈ l.map Prod.fst := by
  cases h with
  | leaf h => exact ⟨_, [], rfl, List.mem_map.2 ⟨_, h, rfl⟩⟩
  | node h _ => exact ⟨_, _, rfl, List.mem_map.2 ⟨_, h, rfl⟩⟩

mutual
theorem leavesT_nodup (ks : List Text) : ∀ t : Tree, CleanT t → ((leavesT ks t).map Prod.fst).Nodup
  | .leaf v, _ => by simp [leavesT]
  | .node l, h => by rw [leavesT]; exact leavesL_nodup ks l h
theorem leavesL_nodup (ks : List Text) : ∀ l : List (Text × Tree), CleanKeys l → ((leavesL ks l).map Prod.fst).Nodup
  | [], _ => by simp [leavesL]
  | (k, t) :: l, h => by
    obtain ⟨h1, h2, _, h4⟩ := clean_cons h
    rw [leavesL, List.map_append, List.nodup_append]
    refine ⟨leavesT_nodup _ t h1, leavesL_nodup ks l h2, ?_⟩
    intro a ha b hb e
    subst e
    obtain ⟨⟨p, v⟩, hp, rfl⟩ := List.mem_map.1 ha
    obtain ⟨⟨p', v'⟩, hp', e'⟩ := List.mem_map.1 hb
    dsimp only at e'
    subst e'
    obtain ⟨q', e1, h5⟩ := (leavesL_mem ks p' v' l).1 hp'
    obtain ⟨k', r, rfl, hk⟩ := leafAt_head h5
    rcases (leavesT_mem (ks ++ [k]) p' v t).1 hp with ⟨e2, _⟩ | ⟨e, q, _, e2, _⟩
    · rw [e2] at e1
      have := List.append_cancel_left e1
      simp only [List.cons.injEq] at this
      exact h4 (this.1 ▸ hk)
    · rw [e2, List.append_assoc] at e1
      have := List.append_cancel_left e1
      simp only [List.singleton_append, List.cons.injEq] at this
      exact h4 (this.1 ▸ hk)
end

theorem leafAt_clean {l : List (Text × Tree)} {q : List Text} {v : V} (h : LeafAt l q v) : CleanKeys l → ∀ k ∈ q, k ≠ [] ∧ '-' ∉ k := by
  induction h with
  | leaf h =>
    intro hc k hk
    cases hc with
    | mk _ h2 _ =>
      rw [List.mem_singleton] at hk
      subst hk
      exact h2 _ (List.mem_map.2 ⟨_, h, rfl⟩)
  | node h _ ih =>
    intro hc k hk
    cases hc with
    | mk _ h2 h3 =>
      rcases List.mem_cons.1 hk with e | e
      · subst e
        exact h2 _ (List.mem_map.2 ⟨_, h, rfl⟩)
      · exact ih (h3 _ _ h) k e

/-! ### Joined keys -/

theorem join_snoc (k : Text) : ∀ {ks : List Text}, ks ≠ [] → joinWith ['-'] (ks ++ [k]) = joinWith ['-'] ks ++ '-' :: k
  | [a], _ => by simp [joinWith]
  | a :: b :: ks, _ => by
    have ih := join_snoc k (ks := b :: ks) (by simp)
    simp only [List.cons_append] at ih ⊢
    rw [joinWith, ih, joinWith]
    simp

theorem join_ne_nil : ∀ {ks : List Text}, ks ≠ [] → (∀ k ∈ ks, k ≠ []) → joinWith ['-'] ks ≠ []
  | [a], _, h => by simpa [joinWith] using h a (by simp)
  | a :: b :: ks, _, h => by
    rw [joinWith]
    simp

theorem joinKey_join {ks : List Text} (h : ∀ k ∈ ks, k ≠ []) (k : Text) : joinKey (joinWith ['-'] ks) k = joinWith ['-'] (ks ++ [k]) := by
  unfold joinKey
  by_cases hk : ks = []
  · subst hk; simp [joinWith]
  · rw [if_neg (join_ne_nil hk h), join_snoc k hk]

theorem ofItems_id {α : Type} : ∀ {l acc : List (Text × α)}, ((acc ++ l).map Prod.fst).Nodup → update acc l = acc ++ l
  | [], acc, _ => by simp [update]
  | (k, v) :: l, acc, h => by
    have hk : k ∉ acc.map Prod.fst := by
      intro hc
      rw [List.map_append, List.nodup_append] at h
      exact h.2.2 k hc k (by simp) rfl
    have ih := ofItems_id (l := l) (acc := acc ++ [(k, v)]) (by simpa using h)
    unfold update at ih ⊢
    rw [List.foldl_cons, setKw_new hk, ih]
    simp

/-- The joined key of a path. -/
def keyed (e : List Text × V) : Text × V := (joinWith ['-'] e.1, e.2)

theorem keyed_nodup {l : List (List Text × V)} (h : (l.map Prod.fst).Nodup) (hc : ∀ e ∈ l, e.1 ≠ [] ∧ ∀ k ∈ e.1, k ≠ [] ∧ '-' ∉ k) :
    ((l.map keyed).map Prod.fst).Nodup := by
  rw [List.map_map]
  have : l.map (Prod.fst ∘ keyed) = (l.map Prod.fst).map (joinWith ['-']) := by rw [List.map_map]; rfl
  rw [this]
  apply List.Nodup.map_on _ h
  intro a ha b hb e
  obtain ⟨x, hx, rfl⟩ := List.mem_map.1 ha
  obtain ⟨y, hy, rfl⟩ := List.mem_map.1 hb
  have e1 := splitChar_join (c := '-') (hc x hx).1 fun k hk => ((hc x hx).2 k hk).2
  have e2 := splitChar_join (c := '-') (hc y hy).1 fun k hk => ((hc y hy).2 k hk).2
  rw [← e1, ← e2, e]

theorem leaves_paths {ks : List Text} (hk : ∀ k ∈ ks, k ≠ [] ∧ '-' ∉ k) {l : List (Text × Tree)} (h : CleanKeys l) :
    ∀ e ∈ leavesL ks l, e.1 ≠ [] ∧ ∀ k ∈ e.1, k ≠ [] ∧ '-' ∉ k := by
  rintro ⟨p, v⟩ he
  obtain ⟨q, rfl, hq⟩ := (leavesL_mem ks p v l).1 he
  obtain ⟨k, r, e, _⟩ := leafAt_head hq
  refine ⟨by simp [e], fun k hk' => ?_⟩
  rcases List.mem_append.1 hk' with h' | h'
  · exact hk k h'
  · exact leafAt_clean hq h k h'

theorem ofItems_leaves {ks : List Text} (hk : ∀ k ∈ ks, k ≠ [] ∧ '-' ∉ k) {l : List (Text × Tree)} (h : CleanKeys l) :
    ofItems ((leavesL ks l).map keyed) = (leavesL ks l).map keyed := by
  unfold ofItems
  rw [ofItems_id (by simpa using keyed_nodup (leavesL_nodup ks l h) (leaves_paths hk h))]
  rfl

mutual
theorem flattenTree_eq (ks : List Text) (hk : ∀ k ∈ ks, k ≠ [] ∧ '-' ∉ k) : ∀ t : Tree, CleanT t →
    flattenTree (joinWith ['-'] ks) t = (leavesT ks t).map keyed
  | .leaf v, _ => by simp [flattenTree, leavesT, keyed]
  | .node l, h => by
    rw [flattenTree, leavesT, flattenItems_eq ks hk l h, ofItems_leaves hk h]
theorem flattenItems_eq (ks : List Text) (hk : ∀ k ∈ ks, k ≠ [] ∧ '-' ∉ k) : ∀ l : List (Text × Tree), CleanKeys l →
    flattenItems (joinWith ['-'] ks) l = (leavesL ks l).map keyed
  | [], _ => by simp [flattenItems, leavesL]
  | (k, t) :: l, h => by
    obtain ⟨h1, h2, h3, _⟩ := clean_cons h
    rw [flattenItems, leavesL, List.map_append, joinKey_join (fun k hk' => (hk k hk').1), flattenItems_eq ks hk l h2,
      flattenTree_eq (ks ++ [k]) _ t h1]
    intro k' hk'
    rcases List.mem_append.1 hk' with h' | h'
    · exact hk k' h'
    · rw [List.mem_singleton] at h'
      subst h'
      exact h3
end

theorem parameters_eq {s : WSig} (h1 : CleanKeys s.metadata) (h2 : CleanKeys s.original) (h3 : "Original".toList ∉ s.metadata.map Prod.fst) :
    parameters s = (leavesL [] s.metadata ++ leavesL ["Original".toList] s.original).map keyed ∧
      ((parameters s).map Prod.fst).Nodup := by
  have hk : ∀ k ∈ ["Original".toList], k ≠ [] ∧ '-' ∉ k := by decide +kernel
  have e1 := flattenItems_eq [] (by simp) s.metadata h1
  have e2 := flattenItems_eq ["Original".toList] hk s.original h2
  have hj : joinWith ['-'] ["Original".toList] = "Original".toList := by simp [joinWith]
  rw [hj] at e2
  have hj' : joinWith ['-'] ([] : List Text) = [] := rfl
  rw [hj'] at e1
  have hnd : ((leavesL [] s.metadata ++ leavesL ["Original".toList] s.original).map Prod.fst).Nodup := by
    rw [List.map_append, List.nodup_append]
    refine ⟨leavesL_nodup [] _ h1, leavesL_nodup _ _ h2, ?_⟩
    intro a ha b hb e
    subst e
    obtain ⟨⟨p, v⟩, hp, rfl⟩ := List.mem_map.1 ha
    obtain ⟨⟨p', v'⟩, hp', e'⟩ := List.mem_map.1 hb
    dsimp only at e'
    subst e'
    obtain ⟨q, e3, hq⟩ := (leavesL_mem [] p' v _).1 hp
    obtain ⟨q', e4, hq'⟩ := (leavesL_mem _ p' v' _).1 hp'
    obtain ⟨k, r, rfl, hk'⟩ := leafAt_head hq
    rw [e4] at e3
    simp only [List.nil_append, List.singleton_append, List.cons.injEq] at e3
    exact h3 (e3.1 ▸ hk')
  have hkn := keyed_nodup hnd (by
    intro e he
    rcases List.mem_append.1 he with h | h
    · exact leaves_paths (by simp) h1 e h
    · exact leaves_paths hk h2 e h)
  have : parameters s = (leavesL [] s.metadata ++ leavesL ["Original".toList] s.original).map keyed := by
    unfold parameters flattenDict
    rw [e1, e2, ofItems_leaves (by simp) h1, ofItems_leaves hk h2, ofItems_id (by rw [← List.map_append]; exact hkn), ← List.map_append]
  exact ⟨this, this ▸ hkn⟩

/-- **C117 (attributes).** The attributes of the measurement are the values of the metadata under their keys joined by dashes, and those
of the original metadata with `Original` before them, and no others. -/
theorem C117_attributes {env : Env} {name : Text} {old : Option File} {s : WSig} {nav sig : List (WAxis × Nat)} (hw : Writable s nav sig)
    (h1 : CleanKeys s.metadata) (h2 : CleanKeys s.original) (h3 : "Original".toList ∉ s.metadata.map Prod.fst) :
    ∃ g m, fileWriter env name old s = .ok g ∧ g.mains.getLast? = some m ∧
      (∀ ks v, LeafAt s.metadata ks v → getKw (joinWith ['-'] ks) m.above = some v) ∧
      (∀ ks v, LeafAt s.original ks v → getKw (joinWith ['-'] ("Original".toList :: ks)) m.above = some v) ∧
      ∀ k v, (k, v) ∈ m.above → (∃ ks, k = joinWith ['-'] ks ∧ LeafAt s.metadata ks v) ∨
        ∃ ks, k = joinWith ['-'] ("Original".toList :: ks) ∧ LeafAt s.original ks v := by
  obtain ⟨e, hn⟩ := parameters_eq h1 h2 h3
  refine ⟨_, _, writer_eq hw, List.getLast?_concat, ?_, ?_, ?_⟩
  · intro ks v h
    apply getKw_nodup hn
    rw [e]
    exact List.mem_map.2 ⟨(ks, v), List.mem_append_left _ ((leavesL_mem [] ks v _).2 ⟨ks, rfl, h⟩), rfl⟩
  · intro ks v h
    apply getKw_nodup hn
    rw [e]
    exact List.mem_map.2 ⟨("Original".toList :: ks, v), List.mem_append_right _ ((leavesL_mem _ _ v _).2 ⟨ks, rfl, h⟩), rfl⟩
  · intro k v h
    have h : (k, v) ∈ parameters s := h
    rw [e] at h
    obtain ⟨⟨p, w⟩, hp, e'⟩ := List.mem_map.1 h
    unfold keyed at e'
    injection e' with e1 e2
    subst e1; subst e2
    rcases List.mem_append.1 hp with h | h
    · obtain ⟨q, e, hq⟩ := (leavesL_mem [] _ _ _).1 h
      rw [List.nil_append] at e
      subst e
      exact .inl ⟨_, rfl, hq⟩
    · obtain ⟨q, rfl, hq⟩ := (leavesL_mem _ _ _ _).1 h
      exact .inr ⟨q, rfl, hq⟩

end Verif.Props.Usid
