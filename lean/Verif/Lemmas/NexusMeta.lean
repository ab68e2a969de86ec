import Verif.Props.NexusWrite
/-! Lemmas on NeXus files: metadata that are written. -/
namespace Verif.Props.Nexus
open Verif Verif.Nexus

/-! ### Children in order -/

/-- The children of a group are in the order of their names. -/
def Sorted (l : Kids) : Prop := l.Pairwise fun e e' => before e.1 e'.1 = true

theorem before_irrefl : ∀ s : Text, before s s = false
  | [] => rfl
  | a :: s => by unfold before; rw [if_pos rfl]; exact before_irrefl s

theorem before_trans : ∀ {s t u : Text}, before s t = true → before t u = true → before s u = true
  | [], [], _, h, _ => by cases h
  | [], _ :: _, [], _, h => by cases h
  | [], _ :: _, _ :: _, _, _ => rfl
  | _ :: _, [], _, h, _ => by cases h
  | _ :: _, _ :: _, [], _, h => by cases h
  | a :: s, b :: t, c :: u, h1, h2 => by
    unfold before at h1 h2 ⊢
    by_cases e1 : a = b
    · subst e1
      rw [if_pos rfl] at h1
      by_cases e2 : a = c
      · subst e2
        rw [if_pos rfl] at h2 ⊢
        exact before_trans h1 h2
      · rw [if_neg e2] at h2 ⊢; exact h2
    · rw [if_neg e1] at h1
      have l1 := of_decide_eq_true h1
      by_cases e2 : b = c
      · subst e2
        rw [if_neg e1]; exact decide_eq_true l1
      · rw [if_neg e2] at h2
        have l2 := of_decide_eq_true h2
        have : a ≠ c := by rintro rfl; omega
        rw [if_neg this]; exact decide_eq_true (by omega)

theorem char_inj {a b : Char} (h : a.toNat = b.toNat) : a = b := Char.toNat_inj.1 h

theorem before_total : ∀ {s t : Text}, s ≠ t → before s t = false → before t s = true
  | [], [], h, _ => absurd rfl h
  | [], _ :: _, _, h => by cases h
  | _ :: _, [], _, _ => rfl
  | a :: s, b :: t, h, h1 => by
    unfold before at h1 ⊢
    by_cases e : a = b
    · subst e
      rw [if_pos rfl] at h1 ⊢
      exact before_total (fun e => h (by rw [e])) h1
    · rw [if_neg e] at h1
      rw [if_neg (Ne.symm e)]
      have := of_decide_eq_false h1
      refine decide_eq_true ?_
      have hne : a.toNat ≠ b.toNat := fun e' => e (char_inj e')
      omega

theorem put_sorted {k : Text} {n : Node} : ∀ {g : Kids}, Sorted g → Sorted (put k n g)
  | [], _ => List.pairwise_singleton _ _
  | (k', n') :: l, h => by
    obtain ⟨h1, h2⟩ := List.pairwise_cons.1 h
    unfold put
    split
    · rename_i e
      subst e
      exact List.pairwise_cons.2 ⟨h1, h2⟩
    · rename_i hne
      split
      · rename_i hb
        refine List.pairwise_cons.2 ⟨fun e he => ?_, h⟩
        rcases List.mem_cons.1 he with rfl | he
        · exact hb
        · exact before_trans hb (h1 e he)
      · rename_i hb
        refine List.pairwise_cons.2 ⟨fun e he => ?_, put_sorted h2⟩
        rcases mem_put he with rfl | he
        · exact before_total (Ne.symm hne) (by simpa using hb)
        · exact h1 e he

theorem sorted_nodup {g : Kids} (h : Sorted g) : (g.map Prod.fst).Nodup := by
  rw [List.Nodup, List.pairwise_map]
  refine h.imp fun {e e'} hb he => ?_
  rw [he, before_irrefl] at hb; cases hb

/-- Nothing changes where it is the same. -/
theorem put_same {k : Text} {n : Node} : ∀ {g : Kids}, Sorted g → getKw k g = some n → put k n g = g
  | [], _, h => by cases h
  | (k', n') :: l, hs, h => by
    obtain ⟨h1, h2⟩ := List.pairwise_cons.1 hs
    unfold getKw at h
    unfold put
    split at h
    · rename_i e
      rw [if_pos e, ← e, Option.some.inj h]
    · rename_i e
      rw [if_neg e]
      have hb := h1 _ (getKw_in h)
      rw [before_asymm hb, put_same h2 h]
      rfl

/-! ### Writing -/

/-- What is written for a value. -/
inductive Rep (skip : List Text) : M → Node → Prop
  | num (q : ℚ) : Rep skip (.num q) (.ds [] (.num q))
  | str {t : Text} (h : clean t = t) : Rep skip (.str t) (.ds [] (.bytes t))
  | nums {s : List Nat} {l : List ℚ} (h : 2 ≤ s.prod) : Rep skip (.nums s l) (.ds [] (.nums s l))
  | texts {l : List Text} (h : 2 ≤ l.length) : Rep skip (.texts l) (.ds [] (.texts [l.length] l))
  | dict {d : MDict} {l : Kids} (hl : Sorted l) (hk : ∀ e ∈ l, GoodKey e.1) (hd : ∀ e ∈ d, GoodKey e.1) (h : ∀ k v n, getKw k d = some v → getKw k l = some n → Rep skip v n)
      (hs : ∀ k v, getKw k d = some v → k ∉ skip → ∃ n, getKw k l = some n) (hn : ∀ k, getKw k d = none ∨ k ∈ skip → getKw k l = none) : Rep skip (.dict d) (.grp [] l)

theorem no_attrs {d : MDict} (h : ∀ e ∈ d, GoodKey e.1) : getKw "attrs".toList d = none := by
  cases hg : getKw "attrs".toList d with
  | none => rfl
  | some v => exact absurd rfl (h _ (getKw_in hg)).2.2.2.1

theorem no_value {d : MDict} (h : ∀ e ∈ d, GoodKey e.1) : getKw "value".toList d = none := by
  cases hg : getKw "value".toList d with
  | none => rfl
  | some v => exact absurd rfl (h _ (getKw_in hg)).2.2.2.2.1

theorem put_keys {k : Text} {n : Node} {g : Kids} (hk : GoodKey k) (hg : ∀ e ∈ g, GoodKey e.1) : ∀ e ∈ put k n g, GoodKey e.1 := by
  intro e he
  rcases mem_put he with rfl | he
  · exact hk
  · exact hg e he

/-- The entries of a dictionary, from those of its values. -/
theorem write_list {skip : List Text} : ∀ {d : MDict} {g : Kids}, (d.map Prod.fst).Nodup → (∀ e ∈ d, GoodKey e.1) →
    (∀ e ∈ d, ∀ g : Kids, getKw e.1 g = none → ∃ n, writeItem skip e.1 e.2 g = .ok (put e.1 n g) ∧ Rep skip e.2 n) →
    Sorted g → (∀ e ∈ g, GoodKey e.1) → (∀ e ∈ d, getKw e.1 g = none) →
    ∃ g', writeGroups skip d g = .ok g' ∧ Sorted g' ∧ (∀ e ∈ g', GoodKey e.1) ∧ (∀ k v, getKw k d = some v → k ∉ skip → ∃ n, getKw k g' = some n ∧ Rep skip v n) ∧
      ∀ k, getKw k d = none ∨ k ∈ skip → getKw k g' = getKw k g
  | [], g, _, _, _, hg, hgk, _ => ⟨g, by rw [writeGroups], hg, hgk, (fun k v h => by cases h), fun _ _ => rfl⟩
  | (k, v) :: d, g, hnd, hk, hw, hg, hgk, hfree => by
    obtain ⟨n1, n2⟩ := List.nodup_cons.1 hnd
    have gk := hk _ List.mem_cons_self
    have hd := fun e he => hk e (List.mem_cons_of_mem _ he)
    have hw' := fun e he => hw e (List.mem_cons_of_mem _ he)
    have hkd : getKw k d = none := getKw_none n1
    by_cases hs : k ∈ skip
    · obtain ⟨g', q1, q2, q3, q4, q5⟩ := write_list (g := g) n2 hd hw' hg hgk fun e he => hfree e (List.mem_cons_of_mem _ he)
      refine ⟨g', ?_, q2, q3, ?_, ?_⟩
      · rw [writeGroups, if_pos (.inr hs), q1]
      · intro k' v' h hns
        unfold getKw at h
        rw [if_neg (by rintro rfl; exact hns hs)] at h
        exact q4 k' v' h hns
      · intro k' h
        refine q5 k' ?_
        rcases h with h | h
        · unfold getKw at h
          split at h
          · cases h
          · exact .inl h
        · exact .inr h
    · obtain ⟨n, w1, w2⟩ := hw _ List.mem_cons_self g (hfree _ List.mem_cons_self)
      obtain ⟨g', q1, q2, q3, q4, q5⟩ := write_list (g := put k n g) n2 hd hw' (put_sorted hg) (put_keys gk hgk) fun e he => by
        rw [getKw_put, if_neg]
        · exact hfree e (List.mem_cons_of_mem _ he)
        · intro e'
          have := List.mem_map_of_mem (f := Prod.fst) he
          rw [e'] at this
          exact n1 this
      refine ⟨g', ?_, q2, q3, ?_, ?_⟩
      · rw [writeGroups, if_neg]
        · rw [show writeItem skip k v g = .ok (put k n g) from w1]
          exact q1
        · rintro (e | e)
          · exact gk.2.2.2.1 e
          · exact hs e
      · intro k' v' h hns
        unfold getKw at h
        split at h
        · rename_i e
          subst e
          refine ⟨n, ?_, by rw [← Option.some.inj h]; exact w2⟩
          rw [q5 k (.inl hkd), getKw_put, if_pos rfl]
        · exact q4 k' v' h hns
      · intro k' h
        have hne : k' ≠ k := by
          rintro rfl
          rcases h with h | h
          · unfold getKw at h; rw [if_pos rfl] at h; cases h
          · exact hs h
        rw [q5 k', getKw_put, if_neg hne]
        rcases h with h | h
        · unfold getKw at h
          rw [if_neg (Ne.symm hne)] at h
          exact .inl h
        · exact .inr h

theorem write_good {skip : List Text} {v : M} (h : Good v) : ∀ (k : Text) (g : Kids), getKw k g = none → ∃ n, writeItem skip k v g = .ok (put k n g) ∧ Rep skip v n := by
  induction h with
  | num q =>
    intro k g hg
    refine ⟨_, ?_, .num q⟩
    rw [writeItem]
    · unfold writeLeaf createDs; dsimp only; rw [hg]
    all_goals (intro _ e; cases e)
  | str h =>
    intro k g hg
    refine ⟨_, ?_, .str (clean_id h.1 h.2)⟩
    rw [writeItem]
    · unfold writeLeaf createDs; dsimp only; rw [hg]
    all_goals (intro _ e; cases e)
  | @nums s l h =>
    intro k g hg
    refine ⟨_, ?_, .nums h⟩
    rw [writeItem]
    · unfold writeLeaf
      dsimp only
      have h1 : s ≠ [] := by rintro rfl; simp at h
      have h2 : s.head? ≠ some 0 := by
        cases s with
        | nil => exact fun e => by cases e
        | cons a s =>
          intro e
          have : a = 0 := Option.some.inj e
          subst this
          simp at h
      rw [if_neg h1, if_neg h2]
    all_goals (intro _ e; cases e)
  | @texts l h ha =>
    intro k g hg
    refine ⟨_, ?_, .texts h⟩
    rw [writeItem]
    · unfold writeLeaf
      have h1 : l ≠ [] := by rintro rfl; simp at h
      have h2 : arrayLeaf (.texts l) = .ok (.texts [l.length] l) := by
        unfold arrayLeaf
        dsimp only
        rw [if_pos]
        exact List.all_eq_true.2 fun t ht => List.all_eq_true.2 fun c hc => decide_eq_true (ha t ht c hc)
      simp only [bind, Except.bind, pure, Except.pure]
      rw [if_neg h1, h2]
    all_goals (intro _ e; cases e)
  | @dict d hn hk r ih =>
    intro k g hg
    obtain ⟨l, q1, q2, q3, q4, q5⟩ := write_list (skip := skip) (g := []) hn hk (fun e he g hg => ih e he e.1 g hg) List.Pairwise.nil (fun e he => absurd he List.not_mem_nil)
      (fun e _ => rfl)
    refine ⟨.grp [] l, ?_, .dict q2 q3 hk ?_ ?_ ?_⟩
    · rw [writeItem]
      unfold isDataDict valueOf requireGroup
      rw [no_attrs hk, no_value hk, hg]
      dsimp only
      rw [q1]
    · intro k' v n h1 h2
      by_cases hs : k' ∈ skip
      · rw [q5 k' (.inr hs)] at h2; cases h2
      · obtain ⟨n', e1, e2⟩ := q4 k' v h1 hs
        rw [h2] at e1
        rw [Option.some.inj e1]; exact e2
    · intro k' v h1 hs
      obtain ⟨n', e1, _⟩ := q4 k' v h1 hs
      exact ⟨n', e1⟩
    · intro k' h1
      rw [q5 k' h1]; rfl

/-! ### Attributes: there are none -/

theorem attr_list {skip : List Text} : ∀ {d : MDict} {n : Node}, (∀ e ∈ d, GoodKey e.1) → (∀ e ∈ d, writeAttrItem skip e.1 e.2 n = .ok n) → writeAttr skip d n = .ok n
  | [], n, _, _ => by rw [writeAttr]
  | (k, v) :: d, n, hk, h => by
    rw [writeAttr, h _ List.mem_cons_self]
    exact attr_list (fun e he => hk e (List.mem_cons_of_mem _ he)) fun e he => h e (List.mem_cons_of_mem _ he)

theorem attr_group {skip : List Text} {d : MDict} {a : Attrs} {l : Kids} (hl : Sorted l) (hd : ∀ e ∈ d, GoodKey e.1) (hnd : (d.map Prod.fst).Nodup)
    (h : ∀ k d' n, getKw k d = some (.dict d') → getKw k l = some n → writeAttr skip d' n = .ok n) (hg : ∀ k d', getKw k d = some (.dict d') → ∀ e ∈ d', GoodKey e.1)
    (hs : ∀ k v, getKw k d = some v → k ∉ skip → ∃ n, getKw k l = some n) : writeAttr skip d (.grp a l) = .ok (.grp a l) := by
  refine attr_list hd fun e he => ?_
  obtain ⟨k, v⟩ := e
  have hk := (hd _ he).2.2.2.1
  have hkd : getKw k d = some v := getKw_mem hnd he
  cases v with
  | dict d' =>
    rw [writeAttrItem, if_neg hk]
    unfold isDataDict
    rw [no_attrs (hg k d' hkd)]
    dsimp only
    by_cases hsk : k ∈ skip
    · rw [if_pos hsk]
    · rw [if_neg hsk]
      obtain ⟨n, hn⟩ := hs k _ hkd hsk
      unfold child
      dsimp only
      rw [hn]
      dsimp only
      rw [h k d' n hkd hn]
      dsimp only
      unfold setChild
      dsimp only
      rw [put_same hl hn]
  | _ =>
    rw [writeAttrItem]
    · rw [if_neg hk]
    · intro _ e; cases e

theorem good_dict {d : MDict} (h : Good (.dict d)) : (d.map Prod.fst).Nodup ∧ (∀ e ∈ d, GoodKey e.1) ∧ ∀ e ∈ d, Good e.2 := by
  cases h with | dict a b c => exact ⟨a, b, c⟩

theorem attr_rep {skip : List Text} {v : M} {n : Node} (h : Rep skip v n) : Good v → ∀ d, v = .dict d → writeAttr skip d n = .ok n := by
  induction h with
  | dict hl hk hd h hs hn ih =>
    rintro g d rfl'
    obtain rfl := M.dict.inj rfl'
    obtain ⟨g1, g2, g3⟩ := good_dict g
    refine attr_group hl hd g1 (fun k d' n e1 e2 => ih k _ n e1 e2 (g3 _ (getKw_in e1)) d' rfl) (fun k d' e1 => (good_dict (g3 _ (getKw_in e1))).2.1) hs
  | _ => intro _ d e; cases e

/-! ### Reading -/

theorem fixKey_good {k : Text} (h : GoodKey k) : fixKey k = k := by
  unfold fixKey
  cases hs : starts "keys" k with
  | true => exact absurd (starts_iff.1 hs) h.2.2.2.2.2
  | false => rfl

theorem load_list {P : Text → R → Prop} : ∀ {l : Kids} {t : Dict}, (l.map Prod.fst).Nodup →
    (∀ e ∈ l, ∃ w, P e.1 w ∧ ∀ t, loadKid false (fixKey e.1) e.2 t = .ok (setKw e.1 w t)) →
    ∃ r, loadKids false l t = .ok r ∧ (∀ k n, getKw k l = some n → ∃ w, P k w ∧ getKw k r = some w) ∧ ∀ k, getKw k l = none → getKw k r = getKw k t
  | [], t, _, _ => ⟨t, by rw [loadKids], (fun k n h => by cases h), fun _ _ => rfl⟩
  | (k, n) :: l, t, hnd, h => by
    obtain ⟨n1, n2⟩ := List.nodup_cons.1 hnd
    obtain ⟨w, w1, w2⟩ := h _ List.mem_cons_self
    obtain ⟨r, r1, r2, r3⟩ := load_list (t := setKw k w t) n2 fun e he => h e (List.mem_cons_of_mem _ he)
    refine ⟨r, ?_, ?_, ?_⟩
    · rw [loadKids, show loadKid false (fixKey k) n t = _ from w2 t]
      exact r1
    · intro k' n' hk'
      unfold getKw at hk'
      split at hk'
      · rename_i e
        subst e
        refine ⟨w, w1, ?_⟩
        rw [r3 k (getKw_none n1), getKw_setKw, if_pos rfl]
      · exact r2 k' n' hk'
    · intro k' hk'
      unfold getKw at hk'
      split at hk'
      · cases hk'
      · rename_i hne
        rw [r3 k' hk', getKw_setKw, if_neg (Ne.symm hne)]

theorem load_rep {skip : List Text} {v : M} {n : Node} (h : Rep skip v n) : ∃ w, Same skip v w ∧ ∀ k t, loadKid false k n t = .ok (setKw k w t) := by
  induction h with
  | num q => exact ⟨_, .num q, fun k t => by rw [loadKid]; rfl⟩
  | @str t h =>
    refine ⟨_, .str t, fun k t' => ?_⟩
    rw [loadKid]
    show Except.ok (setKw k (R.str (clean t)) t') = _
    rw [h]
  | @nums s l h =>
    refine ⟨_, .nums s l, fun k t => ?_⟩
    rw [loadKid]
    unfold loadDs
    simp only [bind, Except.bind, pure, Except.pure]
    rw [if_neg (by simp)]
    simp only [Bool.false_and, Bool.false_eq_true, if_false]
    have : parseDs (.nums s l) = .ok (.nums s l) := by
      unfold parseDs
      rw [if_neg (by show ¬ s.prod < 2; omega)]
      rfl
    rw [this]
  | @texts l h =>
    refine ⟨_, .texts l, fun k t => ?_⟩
    rw [loadKid]
    unfold loadDs
    simp only [bind, Except.bind, pure, Except.pure]
    rw [if_neg (by simp)]
    simp only [Bool.false_and, Bool.false_eq_true, if_false]
    have : parseDs (.texts [l.length] l) = .ok (.texts [l.length] l) := by
      unfold parseDs
      rw [if_neg (by show ¬ [l.length].prod < 2; simp; omega)]
      rfl
    rw [this]
  | @dict d l hl hk hd h hs hn ih =>
    obtain ⟨r, r1, r2, r3⟩ := load_list (P := fun k w => ∀ v, getKw k d = some v → Same skip v w) (t := []) (sorted_nodup hl) fun e he => by
      have hke : getKw e.1 l = some e.2 := getKw_mem (sorted_nodup hl) he
      cases hv : getKw e.1 d with
      | none => rw [hn e.1 (.inl hv)] at hke; cases hke
      | some v =>
        obtain ⟨w, w1, w2⟩ := ih e.1 v e.2 hv hke
        refine ⟨w, fun v' e' => ?_, fun t => ?_⟩
        · rw [← Option.some.inj e']; exact w1
        · rw [fixKey_good (hk e he)]; exact w2 e.1 t
    refine ⟨.dict r, .dict ?_ ?_ ?_, fun k t => ?_⟩
    · intro k v w h1 h2
      cases hkl : getKw k l with
      | none => rw [r3 k hkl] at h2; cases h2
      | some n =>
        obtain ⟨w', w1, w2⟩ := r2 k n hkl
        rw [h2] at w2
        rw [Option.some.inj w2]; exact w1 v h1
    · intro k v h1 h2
      obtain ⟨n, hkl⟩ := hs k v h1 h2
      obtain ⟨w', _, w2⟩ := r2 k n hkl
      exact ⟨w', w2⟩
    · intro k h1
      rw [r3 k (hn k h1)]; rfl
    · rw [loadKid]
      have : isData [] = false := rfl
      rw [this]
      simp only [Bool.false_eq_true, if_false]
      show (match loadKids false l [] with | .ok d => Except.ok (setKw k (R.dict d) t) | .error e => .error e) = _
      rw [r1]

/-! ### The search succeeds -/

theorem kids_find {hard : Bool} {pa : Attrs} {pk : Kids} {root : Text} : ∀ {l : Kids}, (∀ e ∈ l, ∀ path, ∃ r, findKid hard pa pk none path e.2 = .ok r) → ∃ r, findKids hard pa pk root l = .ok r
  | [], _ => ⟨[], by rw [findKids]⟩
  | (k, n) :: l, h => by
    obtain ⟨r1, h1⟩ := h _ List.mem_cons_self (root ++ '/' :: k)
    obtain ⟨r2, h2⟩ := kids_find (root := root) fun e he => h e (List.mem_cons_of_mem _ he)
    exact ⟨r1 ++ r2, by rw [findKids, h1, h2]⟩

theorem find_ok {hard : Bool} {n : Node} (h : NoTarget n) : ∀ (pa : Attrs) (pk : Kids) (soft : Option Text) (path : Text), getKw "target".toList pa = none →
    ∃ r, findKid hard pa pk soft path n = .ok r := by
  induction h with
  | ds a v =>
    intro pa pk soft path ht
    rw [findKid]
    unfold foundDs getlink
    rw [ht]
    split
    · exact ⟨_, rfl⟩
    · exact ⟨_, rfl⟩
  | @grp a l h _ ih =>
    intro pa pk soft path ht
    rw [findKid]
    rw [show getlink soft pa path = .ok soft by unfold getlink; rw [ht]]
    dsimp only
    split
    · exact ⟨_, rfl⟩
    · obtain ⟨r, hr⟩ := kids_find (hard := hard) (pa := a) (pk := l) (root := path) fun e he path => ih e he a l none path h
      rw [hr]
      exact ⟨_, rfl⟩
  | soft _ ih => intro pa pk soft path ht; rw [findKid]; exact ih _ _ _ _ ht
  | ext _ ih => intro pa pk soft path ht; rw [findKid]; exact ih _ _ _ _ ht

theorem rep_target {skip : List Text} {v : M} {n : Node} (h : Rep skip v n) : NoTarget n := by
  induction h with
  | @dict d l hl hk hd h hs hn ih =>
    refine .grp rfl fun e he => ?_
    have hke : getKw e.1 l = some e.2 := getKw_mem (sorted_nodup hl) he
    cases hv : getKw e.1 d with
    | none => rw [hn e.1 (.inl hv)] at hke; cases hke
    | some v => exact ih e.1 v e.2 hv hke
  | _ => exact .ds _ _

/-! ### A part of the file -/

/-- The class of the groups with metadata. -/
def collection : Attrs := [("NX_class".toList, .bytes "NXcollection".toList)]

theorem part_ok {skip : List Text} {key : String} {d : MDict} {aux : Kids} (g : Good (.dict d)) (hd : d ≠ []) (hk : getKw key.toList aux = none) :
    ∃ l, writePart skip key d aux = .ok (put key.toList (.grp collection l) aux) ∧ NoTarget (.grp collection l) ∧
      ∃ r, SameTop skip d r ∧ ∀ k t, loadKid false k (.grp collection l) t = .ok (setKw k (.dict r) t) := by
  obtain ⟨g1, g2, g3⟩ := good_dict g
  obtain ⟨l, q1, q2, q3, q4, q5⟩ := write_list (skip := skip) (g := []) g1 g2 (fun e he g hg => write_good (g3 e he) e.1 g hg) List.Pairwise.nil
    (fun e he => absurd he List.not_mem_nil) (fun e _ => rfl)
  refine ⟨l, ?_, .grp (by decide) fun e he => ?_, ?_⟩
  rotate_left
  · have hke : getKw e.1 l = some e.2 := getKw_mem (sorted_nodup q2) he
    cases hv : getKw e.1 d with
    | none => rw [q5 e.1 (.inl hv)] at hke; cases hke
    | some v =>
      by_cases hs : e.1 ∈ skip
      · rw [q5 e.1 (.inr hs)] at hke; cases hke
      · obtain ⟨n', e3, e4⟩ := q4 e.1 v hv hs
        rw [hke] at e3
        exact rep_target (Option.some.inj e3 ▸ e4)
  rotate_left
  · unfold writePart
    rw [if_neg hd, hk]
    dsimp only
    rw [q1]
    dsimp only
    have : writeAttr skip d (.grp collection l) = .ok (.grp collection l) := by
      refine attr_group q2 g2 g1 (fun k d' n e1 e2 => ?_) (fun k d' e1 => (good_dict (g3 _ (getKw_in e1))).2.1) fun k v h1 h2 => ?_
      · by_cases hs : k ∈ skip
        · rw [q5 k (.inr hs)] at e2; cases e2
        · obtain ⟨n', e3, e4⟩ := q4 k _ e1 hs
          rw [e2] at e3
          rw [Option.some.inj e3]
          exact attr_rep e4 (g3 _ (getKw_in e1)) d' rfl
      · obtain ⟨n, hn, _⟩ := q4 k v h1 h2
        exact ⟨n, hn⟩
    unfold collection at this
    rw [this]
    rfl
  · obtain ⟨r, r1, r2, r3⟩ := load_list (P := fun k w => ∀ v, getKw k d = some v → Same skip v w) (t := attrsTree collection) (sorted_nodup q2) fun e he => by
      have hke : getKw e.1 l = some e.2 := getKw_mem (sorted_nodup q2) he
      cases hv : getKw e.1 d with
      | none => rw [q5 e.1 (.inl hv)] at hke; cases hke
      | some v =>
        by_cases hs : e.1 ∈ skip
        · rw [q5 e.1 (.inr hs)] at hke; cases hke
        · obtain ⟨n', e3, e4⟩ := q4 e.1 v hv hs
          rw [hke] at e3
          obtain ⟨w, w1, w2⟩ := load_rep (Option.some.inj e3 ▸ e4)
          refine ⟨w, fun v' e' => ?_, fun t => ?_⟩
          · rw [← Option.some.inj e']; exact w1
          · rw [fixKey_good (q3 e he)]; exact w2 e.1 t
    refine ⟨r, ⟨?_, ?_, ?_⟩, fun k t => ?_⟩
    · intro k v w hne h1 h2
      cases hkl : getKw k l with
      | none =>
        rw [r3 k hkl] at h2
        have : getKw k (attrsTree collection) = none := by
          show getKw k [("attrs".toList, _)] = none
          rw [getKw, if_neg (Ne.symm hne)]; rfl
        rw [this] at h2; cases h2
      | some n =>
        obtain ⟨w', w1, w2⟩ := r2 k n hkl
        rw [h2] at w2
        rw [Option.some.inj w2]; exact w1 v h1
    · intro k v h1 h2
      obtain ⟨n, hkl, _⟩ := q4 k v h1 h2
      obtain ⟨w', _, w2⟩ := r2 k n hkl
      exact ⟨w', w2⟩
    · intro k hne h1
      rw [r3 k (by rw [q5 k h1]; rfl)]
      show getKw k [("attrs".toList, _)] = none
      rw [getKw, if_neg (Ne.symm hne)]; rfl
    · rw [loadKid]
      have : isData collection = false := by decide
      rw [this]
      simp only [Bool.false_eq_true, if_false]
      rw [r1]

end Verif.Props.Nexus
