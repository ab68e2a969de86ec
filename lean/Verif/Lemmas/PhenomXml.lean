import Verif.Lemmas.PhenomEds
/-! Metadata of pictures in ELID files. -/
namespace Verif.Lemmas.Phenom
open Verif.Phenom
open Verif.Spec.Phenom (At Length Dated Frame Picture Cutout metres Fits tag attrs text children listOf)

theorem toList_inj {a b : String} : a.toList = b.toList ↔ a = b := ⟨fun h => String.toList_injective h, fun h => by rw [h]⟩

theorem childVals_skip {k : Text} : ∀ {cs : List Elem} {d : List (Text × J)}, (∀ c ∈ cs, tag c ≠ k) → getKw k (childVals cs d) = getKw k d
  | [], d, _ => by rw [childVals]
  | .mk t a x c :: cs, d, h => by
    rw [childVals, childVals_skip fun y hy => h y (List.mem_cons_of_mem _ hy), getKw_setKw,
      if_neg fun e => h _ List.mem_cons_self e.symm]

theorem childVals_hit : ∀ {cs : List Elem} {d : List (Text × J)} {c : Elem}, c ∈ cs → (∀ c' ∈ cs, tag c' = tag c → c' = c) →
    getKw (tag c) (childVals cs d) = some (elemVal c)
  | .mk t a x ch :: cs, d, c, hm, hu => by
    rw [childVals]
    by_cases hc : c ∈ cs
    · exact childVals_hit hc fun y hy => hu y (List.mem_cons_of_mem _ hy)
    · have he : c = .mk t a x ch := by
        rcases List.mem_cons.1 hm with h | h
        · exact h
        · exact absurd h hc
      rw [childVals_skip fun y hy e => hc (by rw [← hu y (List.mem_cons_of_mem _ hy) e]; exact hy), getKw_setKw]
      subst he
      exact if_pos rfl

theorem elemVal_children {e : Elem} (h : children e ≠ []) : elemVal e = .dict (childVals (children e) []) := by
  cases e with
  | mk t a x cs =>
    cases cs with
    | nil => exact absurd rfl h
    | cons c cs => rw [elemVal]; rfl

theorem elemVal_leaf {e : Elem} (h : children e = []) (ha : attrs e = []) : elemVal e = textVal (text e) := by
  cases e with
  | mk t a x cs =>
    change cs = [] at h
    change a = [] at ha
    subst h ha
    rw [elemVal]
    rfl

theorem getIn_at {ks : List String} {e x : Elem} (h : At ks e x) : getIn ks (elemVal e) = .ok (elemVal x) := by
  induction h with
  | here e => rfl
  | @child k ks e c x hm ht hu _ ih =>
    have hne : children e ≠ [] := by intro h0; rw [h0] at hm; exact absurd hm List.not_mem_nil
    have : item k (elemVal e) = .ok (elemVal c) := by
      rw [elemVal_children hne]
      unfold item
      dsimp only
      rw [← ht, childVals_hit hm hu]
    unfold getIn
    simp only [this, bind, Except.bind]
    exact ih

theorem getIn_one (k : String) (j : J) : getIn [k] j = item k j := by
  unfold getIn
  cases item k j <;> rfl

theorem unitFactor_metres {u : Text} {f : ℚ} (h : metres u = some f) : unitFactor u = .ok f := by
  unfold metres at h
  split at h
  · rename_i h1; cases h; rw [h1]; rfl
  split at h
  · rename_i h1; cases h; rw [h1]; rfl
  split at h
  · rename_i h1; cases h; rcases h1 with h1 | h1 <;> rw [h1] <;> rfl
  split at h
  · rename_i h1; cases h; rw [h1]; rfl
  split at h
  · rename_i h1; cases h; rw [h1]; rfl
  · exact absurd h (by simp)

theorem length_value {env : Env} {x : Elem} {q : ℚ} (h : Length env x q) : valueWithUnit env (elemVal x) = .ok q := by
  obtain ⟨hc, t, f, ht, hf, ⟨ha, rfl⟩ | ⟨u, m, ha, hm, rfl⟩⟩ := h
  · rw [elemVal_leaf hc ha, ht]
    exact hf
  · cases x with
    | mk tg a tx cs =>
      change cs = [] at hc
      change a = _ at ha
      change tx = _ at ht
      subst hc ha ht
      have e : elemVal (.mk tg [("unit".toList, u)] (some t) []) = .dict [("value".toList, .str t), ("unit".toList, .str u)] := by
        rw [elemVal]; rfl
      rw [e]
      have e1 : item "value" (.dict [("value".toList, .str t), ("unit".toList, .str u)]) = .ok (.str t) := rfl
      have e2 : item "unit" (.dict [("value".toList, .str t), ("unit".toList, .str u)]) = .ok (.str u) := rfl
      unfold valueWithUnit
      simp only [e1, e2, toFloat, hf, unitFactor_metres hm, bind, Except.bind, pure, Except.pure]

theorem dateTime_item {d : List (Text × J)} : dateTime (.dict d) = match getKw "time".toList d with
    | none => .ok none
    | some (.str t) => splitDate t
    | some _ => .error .attributeError := by
  unfold dateTime hasKey
  simp only [bind, Except.bind]
  cases h : getKw "time".toList d with
  | none => simp
  | some v => cases v <;> simp

theorem dated_value {e : Elem} {r : Option (Text × Text)} (hne : children e ≠ []) (h : Dated e r) : dateTime (elemVal e) = .ok r := by
  rw [elemVal_children hne, dateTime_item]
  rcases h with ⟨rfl, h⟩ | ⟨c, d, t, ha, hc, hat, ht, hd, htt, rfl⟩
  · rw [childVals_skip h]
    rfl
  · cases ha with
    | child hm htag hu hx =>
      cases hx
      rw [← htag, childVals_hit hm hu, elemVal_leaf hc hat, ht]
      simp only [textVal]
      unfold splitDate
      rw [splitChar_append hd, splitChar_none htt]

/-! ### Setting an entry -/

theorem item_dict {k : String} {j v : J} (h : item k j = .ok v) : ∃ d, j = .dict d ∧ getKw k.toList d = some v := by
  cases j with
  | dict d =>
    refine ⟨d, rfl, ?_⟩
    unfold item at h
    dsimp only at h
    cases hg : getKw k.toList d with
    | none => rw [hg] at h; exact absurd h (by simp)
    | some x => rw [hg] at h; cases h; rfl
  | _ => exact absurd h (by simp [item])

theorem item_of {k : String} {d : List (Text × J)} {v : J} (h : getKw k.toList d = some v) : item k (.dict d) = .ok v := by
  unfold item; dsimp only; rw [h]

theorem setIn_ok : ∀ {ks : List String} {k : String} {v j : J} {d : List (Text × J)}, getIn ks j = .ok (.dict d) →
    ∃ r, setIn (ks ++ [k]) v j = .ok r ∧ getIn (ks ++ [k]) r = .ok v ∧ (∃ d', r = .dict d' ∧ d' ≠ []) ∧
      ∀ p : List String, ¬ (ks ++ [k]) <+: p → ¬ p <+: (ks ++ [k]) → getIn p r = getIn p j
  | [], k, v, j, d, h => by
    cases h
    refine ⟨.dict (setKw k.toList v d), rfl, ?_, ⟨_, rfl, ?_⟩, ?_⟩
    · show getIn [k] _ = _
      rw [getIn_one]
      exact item_of (by rw [getKw_setKw, if_pos rfl])
    · intro h0
      have := getKw_setKw k.toList k.toList v d
      rw [h0, if_pos rfl] at this
      exact absurd this (by simp [getKw])
    · intro p h1 h2
      cases p with
      | nil => exact absurd (List.nil_prefix) h2
      | cons a p =>
        have hne : a ≠ k := fun e => h1 (by rw [e]; exact List.cons_prefix_cons.2 ⟨rfl, List.nil_prefix⟩)
        unfold getIn item
        dsimp only
        rw [getKw_setKw, if_neg fun e => hne (toList_inj.1 e)]
  | a :: ks, k, v, j, d, h => by
    unfold getIn at h
    cases hc : item a j with
    | error e => rw [hc] at h; exact absurd h (by simp [bind, Except.bind])
    | ok c =>
      rw [hc] at h
      change getIn ks c = _ at h
      obtain ⟨c', h1, h2, _, h3⟩ := setIn_ok (k := k) (v := v) h
      obtain ⟨dj, rfl, hg⟩ := item_dict hc
      have hit : item a (.dict (setKw a.toList c' dj)) = .ok c' := item_of (by rw [getKw_setKw, if_pos rfl])
      refine ⟨.dict (setKw a.toList c' dj), ?_, ?_, ⟨_, rfl, ?_⟩, ?_⟩
      · cases ks with
        | nil =>
          change (do let c ← item a (.dict dj); let c ← setIn [k] v c; setItem a c (.dict dj)) = _
          rw [hc]
          change setIn [k] v c = _ at h1
          simp only [bind, Except.bind, h1]
          rfl
        | cons b ks =>
          change (do let c ← item a (.dict dj); let c ← setIn (b :: (ks ++ [k])) v c; setItem a c (.dict dj)) = _
          rw [hc]
          change setIn (b :: (ks ++ [k])) v c = _ at h1
          simp only [bind, Except.bind, h1]
          rfl
      · show getIn (a :: (ks ++ [k])) _ = _
        unfold getIn
        rw [hit]
        exact h2
      · intro h0
        have := getKw_setKw a.toList a.toList c' dj
        rw [h0, if_pos rfl] at this
        exact absurd this (by simp [getKw])
      · intro p hp1 hp2
        cases p with
        | nil => exact absurd (List.nil_prefix) hp2
        | cons b p =>
          by_cases hb : b = a
          · subst hb
            unfold getIn
            rw [hit, hc]
            refine h3 p (fun e => hp1 ?_) (fun e => hp2 ?_)
            · exact List.cons_prefix_cons.2 ⟨rfl, e⟩
            · exact List.cons_prefix_cons.2 ⟨rfl, e⟩
          · unfold getIn item
            dsimp only
            rw [getKw_setKw, if_neg fun e => hb (toList_inj.1 e)]

theorem dateTime_congr {j r : J} {d d' : List (Text × J)} (hj : j = .dict d) (hr : r = .dict d') (h : getIn ["time"] r = getIn ["time"] j) :
    dateTime r = dateTime j := by
  subst hj hr
  rw [getIn_one, getIn_one] at h
  rw [dateTime_item, dateTime_item]
  unfold item at h
  dsimp only at h
  cases h1 : getKw "time".toList d with
  | none =>
    rw [h1] at h
    cases h2 : getKw "time".toList d' with
    | none => rfl
    | some x => rw [h2] at h; exact absurd h (by simp)
  | some y =>
    rw [h1] at h
    cases h2 : getKw "time".toList d' with
    | none => rw [h2] at h; exact absurd h (by simp)
    | some x =>
      rw [h2] at h
      cases h
      rfl

end Verif.Lemmas.Phenom
