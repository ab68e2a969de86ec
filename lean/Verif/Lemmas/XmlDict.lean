import Verif.Spec.Xml
/-! Lemmas for C82: the dictionary of an element. -/
namespace Verif.Lemmas.XmlDict
open Verif.Xml Verif.Spec.Xml

variable {α : Type}

theorem evalV_str {lit : Text → Py (V α)} {t : Text} {v : V α} (h : evalV lit (.str t) = .ok v) : Eval lit t v := by
  unfold evalV at h
  dsimp only at h
  split at h
  · rename_i hl
    injection h with h
    exact Or.inr ⟨hl, h.symm⟩
  · exact Or.inl h

theorem group_together {lit : Text → Py (V α)} {vs : List (V α)} {w : V α} (h : group lit vs = .ok w) : Together lit vs w := by
  unfold group at h
  split at h
  · rename_i v
    cases v <;> first | exact evalV_str h | (injection h with h; exact h.symm)
  · rename_i vs hvs
    injection h with h
    unfold Together
    split
    · exact absurd rfl (hvs _)
    · exact absurd rfl (hvs _)
    · exact h.symm

theorem getKw_keys {β : Type} {k : Text} : ∀ {d : List (Text × β)}, getKw k d ≠ none ↔ k ∈ d.map Prod.fst
  | [] => by simp [getKw]
  | (k', v) :: d => by
    rw [getKw, List.map_cons, List.mem_cons]
    by_cases h : k' = k
    · simp [h]
    · rw [if_neg h, getKw_keys]
      constructor
      · exact Or.inr
      · rintro (rfl | h')
        · exact absurd rfl h
        · exact h'

/-- One child is added to the groups. -/
theorem foldl_groups : ∀ (d : List (Text × V α)) (dd : List (Text × List (V α))) (k : Text),
    (getKw k (d.foldl (fun dd e => setKw e.1 ((getKw e.1 dd).getD [] ++ [e.2]) dd) dd)).getD [] =
      (getKw k dd).getD [] ++ (d.filter fun p => p.1 = k).map Prod.snd ∧
    (getKw k (d.foldl (fun dd e => setKw e.1 ((getKw e.1 dd).getD [] ++ [e.2]) dd) dd) ≠ none ↔ getKw k dd ≠ none ∨ k ∈ d.map Prod.fst)
  | [], dd, k => by simp
  | e :: d, dd, k => by
    obtain ⟨i1, i2⟩ := foldl_groups d (setKw e.1 ((getKw e.1 dd).getD [] ++ [e.2]) dd) k
    rw [List.foldl_cons]
    refine ⟨?_, ?_⟩
    · rw [i1, getKw_setKw]
      by_cases h : k = e.1
      · subst h
        simp
      · rw [if_neg h, List.filter_cons_of_neg (by simp [Ne.symm h])]
    · rw [i2, getKw_setKw, List.map_cons, List.mem_cons]
      by_cases h : k = e.1
      · simp [h]
      · simp [h]

/-- `mapM` over the groups. -/
theorem mapM_get {lit : Text → Py (V α)} : ∀ {dd : List (Text × List (V α))} {d : List (Text × V α)},
    (dd.mapM fun e => (group lit e.2).map fun v => (e.1, v)) = Except.ok d → ∀ k,
      (getKw k d = none ↔ getKw k dd = none) ∧ ∀ vs, getKw k dd = some vs → ∃ w, group lit vs = .ok w ∧ getKw k d = some w
  | [], d, h, k => by
    injection h with h
    subst h
    simp [getKw]
  | e :: dd, d, h, k => by
    rw [List.mapM_cons] at h
    cases hg : group lit e.2 with
    | error x => rw [hg] at h; cases h
    | ok w =>
      rw [hg] at h
      cases hm : (dd.mapM fun e => (group lit e.2).map fun v => (e.1, v) : Py _) with
      | error x => rw [hm] at h; cases h
      | ok d' =>
        rw [hm] at h
        injection h with h
        subst h
        obtain ⟨i1, i2⟩ := mapM_get hm k
        obtain ⟨ek, ev⟩ := e
        by_cases hk : ek = k
        · subst hk
          simp only [getKw, if_true]
          refine ⟨by simp, fun vs hvs => ?_⟩
          injection hvs with hvs
          subst hvs
          exact ⟨w, hg, rfl⟩
        · simp only [getKw, if_neg hk]
          exact ⟨i1, i2⟩

theorem addAttrs_get {lit : Text → Py (V α)} {pre : Text} : ∀ {attrs : List (Text × Text)} {d d' : List (Text × V α)},
    addAttrs lit pre attrs d = .ok d' →
      (∀ k, k ∉ attrs.map (fun e => pre ++ e.1) → getKw k d' = getKw k d) ∧
      ((attrs.map Prod.fst).Nodup → ∀ e ∈ attrs, ∃ w, Eval lit e.2 w ∧ getKw (pre ++ e.1) d' = some w)
  | [], d, d', h => by
    injection h with h
    subst h
    exact ⟨fun _ _ => rfl, fun _ e he => nomatch he⟩
  | e :: attrs, d, d', h => by
    unfold addAttrs at h
    rw [List.foldlM_cons] at h
    cases hv : evalV lit (.str e.2) with
    | error x => rw [hv] at h; cases h
    | ok v =>
      rw [hv] at h
      obtain ⟨i1, i2⟩ := addAttrs_get (attrs := attrs) (d := setKw (pre ++ e.1) v d) h
      refine ⟨fun k hk => ?_, fun hn => ?_⟩
      · rw [List.map_cons, List.mem_cons, not_or] at hk
        rw [i1 k hk.2, getKw_setKw, if_neg hk.1]
      · rw [List.map_cons, List.nodup_cons] at hn
        intro x hx
        rcases List.mem_cons.mp hx with rfl | hx
        · refine ⟨v, evalV_str hv, ?_⟩
          rw [i1, getKw_setKw, if_pos rfl]
          intro hh
          obtain ⟨y, hy, hye⟩ := List.mem_map.mp hh
          exact hn.1 (List.mem_map.mpr ⟨y, hy, List.append_cancel_left hye⟩)
        · exact i2 hn.2 x hx

theorem addText_get {lit : Text → Py (V α)} {cfg : Cfg} {children : List El} {t : Text} {d d' : List (Text × V α)}
    (h : addText lit cfg children t d = .ok d') :
    (∀ k, ¬ TextKey cfg k → getKw k d' = getKw k d) ∧ (cfg.mode = .skip → d' = d) ∧ Whole lit cfg t (children.map fun x => trimmed x.tail) d' := by
  have alone : ∀ {d'}, (evalV lit (.str t)).map (fun v => setKw cfg.textKey v d) = .ok d' →
      (∀ k, ¬ TextKey cfg k → getKw k d' = getKw k d) ∧ ∃ w, Eval lit t w ∧ getKw cfg.textKey d' = some w := by
    intro d' h
    cases hv : evalV lit (.str t) with
    | error x => rw [hv] at h; cases h
    | ok v =>
      rw [hv] at h
      injection h with h
      subst h
      refine ⟨fun k hk => ?_, v, evalV_str hv, by rw [getKw_setKw, if_pos rfl]⟩
      rw [getKw_setKw, if_neg fun hh => hk (Or.inl hh)]
  have htails : (children.map fun c => strip (c.tail.getD [])) = children.map fun x => trimmed x.tail := rfl
  have hany : ((children.map fun x => trimmed x.tail).any fun x => decide (x ≠ [])) = true ↔ ∃ u ∈ children.map (fun x => trimmed x.tail), u ≠ [] := by
    rw [List.any_eq_true]
    simp only [decide_eq_true_eq]
  unfold addText at h
  rw [htails] at h
  unfold Whole
  dsimp only
  split at h
  · rename_i hmode
    injection h with h
    subst h
    rw [hmode]
    exact ⟨fun _ _ => rfl, fun _ => rfl, by simp⟩
  · rename_i hmode
    obtain ⟨h1, h2⟩ := alone h
    rw [hmode]
    exact ⟨h1, by simp, fun _ => h2, by simp, by simp, by simp⟩
  · rename_i hm1 hm2
    dsimp only at h
    split at h
    · rename_i ha
      have ha' := hany.mp ha
      injection h with h
      subst h
      refine ⟨fun k hk => ?_, fun hh => absurd hh hm1, fun hh => absurd hh hm2, fun _ hh => absurd ha' hh, fun hh _ => ?_, fun hh _ => ?_⟩
      · rw [getKw_setKw, if_neg fun hh => hk (Or.inr hh)]
      · rw [getKw_setKw, if_pos rfl, if_pos hh]
        rfl
      · rw [getKw_setKw, if_pos rfl, if_neg (by rw [hh]; decide)]
        rfl
    · rename_i ha
      have ha' := fun hh => ha (hany.mpr hh)
      obtain ⟨h1, h2⟩ := alone h
      exact ⟨h1, fun hh => absurd hh hm1, fun hh => absurd hh hm2, fun _ _ => h2, fun _ hh => absurd hh ha', fun _ hh => absurd hh ha'⟩

theorem leaf_means {lit : Text → Py (V α)} {cfg : Cfg} {tag : Text} {attrs : List (Text × Text)} {text tail : Option Text} {v : V α}
    (h : leaf lit cfg attrs (trimmed text) = .ok v) : Means lit cfg (.mk tag attrs text tail []) v := by
  unfold leaf at h
  unfold Means
  split at h
  · rename_i ha
    have ha : attrs = [] := List.isEmpty_iff.mp ha
    refine ⟨fun _ => ?_, fun hh => absurd ha hh⟩
    split at h
    · rename_i ht
      injection h with h
      exact ⟨fun _ => h.symm, fun hh => absurd ht hh⟩
    · rename_i ht
      exact ⟨fun hh => absurd hh ht, fun _ => evalV_str h⟩
  · rename_i ha
    have ha : attrs ≠ [] := fun hh => ha (List.isEmpty_iff.mpr hh)
    refine ⟨fun hh => absurd hh ha, fun _ => ?_⟩
    cases h1 : addAttrs lit [] attrs [] with
    | error x => rw [h1] at h; cases h
    | ok d1 =>
      rw [h1] at h
      have h : (if trimmed text = [] then (Except.ok (V.dict d1) : Py (V α)) else
        ((evalV lit (.str (trimmed text))).map fun v => setKw cfg.textKey v d1) >>= fun d => .ok (.dict d)) = .ok v := h
      obtain ⟨i1, i2⟩ := addAttrs_get h1
      simp only [List.nil_append] at i1 i2
      have hkeys : ∀ k, getKw k d1 ≠ none → k ∈ attrs.map Prod.fst := by
        intro k hk
        exact Classical.not_not.mp fun hh => hk (i1 k hh)
      by_cases ht : trimmed text = []
      · rw [if_pos ht] at h
        injection h with h
        exact ⟨d1, h.symm, fun hn e he _ => i2 hn e he, fun hh => absurd ht hh, fun k hk => Or.inl (hkeys k hk)⟩
      · cases hv : evalV lit (.str (trimmed text)) with
        | error x =>
          rw [if_neg ht, hv] at h
          cases h
        | ok w =>
          rw [if_neg ht, hv] at h
          have h : (Except.ok (V.dict (setKw cfg.textKey w d1)) : Py _) = .ok v := h
          injection h with h
          refine ⟨_, h.symm, fun hn e he hk => ?_, fun _ => ⟨w, evalV_str hv, by rw [getKw_setKw, if_pos rfl]⟩, fun k hk => ?_⟩
          · obtain ⟨u, hu1, hu2⟩ := i2 hn e he
            exact ⟨u, hu1, by rw [getKw_setKw, if_neg fun hh => hk (Or.inl hh), hu2]⟩
          · rw [getKw_setKw] at hk
            by_cases hkk : k = cfg.textKey
            · exact Or.inr ⟨hkk, ht⟩
            · rw [if_neg hkk] at hk
              exact Or.inl (hkeys k hk)

mutual
theorem value_means (lit : Text → Py (V α)) (cfg : Cfg) : ∀ (e : El) (v : V α), value lit cfg e = .ok v → Means lit cfg e v
  | .mk tag attrs text tail [], v, h => leaf_means (by rw [value] at h; exact h)
  | .mk tag attrs text tail (c :: cs), v, h => by
    rw [value] at h
    simp only [List.isEmpty_cons, Bool.false_eq_true, if_false] at h
    cases hg : groups lit cfg (c :: cs) [] with
    | error x => rw [hg] at h; cases h
    | ok dd =>
      rw [hg] at h
      dsimp only at h
      obtain ⟨ps, hps, hget⟩ := groups_means lit cfg (c :: cs) [] dd hg
      cases h1 : (dd.mapM fun e => (group lit e.2).map fun v => (e.1, v) : Py _) with
      | error x => rw [h1] at h; cases h
      | ok d1 =>
        rw [h1] at h
        cases h2 : addAttrs lit cfg.pre attrs d1 with
        | error x =>
          have h : (addAttrs lit cfg.pre attrs d1 >>= _ : Py _) = .ok v := h
          rw [h2] at h
          cases h
        | ok d2 =>
          have h : (addAttrs lit cfg.pre attrs d1 >>= _ : Py _) = .ok v := h
          rw [h2] at h
          have h : (if trimmed text = [] then (Except.ok (V.dict d2) : Py _) else
            addText lit cfg (c :: cs) (trimmed text) d2 >>= fun d => .ok (.dict d)) = .ok v := h
          obtain ⟨a1, a2⟩ := addAttrs_get h2
          have hch : ∀ k ∈ ps.map Prod.fst, k ∉ attrs.map (fun e => cfg.pre ++ e.1) →
              ∃ w, getKw k d2 = some w ∧ Together lit ((ps.filter fun p => p.1 = k).map Prod.snd) w := by
            intro k hk hka
            obtain ⟨g1, g2⟩ := hget k
            have hdd : getKw k dd ≠ none := g2.mpr (Or.inr hk)
            cases hkd : getKw k dd with
            | none => exact absurd hkd hdd
            | some vs =>
              obtain ⟨w, hw1, hw2⟩ := (mapM_get h1 k).2 vs hkd
              rw [hkd] at g1
              simp only [getKw, Option.getD_none, Option.getD_some, List.nil_append] at g1
              refine ⟨w, by rw [a1 k hka, hw2], ?_⟩
              rw [← g1]
              exact group_together hw1
          have hkeys : ∀ k, getKw k d2 ≠ none → k ∈ ps.map Prod.fst ∨ ∃ e ∈ attrs, k = cfg.pre ++ e.1 := by
            intro k hk
            by_cases hka : k ∈ attrs.map (fun e => cfg.pre ++ e.1)
            · obtain ⟨e, he, hee⟩ := List.mem_map.mp hka
              exact Or.inr ⟨e, he, hee.symm⟩
            · rw [a1 k hka] at hk
              have := (hget k).2.mp (fun hh => hk ((mapM_get h1 k).1.mpr hh))
              rcases this with this | this
              · exact absurd rfl this
              · exact Or.inl this
          rw [Means]
          by_cases ht : trimmed text = []
          · rw [if_pos ht] at h
            injection h with h
            exact ⟨d2, ps, h.symm, hps, fun k hk hka _ => hch k hk hka, fun hn e he _ => a2 hn e he, fun hh => absurd ht hh,
              fun k hk => (hkeys k hk).imp id Or.inl⟩
          · rw [if_neg ht] at h
            cases h3 : addText lit cfg (c :: cs) (trimmed text) d2 with
            | error x => rw [h3] at h; cases h
            | ok d3 =>
              rw [h3] at h
              injection h with h
              obtain ⟨t1, t2, t3⟩ := addText_get h3
              refine ⟨d3, ps, h.symm, hps, fun k hk hka hkt => ?_, fun hn e he hkt => ?_, fun _ => t3, fun k hk => ?_⟩
              · rw [t1 k hkt]
                exact hch k hk hka
              · rw [t1 _ hkt]
                exact a2 hn e he
              · by_cases hkt : TextKey cfg k
                · by_cases hm : cfg.mode = .skip
                  · rw [t2 hm] at hk
                    exact (hkeys k hk).imp id Or.inl
                  · exact Or.inr (Or.inr ⟨hkt, ht, hm⟩)
                · rw [t1 k hkt] at hk
                  exact (hkeys k hk).imp id Or.inl

theorem groups_means (lit : Text → Py (V α)) (cfg : Cfg) : ∀ (cs : List El) (dd dd' : List (Text × List (V α))), groups lit cfg cs dd = .ok dd' →
    ∃ ps, Children lit cfg cs ps ∧ ∀ k, (getKw k dd').getD [] = (getKw k dd).getD [] ++ (ps.filter fun p => p.1 = k).map Prod.snd ∧
      (getKw k dd' ≠ none ↔ getKw k dd ≠ none ∨ k ∈ ps.map Prod.fst)
  | [], dd, dd', h => by
    rw [groups] at h
    injection h with h
    subst h
    exact ⟨[], by rw [Children], fun k => by simp⟩
  | c :: cs, dd, dd', h => by
    rw [groups] at h
    cases hv : value lit cfg c with
    | error x => rw [hv] at h; cases h
    | ok v =>
      rw [hv] at h
      dsimp only at h
      have hm := value_means lit cfg c v hv
      cases ha : addChild dd (if c.tag ∈ cfg.flatten then v else .dict [(c.tag, v)]) with
      | error x => rw [ha] at h; cases h
      | ok dd1 =>
        rw [ha] at h
        dsimp only at h
        obtain ⟨qs, hq, hget⟩ := groups_means lit cfg cs dd1 dd' h
        have fin : ∀ d, dd1 = d.foldl (fun dd e => setKw e.1 ((getKw e.1 dd).getD [] ++ [e.2]) dd) dd →
            ∀ k, (getKw k dd').getD [] = (getKw k dd).getD [] ++ ((d ++ qs).filter fun p => p.1 = k).map Prod.snd ∧
              (getKw k dd' ≠ none ↔ getKw k dd ≠ none ∨ k ∈ (d ++ qs).map Prod.fst) := by
          intro d hd k
          obtain ⟨f1, f2⟩ := foldl_groups d dd k
          rw [← hd] at f1 f2
          obtain ⟨g1, g2⟩ := hget k
          rw [g1, f1, g2, f2]
          refine ⟨by simp, ?_⟩
          rw [List.map_append, List.mem_append, or_assoc]
        by_cases hf : c.tag ∈ cfg.flatten
        · rw [if_pos hf] at ha
          cases v with
          | dict d =>
            injection ha with ha
            exact ⟨d ++ qs, by rw [Children]; exact ⟨_, qs, hm, hq, Or.inr ⟨hf, d, rfl, rfl⟩⟩, fin d ha.symm⟩
          | _ => cases ha
        · rw [if_neg hf] at ha
          injection ha with ha
          refine ⟨(c.tag, v) :: qs, by rw [Children]; exact ⟨v, qs, hm, hq, Or.inl ⟨hf, rfl⟩⟩, ?_⟩
          exact fin [(c.tag, v)] ha.symm
end

end Verif.Lemmas.XmlDict
