import Verif.Lemmas.Hamamatsu
/-! Lemmas for C86: metadata of Hamamatsu files. -/
namespace Verif.Lemmas.HamamatsuMeta
open Verif.Hamamatsu Verif.Spec.Hamamatsu

theorem mem_clean {k : Text} {v : M} : ∀ {d : List (Text × M)}, (k, v) ∈ clean d ↔ ∃ v0, (k, v0) ∈ d ∧ (k, v) ∈ cleanItem k v0
  | [] => by simp [clean]
  | (k', v') :: d => by
    rw [clean, List.mem_append, mem_clean (d := d)]
    constructor
    · rintro (h | ⟨v0, h1, h2⟩)
      · have hk : k = k' := by
          cases v' <;> simp [cleanItem] at h <;> exact h.1
        subst hk
        exact ⟨v', by simp, h⟩
      · exact ⟨v0, by simp [h1], h2⟩
    · rintro ⟨v0, h1, h2⟩
      rcases List.mem_cons.mp h1 with h1 | h1
      · cases h1
        exact .inl h2
      · exact .inr ⟨v0, h1, h2⟩

/-- Leaves. -/
def Leaf : M → Prop
  | .dict _ => False
  | _ => True

theorem mem_clean_leaf {k : Text} {v : M} (hv : Leaf v) {d : List (Text × M)} : (k, v) ∈ clean d ↔ (k, v) ∈ d ∧ v ≠ .none := by
  rw [mem_clean]
  constructor
  · rintro ⟨v0, h1, h2⟩
    cases v0 <;> simp [cleanItem] at h2
    all_goals (subst h2; first | exact ⟨h1, by simp⟩ | exact hv.elim)
  · rintro ⟨h1, h2⟩
    refine ⟨v, h1, ?_⟩
    cases v <;> simp_all [cleanItem, Leaf]

theorem mem_clean_dict {k : Text} {d' d : List (Text × M)} : (k, M.dict d') ∈ clean d ↔ ∃ d0, d' = clean d0 ∧ (k, M.dict d0) ∈ d := by
  rw [mem_clean]
  constructor
  · rintro ⟨v0, h1, h2⟩
    cases v0 <;> simp [cleanItem] at h2
    exact ⟨_, h2, h1⟩
  · rintro ⟨d0, rfl, h⟩
    exact ⟨.dict d0, h, by simp [cleanItem]⟩

theorem within_clean {v : M} (hv : Leaf v) : ∀ (path : List String) (d : List (Text × M)), Within (clean d) path v ↔ Within d path v ∧ v ≠ .none
  | [], d => by simp [Within]
  | [k], d => by rw [Within, Within]; exact mem_clean_leaf hv
  | k :: k' :: ks, d => by
    rw [Within, Within]
    · constructor
      · rintro ⟨d', h1, h2⟩
        obtain ⟨d0, rfl, h3⟩ := mem_clean_dict.mp h1
        obtain ⟨h4, h5⟩ := (within_clean hv (k' :: ks) d0).mp h2
        exact ⟨⟨d0, h3, h4⟩, h5⟩
      · rintro ⟨⟨d0, h1, h2⟩, h3⟩
        exact ⟨clean d0, mem_clean_dict.mpr ⟨d0, rfl, h1⟩, (within_clean hv (k' :: ks) d0).mpr ⟨h2, h3⟩⟩
    all_goals simp

/-- The parts of the metadata. -/
theorem mapped {float : Text → Option Rat} {fn : Text} {md : List (Text × Sec)} {m : List (Text × M)} (h : mapMetadata float fn md = .ok m) :
    ∃ g q d s, general fn md = .ok g ∧ signal md = .ok q ∧ detector float md = .ok d ∧ spectrometer float md = .ok s ∧
      ∀ k ks v, Leaf v → v ≠ .none →
        (Within m ("General" :: k :: ks) v ↔ Within g (k :: ks) v) ∧ (Within m ("Signal" :: k :: ks) v ↔ Within q (k :: ks) v) ∧
        (Within m ("Acquisition_instrument" :: "Detector" :: k :: ks) v ↔ Within d (k :: ks) v) ∧
        (Within m ("Acquisition_instrument" :: "Spectrometer" :: k :: ks) v ↔ Within s (k :: ks) v) := by
  unfold mapMetadata at h
  cases hg : general fn md with
  | error e => rw [hg] at h; cases h
  | ok g =>
  cases hq : signal md with
  | error e => rw [hg, hq] at h; cases h
  | ok q =>
  cases hd : detector float md with
  | error e => rw [hg, hq, hd] at h; cases h
  | ok d =>
  cases hs : spectrometer float md with
  | error e => rw [hg, hq, hd, hs] at h; cases h
  | ok s =>
  rw [hg, hq, hd, hs] at h
  have h := Except.ok.inj h
  subst h
  refine ⟨g, q, d, s, rfl, rfl, rfl, rfl, fun k ks v hv hn => ?_⟩
  have e : ∀ path, Within (clean [("Acquisition_instrument".toList, M.dict [("Detector".toList, .dict d), ("Spectrometer".toList, .dict s)]), ("General".toList, .dict g),
      ("Signal".toList, .dict q)]) path v ↔ Within [("Acquisition_instrument".toList, M.dict [("Detector".toList, .dict d), ("Spectrometer".toList, .dict s)]), ("General".toList, .dict g),
      ("Signal".toList, .dict q)] path v := by
    intro path
    rw [within_clean hv]
    exact ⟨fun h => h.1, fun h => ⟨h, hn⟩⟩
  refine ⟨?_, ?_, ?_, ?_⟩
  · rw [e, Within] <;> simp
  · rw [e, Within] <;> simp
  · rw [e, Within]
    · simp [Within]
    · simp
  · rw [e, Within]
    · simp [Within]
    · simp

theorem noted_section {md : List (Text × Sec)} {sec key : String} {t : Text} (h : Noted md sec key t) : ∃ d, sectionOf md sec = .ok d ∧ getKw key.toList d = some t := by
  obtain ⟨d, h1, h2⟩ := h
  exact ⟨d, by unfold sectionOf; rw [h1], h2⟩

theorem noted_iff {md : List (Text × Sec)} {sec key : String} {t : Text} {d : List (Text × Text)} (h : sectionOf md sec = .ok d) :
    Noted md sec key t ↔ getKw key.toList d = some t := by
  constructor
  · intro hn
    obtain ⟨d', h1, h2⟩ := noted_section hn
    rw [h] at h1
    cases h1
    exact h2
  · intro hk
    unfold sectionOf at h
    split at h
    · cases h
      simp [getKw] at hk
    · rename_i d' hd
      cases h
      exact ⟨d, hd, hk⟩
    · cases h

/-- The entries of the detector. -/
theorem detector_ok {float : Text → Option Rat} {md : List (Text × Sec)} {d : List (Text × M)} (h : detector float md = .ok d) :
    ∃ acq streak time bins mode, sectionOf md "Acquisition" = .ok acq ∧ sectionOf md "Streak camera" = .ok streak ∧
      exposure float acq = .ok time ∧ binning acq = .ok bins ∧
      intOf (getKw "AcqMode".toList acq) = .ok mode ∧
      d = [("frames".toList, mInt (strInt (getKw "NrExposure".toList acq)))] ++
    (match time with | some t => [("integration_time".toList, M.num t)] | none => []) ++
    (match bins with | some b => [("binning".toList, M.pair b)] | none => []) ++
    [("processing".toList, .dict [("shading_correction".toList, strBool (getKw "ShadingCorr".toList acq)),
      ("background_correction".toList, strBool (getKw "BacksubCorr".toList acq)), ("curvature_correction".toList, strBool (getKw "CurveCorr".toList acq)),
      ("defect_correction".toList, strBool (getKw "DefectCorrection".toList acq))]),
     ("detector_type".toList, .text "StreakCamera".toList), ("model".toList, mText (getKw "DeviceName".toList streak)),
     ("mcp_gain".toList, mNum (strFloat float (getKw "MCP Gain".toList streak)))] ++
    (match getKw "Time Range".toList streak with
      | none => []
      | some r => match splitChar ' ' r with
        | [t, u] => [("time_range".toList, mNum (float t)), ("time_range_units".toList, M.text (if u = "us".toList then "µs".toList else u))]
        | _ => [("time_range".toList, mNum (float r))]) ++
    [("acquisition_mode".toList, .text (acqMode mode))] := by
  unfold detector at h
  cases ha : sectionOf md "Acquisition" with
  | error e => rw [ha] at h; cases h
  | ok acq =>
  cases hst : sectionOf md "Streak camera" with
  | error e => rw [ha, hst] at h; cases h
  | ok streak =>
  rw [ha, hst] at h
  simp only [bind, Except.bind] at h
  split at h
  · cases h
  rename_i time htime
  split at h
  · cases h
  rename_i binning hbin
  split at h
  · cases h
  rename_i mode hmode
  exact ⟨acq, streak, time, binning, mode, rfl, rfl, htime, hbin, hmode, (Except.ok.inj h).symm⟩

theorem strBool_iff (t : Option Text) (b : Bool) : strBool t = .bool b ↔ t = some (if b then "-1" else "0").toList := by
  unfold strBool
  by_cases h1 : t = some "-1".toList
  · rw [if_pos h1, h1]
    cases b <;> simp
  · rw [if_neg h1]
    by_cases h2 : t = some "0".toList
    · rw [if_pos h2, h2]
      cases b <;> simp
    · rw [if_neg h2]
      cases b <;> simp_all

/-- Entries which are always there. -/
theorem mem_fixed {A : List (Text × M)} {time : Option Rat} {bins : Option (List Int)} {B : List (Text × M)} {range : Option Text} {float : Text → Option Rat} {C : List (Text × M)}
    {k : Text} {v : M} (hk : k ∉ ["integration_time".toList, "binning".toList, "time_range".toList, "time_range_units".toList]) :
    (k, v) ∈ A ++ (match time with | some t => [("integration_time".toList, M.num t)] | none => []) ++ (match bins with | some b => [("binning".toList, M.pair b)] | none => []) ++ B ++
      (match range with
      | none => []
      | some r => match splitChar ' ' r with
        | [t, u] => [("time_range".toList, mNum (float t)), ("time_range_units".toList, M.text (if u = "us".toList then "µs".toList else u))]
        | _ => [("time_range".toList, mNum (float r))]) ++ C ↔ (k, v) ∈ A ∨ (k, v) ∈ B ∨ (k, v) ∈ C := by
  simp only [List.mem_cons, not_or] at hk
  obtain ⟨k1, k2, k3, k4, -⟩ := hk
  simp only [List.mem_append]
  have h1 : ¬ (k, v) ∈ (match time with | some t => [("integration_time".toList, M.num t)] | none => []) := by
    cases time <;> simp_all
  have h2 : ¬ (k, v) ∈ (match bins with | some b => [("binning".toList, M.pair b)] | none => []) := by
    cases bins <;> simp_all
  have h3 : ¬ (k, v) ∈ (match range with
      | none => []
      | some r => match splitChar ' ' r with
        | [t, u] => [("time_range".toList, mNum (float t)), ("time_range_units".toList, M.text (if u = "us".toList then "µs".toList else u))]
        | _ => [("time_range".toList, mNum (float r))]) := by
    cases range with
    | none => simp
    | some r =>
      dsimp only
      split
      · simp_all
      · simp_all
  constructor
  · rintro (((((h | h) | h) | h) | h) | h)
    · exact .inl h
    · exact absurd h h1
    · exact absurd h h2
    · exact .inr (.inl h)
    · exact absurd h h3
    · exact .inr (.inr h)
  · rintro (h | h | h)
    · exact .inl (.inl (.inl (.inl (.inl h))))
    · exact .inl (.inl (.inr h))
    · exact .inr h

end Verif.Lemmas.HamamatsuMeta
