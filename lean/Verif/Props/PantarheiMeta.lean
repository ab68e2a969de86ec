import Verif.Model.PantarheiMeta
import Mathlib.Tactic.Ring
import Mathlib.Tactic.NormNum
import Mathlib.Tactic.FieldSimp
/-!
C147: metadata of `.prz` files have the units of HyperSpy, and come back after writing.
-/
namespace Verif.Props.PantarheiMeta
open Verif.PantarheiMeta

private theorem item_append (a b : Dict) (k : String) : item (a ++ b) k = (item a k).or (item b k) := by
  unfold item
  induction a with
  | nil => simp [getKw]
  | cons e a ih =>
    obtain ⟨x, v⟩ := e
    rw [List.cons_append, getKw, getKw]
    split
    · rfl
    · exact ih

private theorem item_entry (k k' : String) (v : Option Val) :
    item (entry k v) k' = if k = k' then v else none := by
  cases v with
  | none => simp [entry, item, getKw]
  | some v =>
    by_cases h : k = k'
    · simp [entry, item, getKw, h]
    · have : k.toList ≠ k'.toList := fun e => h (String.toList_injective e)
      simp [entry, item, getKw, h, this]

private theorem inv {P : Lib} {d : Dict} {n : Nat} {f : Option Text} {r : Dict}
    (h : metaIn P d n f = .ok r) : ∃ energy convergence collection title time aperture,
      energyIn d = .ok energy ∧
      scaled (· * 1000) (item d "condenser.convergence_semi_angle") = .ok convergence ∧
      scaled (· * 1000) (item d "filter.collection_semi_angle") = .ok collection ∧
      titleIn d = .ok title ∧ timeIn P d = .ok time ∧ apertureIn P d = .ok aperture ∧
      item r "Acquisition_instrument.TEM.beam_energy" = energy ∧
      item r "Acquisition_instrument.TEM.convergence_angle" = convergence ∧
      item r "Acquisition_instrument.TEM.Detector.EELS.collection_angle" = collection ∧
      item r "Signal.signal_type" = typeIn d n ∧
      item r "General.title" = title ∧
      item r "General.original_filename" = fileIn f ∧
      item r "General.date" = time.map (fun t => .text t.1) ∧
      item r "General.time" = time.map (fun t => .text t.2) ∧
      item r "Acquisition_instrument.TEM.Detector.EELS.aperture" = aperture ∧
      item r "Acquisition_instrument.TEM.acquisition_mode" = (modeIn d).1 ∧
      item r "Acquisition_instrument.TEM.magnification" = item d ((modeIn d).2 ++ ".magnification") ∧
      item r "Acquisition_instrument.TEM.camera_length" = item d "projector.camera_length" := by
  unfold metaIn at h
  cases e1 : energyIn d with
  | error e => rw [e1] at h; cases h
  | ok energy =>
  cases e2 : scaled (· * 1000) (item d "condenser.convergence_semi_angle") with
  | error e => rw [e1, e2] at h; cases h
  | ok convergence =>
  cases e3 : scaled (· * 1000) (item d "filter.collection_semi_angle") with
  | error e => rw [e1, e2, e3] at h; cases h
  | ok collection =>
  cases e4 : titleIn d with
  | error e => rw [e1, e2, e3, e4] at h; cases h
  | ok title =>
  cases e5 : timeIn P d with
  | error e => rw [e1, e2, e3, e4, e5] at h; cases h
  | ok time =>
  cases e6 : apertureIn P d with
  | error e => rw [e1, e2, e3, e4, e5, e6] at h; cases h
  | ok aperture =>
  rw [e1, e2, e3, e4, e5, e6] at h
  simp only [bind, Except.bind, pure, Except.pure, Except.ok.injEq] at h
  subst h
  refine ⟨energy, convergence, collection, title, time, aperture, rfl, rfl, rfl, rfl, rfl, rfl, ?_⟩
  simp [item_append, item_entry]

/-- The shift of the voltage in a file: that of the filter, else that of the gun, else none. -/
def Shift (d : Dict) (s : ℚ) : Prop :=
  item d "filter.ht_offset" = some (.num s) ∨
  (item d "filter.ht_offset" = none ∧ item d "electron_gun.voltage_offset" = some (.num s)) ∨
  (item d "filter.ht_offset" = none ∧ item d "electron_gun.voltage_offset" = none ∧ s = 0)

/-- C147, numbers. The beam energy in keV is that of the voltage of the gun and its shift in V; angles
in mrad are those in rad; the mode is that of the source, the magnification is that of the scan or of
the projector with it, and the camera length is that of the projector. -/
theorem C147_numbers (P : Lib) (d : Dict) (n : Nat) (f : Option Text) (r : Dict)
    (h : metaIn P d n f = .ok r) :
    (∀ v s, item d "electron_gun.voltage" = some (.num v) → v ≠ 0 → Shift d s →
      ∃ e, item r "Acquisition_instrument.TEM.beam_energy" = some (.num e) ∧ e * 1000 = v + s) ∧
    (item d "electron_gun.voltage" = none →
      item r "Acquisition_instrument.TEM.beam_energy" = none) ∧
    (∀ a b, (a, b) ∈ [("condenser.convergence_semi_angle", "Acquisition_instrument.TEM.convergence_angle"),
        ("filter.collection_semi_angle", "Acquisition_instrument.TEM.Detector.EELS.collection_angle")] →
      (∀ q, item d a = some (.num q) → q ≠ 0 → ∃ e, item r b = some (.num e) ∧ e = 1000 * q) ∧
      (item d a = none → item r b = none)) ∧
    (∀ src mode key, (src, mode, key) ∈ [("scan_generator", "STEM", "scan_driver.magnification"),
        ("camera", "TEM", "projector.magnification")] →
      item d "source.type" = some (.text src.toList) →
      item r "Acquisition_instrument.TEM.acquisition_mode" = some (.text mode.toList) ∧
      item r "Acquisition_instrument.TEM.magnification" = item d key) ∧
    (item d "source.type" = none → item r "Acquisition_instrument.TEM.acquisition_mode" = none) ∧
    item r "Acquisition_instrument.TEM.camera_length" = item d "projector.camera_length" := by
  obtain ⟨energy, conv, coll, title, time, ap, h1, h2, h3, h4, h5, h6, g1, g2, g3, g4, g5, g6, g7, g8,
    g9, g10, g11, g12⟩ := inv h
  refine ⟨?_, ?_, ?_, ?_, ?_, g12⟩
  · intro v s hv hv0 hs
    have e : shift d = .num s := by
      unfold shift
      rcases hs with hs | ⟨ha, hs⟩ | ⟨ha, hs, rfl⟩
      · rw [hs]
      · rw [ha, hs]
      · rw [ha, hs]
    simp only [energyIn, hv, truthy, Option.filter, Val.true, hv0, ne_eq, not_false_eq_true,
      decide_true, if_true, e, Except.ok.injEq] at h1
    exact ⟨(v + s) / 1000, by rw [g1, ← h1], by field_simp⟩
  · intro hv
    simp only [energyIn, hv, truthy, Option.filter, Except.ok.injEq] at h1
    rw [g1, ← h1]
  · intro a b hab
    simp only [List.mem_cons, List.not_mem_nil, or_false, Prod.mk.injEq] at hab
    rcases hab with ⟨rfl, rfl⟩ | ⟨rfl, rfl⟩
    · constructor
      · intro q hq hq0
        simp only [scaled, hq, truthy, Option.filter, Val.true, hq0, ne_eq, not_false_eq_true,
          decide_true, if_true, Except.ok.injEq] at h2
        exact ⟨q * 1000, by rw [g2, ← h2], by ring⟩
      · intro hq
        simp only [scaled, hq, truthy, Option.filter, Except.ok.injEq] at h2
        rw [g2, ← h2]
    · constructor
      · intro q hq hq0
        simp only [scaled, hq, truthy, Option.filter, Val.true, hq0, ne_eq, not_false_eq_true,
          decide_true, if_true, Except.ok.injEq] at h3
        exact ⟨q * 1000, by rw [g3, ← h3], by ring⟩
      · intro hq
        simp only [scaled, hq, truthy, Option.filter, Except.ok.injEq] at h3
        rw [g3, ← h3]
  · intro src mode key hm hsrc
    simp only [List.mem_cons, List.not_mem_nil, or_false, Prod.mk.injEq] at hm
    rcases hm with ⟨rfl, rfl, rfl⟩ | ⟨rfl, rfl, rfl⟩
    · have : modeIn d = (some (.text "STEM".toList), "scan_driver") := by simp [modeIn, hsrc]
      rw [g10, g11, this]
      exact ⟨rfl, rfl⟩
    · have : modeIn d = (some (.text "TEM".toList), "projector") := by simp [modeIn, hsrc]
      rw [g10, g11, this]
      exact ⟨rfl, rfl⟩
  · intro hn
    rw [g10]
    simp [modeIn, hn]

/-- C147, texts. The title is the name in the repository up to the first dot; the file name is that
of the file; the type is EELS just for spectra of an energy filter; date and time are those of the
acquisition, else of the camera; an aperture in mm is a number, others are kept. -/
theorem C147_texts (P : Lib) (d : Dict) (n : Nat) (f : Option Text) (r : Dict)
    (h : metaIn P d n f = .ok r) :
    (∀ a b, '.' ∉ a → item d "repo_id" = some (.text (a ++ '.' :: b)) →
      item r "General.title" = some (.text a)) ∧
    (item d "repo_id" = none → item r "General.title" = none) ∧
    (∀ a b, '/' ∉ b → f = some (a ++ '/' :: b) →
      item r "General.original_filename" = some (.text b)) ∧
    (item r "Signal.signal_type" = some (.text "EELS".toList) ↔
      item d "filter.mode" = some (.text "EELS".toList) ∧ n = 1) ∧
    (∀ t day time, (item d "acquisition.time" = some (.text t) ∨
        (item d "acquisition.time" = none ∧ item d "camera.time" = some (.text t))) →
      P.iso t = some (day, time) →
      item r "General.date" = some (.text day) ∧ item r "General.time" = some (.text time)) ∧
    (∀ t q, item d "filter.aperture" = some (.text (t ++ " mm".toList)) → 'm' ∉ t →
      (∀ c, t.getLast? = some c → isSpace c = false) → P.float t = some q →
      item r "Acquisition_instrument.TEM.Detector.EELS.aperture" = some (.num q)) ∧
    (∀ t, item d "filter.aperture" = some (.text t) → (∀ a b, t ≠ a ++ 'm' :: 'm' :: b) →
      item r "Acquisition_instrument.TEM.Detector.EELS.aperture" = some (.text t)) := by
  obtain ⟨energy, conv, coll, title, time, ap, h1, h2, h3, h4, h5, h6, g1, g2, g3, g4, g5, g6, g7, g8,
    g9, g10, g11, g12⟩ := inv h
  refine ⟨?_, ?_, ?_, ?_, ?_, ?_, ?_⟩
  · intro a b ha hd
    simp only [titleIn, hd, splitChar_append ha, List.headD_cons, Except.ok.injEq] at h4
    rw [g5, ← h4]
  · intro hd
    simp only [titleIn, hd, Except.ok.injEq] at h4
    rw [g5, ← h4]
  · intro a b hb hf
    have last : ∀ a : Text, (splitChar '/' (a ++ '/' :: b)).getLastD [] = b := by
      intro a
      induction a with
      | nil =>
        rw [List.nil_append, splitChar, if_pos rfl, splitChar_none hb]
        rfl
      | cons c a ih =>
        rw [List.cons_append, splitChar]
        split
        · cases e : splitChar '/' (a ++ '/' :: b) with
          | nil => exact absurd e (splitChar_ne_nil _ _)
          | cons x y => rw [e] at ih; simpa using ih
        · cases e : splitChar '/' (a ++ '/' :: b) with
          | nil => exact absurd e (splitChar_ne_nil _ _)
          | cons x y =>
            rw [e] at ih
            cases y with
            | nil =>
              exfalso
              have : ∀ a : Text, 2 ≤ (splitChar '/' (a ++ '/' :: b)).length := by
                intro a
                induction a with
                | nil => rw [List.nil_append, splitChar, if_pos rfl, splitChar_none hb]; simp
                | cons c a ih =>
                  rw [List.cons_append, splitChar]
                  split
                  · simp; omega
                  · cases e : splitChar '/' (a ++ '/' :: b) with
                    | nil => rw [e] at ih; simp at ih
                    | cons x y => rw [e] at ih; simpa using ih
              have := this a
              rw [e] at this
              simp at this
            | cons z y => simpa using ih
    rw [g6, hf]
    simp only [fileIn, Option.map_some, last]
  · rw [g4, typeIn]
    split
    · rename_i hc; simp [hc]
    · rename_i hc; exact ⟨nofun, fun h => absurd h hc⟩
  · intro t day tm ht hi
    have hs : stampIn d = some (.text t) := by
      unfold stampIn
      rcases ht with ht | ⟨ha, ht⟩
      · rw [ht]; rfl
      · rw [ha, ht]; rfl
    simp only [timeIn, hs, hi, Except.ok.injEq] at h5
    rw [g7, g8, ← h5]
    exact ⟨rfl, rfl⟩
  · intro t q hd hm hl hq
    have i : ['m', 'm'] <:+: (t ++ " mm".toList) := ⟨t ++ [' '], [], by simp⟩
    have sp : splitPair 'm' 'm' (t ++ " mm".toList) = (t ++ [' ']) :: splitPair 'm' 'm' [] := by
      have := splitPair_append (c := 'm') (d := 'm') (s := t ++ [' ']) (t := []) (by simp [hm])
      simpa using this
    have rs : rstripBy isSpace (t ++ [' ']) = t := by
      rw [rstripBy_append (by simp [isSpace]), rstripBy_id hl]
    simp only [apertureIn, hd, if_pos i, sp, List.headD_cons, rs, hq, Except.ok.injEq] at h6
    rw [g9, ← h6]
  · intro t hd hn
    have i : ¬ ['m', 'm'] <:+: t := by
      rintro ⟨a, b, e⟩
      exact hn a b (by rw [← e]; simp)
    simp only [apertureIn, hd, if_neg i, Except.ok.injEq] at h6
    rw [g9, ← h6]

/-- A library for examples: numbers are 2 and 5/2, and times are split at `T`. -/
def lib : Lib := ⟨fun t => if t = "2.5".toList then some (5 / 2) else if t = "2".toList then some 2 else none,
  fun q => if q = 5 / 2 then "2.5".toList else "2".toList,
  fun t => some (t.take 10, (t.drop 11).take 8)⟩

/-- A file with all of it. -/
example : metaIn lib [("electron_gun.voltage".toList, .num 200000), ("filter.ht_offset".toList, .num 500),
      ("condenser.convergence_semi_angle".toList, .num (1 / 50)), ("filter.mode".toList, .text "EELS".toList),
      ("repo_id".toList, .text "scan.17".toList), ("camera.time".toList, .text "2024-02-29T12:34:56".toList),
      ("filter.aperture".toList, .text "2.5 mm".toList), ("source.type".toList, .text "scan_generator".toList),
      ("scan_driver.magnification".toList, .num 100000)] 1 (some "/data/x.prz".toList) = .ok
    [("Acquisition_instrument.TEM.beam_energy".toList, .num (401 / 2)),
      ("Acquisition_instrument.TEM.convergence_angle".toList, .num 20),
      ("Signal.signal_type".toList, .text "EELS".toList), ("General.title".toList, .text "scan".toList),
      ("General.original_filename".toList, .text "x.prz".toList),
      ("General.date".toList, .text "2024-02-29".toList), ("General.time".toList, .text "12:34:56".toList),
      ("Acquisition_instrument.TEM.Detector.EELS.aperture".toList, .num (5 / 2)),
      ("Acquisition_instrument.TEM.acquisition_mode".toList, .text "STEM".toList),
      ("Acquisition_instrument.TEM.magnification".toList, .num 100000)] := by decide +kernel

/-- The metadata that are written and read. -/
def mapped : List String := ["Acquisition_instrument.TEM.beam_energy",
  "Acquisition_instrument.TEM.convergence_angle",
  "Acquisition_instrument.TEM.Detector.EELS.collection_angle", "Signal.signal_type", "General.title",
  "General.date", "General.time", "Acquisition_instrument.TEM.Detector.EELS.aperture",
  "Acquisition_instrument.TEM.acquisition_mode", "Acquisition_instrument.TEM.magnification",
  "Acquisition_instrument.TEM.camera_length"]

/-- Metadata of a signal with `n` signal dimensions that can be written: a title without dots; date and time
together, as `fromisoformat` reads them; the type EELS for spectra, or none; energies and angles other than
zero; apertures that are numbers which `float` reads as they are shown, or texts without `mm`; and one of the
two modes if there is anything about the microscope. -/
structure Writable (P : Lib) (m : Dict) (n : Nat) : Prop where
  title : item m "General.title" = none ∨
    ∃ t, item m "General.title" = some (.text t) ∧ t ≠ [] ∧ '.' ∉ t
  stamp : (item m "General.date" = none ∧ item m "General.time" = none) ∨
    ∃ d t, item m "General.date" = some (.text d) ∧ item m "General.time" = some (.text t) ∧ d ≠ [] ∧ t ≠ [] ∧
      P.iso (d ++ 'T' :: t) = some (d, t)
  type : item m "Signal.signal_type" = none ∨
    (item m "Signal.signal_type" = some (.text "EELS".toList) ∧ n = 1)
  numbers : ∀ k ∈ ["Acquisition_instrument.TEM.beam_energy", "Acquisition_instrument.TEM.convergence_angle",
      "Acquisition_instrument.TEM.Detector.EELS.collection_angle", "Acquisition_instrument.TEM.magnification",
      "Acquisition_instrument.TEM.camera_length"],
    item m k = none ∨ ∃ q, item m k = some (.num q) ∧ q ≠ 0
  aperture : item m "Acquisition_instrument.TEM.Detector.EELS.aperture" = none ∨
    (∃ q, item m "Acquisition_instrument.TEM.Detector.EELS.aperture" = some (.num q) ∧ q ≠ 0 ∧
      P.float (P.str q) = some q ∧ 'm' ∉ P.str q ∧ ∀ c, (P.str q).getLast? = some c → isSpace c = false) ∨
    ∃ t, item m "Acquisition_instrument.TEM.Detector.EELS.aperture" = some (.text t) ∧ t ≠ [] ∧
      ∀ a b, t ≠ a ++ 'm' :: 'm' :: b
  mode : (∀ e ∈ m, ¬ "Acquisition_instrument.TEM.".toList <+: e.1) ∨
    item m "Acquisition_instrument.TEM.acquisition_mode" = some (.text "STEM".toList) ∨
    item m "Acquisition_instrument.TEM.acquisition_mode" = some (.text "TEM".toList)

private theorem truthy_num {m : Dict} {k : String}
    (h : item m k = none ∨ ∃ q, item m k = some (.num q) ∧ q ≠ 0) : truthy (item m k) = item m k := by
  rcases h with h | ⟨q, h, hq⟩ <;> rw [h]
  · rfl
  · simp [truthy, Val.true, hq, Option.filter]

private theorem scaled_num {m : Dict} {k : String} (f : ℚ → ℚ)
    (h : item m k = none ∨ ∃ q, item m k = some (.num q) ∧ q ≠ 0) :
    ∃ v, scaled f (item m k) = .ok v ∧
      ((item m k = none ∧ v = none) ∨ ∃ q, item m k = some (.num q) ∧ q ≠ 0 ∧ v = some (.num (f q))) := by
  rw [scaled, truthy_num h]
  rcases h with h | ⟨q, h, hq⟩ <;> rw [h]
  · exact ⟨none, rfl, .inl ⟨rfl, rfl⟩⟩
  · exact ⟨_, rfl, .inr ⟨q, rfl, hq, rfl⟩⟩

private theorem back_scaled {v w : Option Val} {f g : ℚ → ℚ} (hf : ∀ q, q ≠ 0 → f q ≠ 0)
    (hg : ∀ q, g (f q) = q)
    (h : (w = none ∧ v = none) ∨ ∃ q, w = some (.num q) ∧ q ≠ 0 ∧ v = some (.num (f q))) :
    scaled g v = .ok w := by
  rcases h with ⟨rfl, rfl⟩ | ⟨q, rfl, hq, rfl⟩
  · rfl
  · simp [scaled, truthy, Val.true, hf q hq, Option.filter, hg]

private theorem title_back {P : Lib} {m : Dict} {n : Nat} (h : Writable P m n) :
    ∃ v, titleOut m = .ok v ∧ ∀ d, item d "repo_id" = v → titleIn d = .ok (item m "General.title") := by
  rcases h.title with e | ⟨t, e, ht, hd⟩
  · exact ⟨none, by simp [titleOut, e, truthy, Option.filter], fun d hd => by rw [titleIn, hd, e]⟩
  · refine ⟨_, by simp [titleOut, e, truthy, Option.filter, Val.true, ht]; rfl, fun d hd' => ?_⟩
    have := splitChar_append (c := '.') (s := t) (t := ['0']) hd
    rw [titleIn, hd', e]
    simp [this]

private theorem time_back {P : Lib} {m : Dict} {n : Nat} (h : Writable P m n) :
    ∃ v, timeOut m = .ok v ∧ ∀ d, item d "acquisition.time" = v → item d "camera.time" = none →
      ∃ w, timeIn P d = .ok w ∧ w.map (fun t => Val.text t.1) = item m "General.date" ∧
        w.map (fun t => Val.text t.2) = item m "General.time" := by
  rcases h.stamp with ⟨e1, e2⟩ | ⟨a, b, e1, e2, ha, hb, hi⟩
  · refine ⟨none, by simp [timeOut, e1, e2, truthy, Option.filter], fun d hd hc => ⟨none, ?_, by rw [e1]; rfl,
      by rw [e2]; rfl⟩⟩
    simp [timeIn, stampIn, hd, hc]
  · refine ⟨_, by simp [timeOut, e1, e2, truthy, Option.filter, Val.true, ha, hb]; rfl, fun d hd hc =>
      ⟨some (a, b), ?_, by rw [e1]; rfl, by rw [e2]; rfl⟩⟩
    simp only [timeIn, stampIn, hd, Option.or_some, hi, Option.some_or]

private theorem aperture_back {P : Lib} {m : Dict} {n : Nat} (h : Writable P m n) (d : Dict)
    (hd : item d "filter.aperture" = apertureOut P m) :
    apertureIn P d = .ok (item m "Acquisition_instrument.TEM.Detector.EELS.aperture") := by
  rcases h.aperture with e | ⟨q, e, hq, hf, hm, hl⟩ | ⟨t, e, ht, hn⟩
  · rw [apertureOut, e] at hd
    rw [apertureIn, hd, e]
    rfl
  · have : apertureOut P m = some (.text (P.str q ++ " mm".toList)) := by
      simp [apertureOut, e, truthy, Option.filter, Val.true, hq]
    rw [this] at hd
    have i : ['m', 'm'] <:+: (P.str q ++ " mm".toList) := ⟨P.str q ++ [' '], [], by simp⟩
    have sp : splitPair 'm' 'm' (P.str q ++ " mm".toList) = (P.str q ++ [' ']) :: splitPair 'm' 'm' [] := by
      have := splitPair_append (c := 'm') (d := 'm') (s := P.str q ++ [' ']) (t := []) (by simp [hm])
      simpa using this
    have rs : rstripBy isSpace (P.str q ++ [' ']) = P.str q := by
      rw [rstripBy_append (by simp [isSpace]), rstripBy_id hl]
    simp only [apertureIn, hd, if_pos i, sp, List.headD_cons, rs, hf, e]
  · have : apertureOut P m = some (.text t) := by
      simp [apertureOut, e, truthy, Option.filter, Val.true, ht]
    rw [this] at hd
    have i : ¬ ['m', 'm'] <:+: t := by
      rintro ⟨a, b, e⟩
      exact hn a b (by rw [← e]; simp)
    simp only [apertureIn, hd, if_neg i, e]

private theorem type_back {P : Lib} {m : Dict} {n : Nat} (h : Writable P m n) (d : Dict)
    (hd : item d "filter.mode" = typeOut m) : typeIn d n = item m "Signal.signal_type" := by
  rcases h.type with e | ⟨e, rfl⟩
  · have : typeOut m = none := by simp [typeOut, e]
    rw [typeIn, hd, this, e]
    simp
  · have : typeOut m = some (.text "EELS".toList) := by simp [typeOut, e]
    rw [typeIn, hd, this, e]
    simp

private theorem no_tem {m : Dict} (h : ∀ e ∈ m, ¬ "Acquisition_instrument.TEM.".toList <+: e.1) :
    ∀ k : String, "Acquisition_instrument.TEM.".toList <+: k.toList → item m k = none := by
  intro k hk
  unfold item
  apply getKw_none
  intro hm
  obtain ⟨e, he, hek⟩ := List.mem_map.1 hm
  exact h e he (hek ▸ hk)

private theorem has_iff (m : Dict) : hasTem m = false ↔
    ∀ e ∈ m, ¬ "Acquisition_instrument.TEM.".toList <+: e.1 := by
  simp [hasTem]

/-- C147, back. Metadata that are written in a new file are read from it as the same, with the name of the
file.

The full claim is this for all metadata of a signal. Missing: titles with dots, dates without times and times
with zones, other types, zeros, apertures as texts with `mm`, no mode (`C147_fails_title`, `C147_fails_date`,
`C147_fails_type`, `C147_fails_aperture`, `C147_fails_mode`), and changed metadata of signals from `.prz` files
(`C147_fails_changed`). -/
theorem C147_back_partial (P : Lib) (m o : Dict) (n : Nat) (f : Option Text) (h : Writable P m n) :
    ∃ d r, converterOut P false o m = .ok d ∧ metaIn P d n f = .ok r ∧
      ∀ k ∈ mapped, item r k = item m k := by
  obtain ⟨title, ht, ht'⟩ := title_back h
  obtain ⟨time, htm, htm'⟩ := time_back h
  suffices H : ∃ d, metaOut P m = .ok d ∧ energyIn d = .ok (item m "Acquisition_instrument.TEM.beam_energy") ∧
      scaled (· * 1000) (item d "condenser.convergence_semi_angle") =
        .ok (item m "Acquisition_instrument.TEM.convergence_angle") ∧
      scaled (· * 1000) (item d "filter.collection_semi_angle") =
        .ok (item m "Acquisition_instrument.TEM.Detector.EELS.collection_angle") ∧
      item d "repo_id" = title ∧ item d "acquisition.time" = time ∧ item d "camera.time" = none ∧
      apertureIn P d = .ok (item m "Acquisition_instrument.TEM.Detector.EELS.aperture") ∧
      item d "filter.mode" = typeOut m ∧
      (modeIn d).1 = item m "Acquisition_instrument.TEM.acquisition_mode" ∧
      item d ((modeIn d).2 ++ ".magnification") = item m "Acquisition_instrument.TEM.magnification" ∧
      item d "projector.camera_length" = item m "Acquisition_instrument.TEM.camera_length" by
    obtain ⟨d, h0, h1, h2, h3, h4, h5, h6, h7, h8, h9, h10, h11⟩ := H
    obtain ⟨w, hw, hw1, hw2⟩ := htm' d h5 h6
    have hr : ∃ r, metaIn P d n f = .ok r := by
      unfold metaIn
      rw [h1, h2, h3, ht' d h4, hw, h7]
      exact ⟨_, rfl⟩
    obtain ⟨r, hr⟩ := hr
    obtain ⟨energy, conv, coll, title, time, ap, k1, k2, k3, k4, k5, k6, g1, g2, g3, g4, g5, g6, g7, g8,
      g9, g10, g11, g12⟩ := inv hr
    rw [h1] at k1; rw [h2] at k2; rw [h3] at k3; rw [ht' d h4] at k4; rw [hw] at k5; rw [h7] at k6
    cases k1; cases k2; cases k3; cases k4; cases k5; cases k6
    refine ⟨d, r, h0, hr, ?_⟩
    intro k hk
    simp only [mapped, List.mem_cons, List.not_mem_nil, or_false] at hk
    rcases hk with rfl | rfl | rfl | rfl | rfl | rfl | rfl | rfl | rfl | rfl | rfl
    · exact g1
    · exact g2
    · exact g3
    · exact g4.trans (type_back h d h8)
    · exact g5
    · exact g7.trans hw1
    · exact g8.trans hw2
    · exact g9
    · exact g10.trans h9
    · exact g11.trans h10
    · exact g12.trans h11
  cases hb : hasTem m with
  | false =>
    have no := no_tem ((has_iff m).1 hb)
    have hmo : metaOut P m = .ok (entry "filter.mode" (typeOut m) ++ entry "repo_id" title ++
        entry "acquisition.time" time ++ []) := by
      simp only [metaOut, ht, htm, hb, bind, Except.bind, pure, Except.pure, Bool.false_eq_true, if_false]
    refine ⟨_, hmo, ?_⟩
    rw [no "Acquisition_instrument.TEM.beam_energy" (by decide),
      no "Acquisition_instrument.TEM.convergence_angle" (by decide),
      no "Acquisition_instrument.TEM.Detector.EELS.collection_angle" (by decide),
      no "Acquisition_instrument.TEM.Detector.EELS.aperture" (by decide),
      no "Acquisition_instrument.TEM.acquisition_mode" (by decide),
      no "Acquisition_instrument.TEM.magnification" (by decide),
      no "Acquisition_instrument.TEM.camera_length" (by decide)]
    simp [energyIn, modeIn, apertureIn, scaled, truthy, item_append, item_entry]
  | true =>
    obtain ⟨en, he, he'⟩ := scaled_num (· * 1000) (h.numbers "Acquisition_instrument.TEM.beam_energy" (by simp))
    obtain ⟨co, hc, hc'⟩ := scaled_num (· / 1000)
      (h.numbers "Acquisition_instrument.TEM.convergence_angle" (by simp))
    obtain ⟨cl, hl, hl'⟩ := scaled_num (· / 1000)
      (h.numbers "Acquisition_instrument.TEM.Detector.EELS.collection_angle" (by simp))
    have hm := truthy_num (h.numbers "Acquisition_instrument.TEM.magnification" (by simp))
    have hcam := truthy_num (h.numbers "Acquisition_instrument.TEM.camera_length" (by simp))
    have hmode := h.mode.resolve_left (fun q => by rw [(has_iff m).2 q] at hb; cases hb)
    have hmo : ∃ d, metaOut P m = .ok d ∧ d = entry "filter.mode" (typeOut m) ++ entry "repo_id" title ++
        entry "acquisition.time" time ++ (entry "filter.aperture" (apertureOut P m) ++
        entry "electron_gun.voltage" en ++ entry "condenser.convergence_semi_angle" co ++
        entry "filter.collection_semi_angle" cl ++
        entry "projector.camera_length" (item m "Acquisition_instrument.TEM.camera_length") ++
        entry "source.type" (some (.text (modeOut m).2.toList)) ++
        entry ((modeOut m).1 ++ ".magnification") (item m "Acquisition_instrument.TEM.magnification")) := by
      simp only [metaOut, ht, htm, hb, bind, Except.bind, pure, Except.pure, if_true, temOut, he, hc,
        hl, hm, hcam, Except.ok.injEq, exists_eq_left']
    obtain ⟨d, hmo, hd⟩ := hmo
    refine ⟨d, hmo, ?_⟩
    have mo : (modeOut m = ("scan_driver", "scan_generator") ∧
          item m "Acquisition_instrument.TEM.acquisition_mode" = some (.text "STEM".toList)) ∨
        (modeOut m = ("projector", "camera") ∧
          item m "Acquisition_instrument.TEM.acquisition_mode" = some (.text "TEM".toList)) := by
      rcases hmode with e | e
      · exact .inl ⟨by simp [modeOut, e], e⟩
      · exact .inr ⟨by simp [modeOut, e], e⟩
    have ee : ∀ d : Dict, item d "electron_gun.voltage" = en → item d "filter.ht_offset" = none →
        item d "electron_gun.voltage_offset" = none →
        energyIn d = .ok (item m "Acquisition_instrument.TEM.beam_energy") := by
      intro d d1 d2 d3
      have hs : shift d = .num 0 := by rw [shift, d2, d3]
      rw [energyIn, hs, d1]
      rcases he' with ⟨a, rfl⟩ | ⟨q, a, hq, rfl⟩
      · rw [a]; rfl
      · rw [a]
        have : q * 1000 ≠ 0 := mul_ne_zero hq (by norm_num)
        simp [truthy, Option.filter, Val.true, hq]
    have bc := back_scaled (f := (· / 1000)) (g := (· * 1000)) (fun q hq => div_ne_zero hq (by norm_num))
      (fun q => by field_simp) hc'
    have bl := back_scaled (f := (· / 1000)) (g := (· * 1000)) (fun q hq => div_ne_zero hq (by norm_num))
      (fun q => by field_simp) hl'
    rcases mo with ⟨mo, ma⟩ | ⟨mo, ma⟩ <;> rw [mo] at hd <;> rw [ma, hd] <;>
    refine ⟨ee _ (by simp [item_append, item_entry]) (by simp [item_append, item_entry])
      (by simp [item_append, item_entry]), by simpa [item_append, item_entry] using bc,
      by simpa [item_append, item_entry] using bl, by simp [item_append, item_entry],
      by simp [item_append, item_entry], by simp [item_append, item_entry],
      aperture_back h _ (by simp [item_append, item_entry]), by simp [item_append, item_entry],
      by simp [item_append, item_entry, modeIn], by simp [item_append, item_entry, modeIn],
      by simp [item_append, item_entry]⟩

/-- Metadata of a spectrum. -/
def spectrum : Dict := [("General.title".toList, .text "edge".toList),
  ("General.date".toList, .text "2024-02-29".toList), ("General.time".toList, .text "12:34:56".toList),
  ("Signal.signal_type".toList, .text "EELS".toList), ("Acquisition_instrument.TEM.beam_energy".toList, .num 200),
  ("Acquisition_instrument.TEM.Detector.EELS.aperture".toList, .num (5 / 2)),
  ("Acquisition_instrument.TEM.acquisition_mode".toList, .text "STEM".toList)]

example : Writable lib spectrum 1 where
  title := .inr ⟨"edge".toList, by decide +kernel, by decide, by decide⟩
  stamp := .inr ⟨"2024-02-29".toList, "12:34:56".toList, by decide +kernel, by decide +kernel, by decide, by decide,
    by decide +kernel⟩
  type := .inr ⟨by decide +kernel, rfl⟩
  numbers := by
    intro k hk
    simp only [List.mem_cons, List.not_mem_nil, or_false] at hk
    rcases hk with rfl | rfl | rfl | rfl | rfl
    · exact .inr ⟨200, by decide +kernel, by norm_num⟩
    all_goals exact .inl (by decide +kernel)
  aperture := .inr (.inl ⟨5 / 2, by decide +kernel, by norm_num, by decide +kernel, by decide +kernel,
    by intro c hc; have : lib.str (5 / 2) = "2.5".toList := by decide +kernel
       rw [this] at hc; simp at hc; rw [← hc]; decide⟩)
  mode := .inr (.inl (by decide +kernel))

/-- The metadata after writing and reading. -/
def again (m : Dict) (n : Nat) : Py Dict := do
  let d ← converterOut lib false [] m
  metaIn lib d n none

/-- A title is cut at its first dot. -/
theorem C147_fails_title : again [("General.title".toList, .text "sample 1.5 nm".toList)] 2 =
    .ok [("General.title".toList, .text "sample 1".toList)] := by decide +kernel

/-- A date without a time is lost, and so is the zone of a time. -/
theorem C147_fails_date : again [("General.date".toList, .text "2024-02-29".toList)] 2 = .ok [] ∧
    again [("General.date".toList, .text "2024-02-29".toList),
        ("General.time".toList, .text "12:34:56+02:00".toList)] 2 =
      .ok [("General.date".toList, .text "2024-02-29".toList),
        ("General.time".toList, .text "12:34:56".toList)] := by constructor <;> decide +kernel

/-- Other types of signals are lost, and EELS for images. -/
theorem C147_fails_type : again [("Signal.signal_type".toList, .text "EDS_TEM".toList)] 1 = .ok [] ∧
    again [("Signal.signal_type".toList, .text "EELS".toList)] 2 = .ok [] := by constructor <;> decide +kernel

/-- An aperture described by a text with `mm` becomes a number, or the file cannot be read. -/
theorem C147_fails_aperture :
    again [("Acquisition_instrument.TEM.Detector.EELS.aperture".toList, .text "2 mm slit".toList)] 1 =
      .ok [("Acquisition_instrument.TEM.Detector.EELS.aperture".toList, .num 2),
        ("Acquisition_instrument.TEM.acquisition_mode".toList, .text "TEM".toList)] ∧
    again [("Acquisition_instrument.TEM.Detector.EELS.aperture".toList, .text "symmetric".toList)] 1 =
      .error .valueError := by constructor <;> decide +kernel

/-- Metadata of a microscope without a mode, or with another one, get the mode `TEM`. -/
theorem C147_fails_mode :
    again [("Acquisition_instrument.TEM.beam_energy".toList, .num 200)] 1 =
      .ok [("Acquisition_instrument.TEM.beam_energy".toList, .num 200),
        ("Acquisition_instrument.TEM.acquisition_mode".toList, .text "TEM".toList)] := by decide +kernel

/-- The metadata of a signal from a `.prz` file are written as they were: a changed title is lost. -/
theorem C147_fails_changed (P : Lib) (t : Text) :
    ∃ d, converterOut P true [("repo_id".toList, .text "old.0".toList)]
      [("General.title".toList, .text t)] = .ok d ∧
      metaIn P d 1 none = .ok [("General.title".toList, .text "old".toList)] := by
  refine ⟨_, rfl, ?_⟩
  rfl

end Verif.Props.PantarheiMeta
