import Verif.Model.TiffMapping
import Mathlib.Tactic.Linarith
import Mathlib.Tactic.Ring
import Mathlib.Tactic.NormNum
/-!
C165 (metadata of instruments in TIFF files).
-/
namespace Verif.Props.TiffMapping
open Verif Verif.Tiff Verif.TiffMapping

/-! ### Specification -/

/-- The original metadata have this value at this place. -/
inductive At : List String → T → T → Prop
  | here (t : T) : At [] t t
  | under (k : String) (ks : List String) (d : List (Text × T)) (v t : T) : getKw k.toList d = some v → At ks v t → At (k :: ks) (.dict d) t

/-- The metadata have this value. -/
def Has (m : Op) (d : String) (v : T) : Prop := getKw d.toList m = some v

/-- The metadata have no value. -/
def Lacks (m : Op) (d : String) : Prop := getKw d.toList m = none

/-- A number at `src` is found at `dst`, multiplied. Without a value there is none. -/
def Scaled (op m : Op) (src : List String) (dst : String) (q : ℚ) : Prop :=
  (∀ v, At src (.dict op) (.num v) → Has m dst (.num (v * q))) ∧ ((∀ v, ¬ At src (.dict op) v) → Lacks m dst)

/-- A value at `src` other than `None` is found at `dst`. Without a value there is none. -/
def Copied (op m : Op) (src : List String) (dst : String) : Prop :=
  (∀ v, At src (.dict op) v → v ≠ .null → Has m dst v) ∧ ((∀ v, ¬ At src (.dict op) v) → Lacks m dst)

/-- Two digits. -/
def Digits2 (n : Nat) (t : Text) : Prop := t = [Char.ofNat (48 + n / 10), Char.ofNat (48 + n % 10)]

/-! ### Lemmas -/

theorem at_iff : ∀ (p : List String) (t v : T), At p t v ↔ lookup p t = some v
  | [], t, v => by
    constructor
    · intro h
      cases h
      rfl
    · intro h
      cases h
      exact .here _
  | k :: ks, .dict d, v => by
    constructor
    · intro h
      cases h with
      | under _ _ _ w _ h1 h2 =>
        show (match getKw k.toList d with | some v => lookup ks v | none => none) = some v
        rw [h1]
        exact (at_iff ks w v).1 h2
    · intro h
      have h' : (match getKw k.toList d with | some v => lookup ks v | none => none) = some v := h
      cases hw : getKw k.toList d with
      | none =>
        rw [hw] at h'
        cases h'
      | some w =>
        rw [hw] at h'
        exact .under k ks d w v hw ((at_iff ks w v).2 h')
  | k :: ks, .null, v => ⟨(fun h => by cases h), (fun h => by cases h)⟩
  | k :: ks, .str _, v => ⟨(fun h => by cases h), (fun h => by cases h)⟩
  | k :: ks, .num _, v => ⟨(fun h => by cases h), (fun h => by cases h)⟩
  | k :: ks, .list _, v => ⟨(fun h => by cases h), (fun h => by cases h)⟩

theorem none_iff (p : List String) (t : T) (h : ∀ v, ¬ At p t v) : lookup p t = none := by
  cases hl : lookup p t with
  | none => rfl
  | some v => exact absurd ((at_iff p t v).2 hl) (h v)

theorem entry_other {x : Ext} {op m m' : Op} {e : Entry} (h : applyEntry x op m e = .ok m') {d : Text} (hd : d ≠ e.dst.toList) : getKw d m' = getKw d m := by
  unfold applyEntry at h
  split at h
  · cases h
    rfl
  · split at h
    · cases h
    · cases h
      rfl
    · cases h
      rw [getKw_setKw, if_neg hd]

theorem all_other {x : Ext} {op : Op} {d : Text} : ∀ {es : List Entry} {m m' : Op}, applyAll x op es m = .ok m' → (∀ e ∈ es, d ≠ e.dst.toList) → getKw d m' = getKw d m
  | [], m, m', h, _ => by
    cases h
    rfl
  | e :: es, m, m', h, hd => by
    unfold applyAll at h
    split at h
    · cases h
    · rename_i m1 h1
      rw [all_other h (fun e' he => hd e' (List.mem_cons_of_mem _ he)), entry_other h1 (hd e List.mem_cons_self)]

theorem all_get {x : Ext} {op : Op} {e : Entry} : ∀ {es : List Entry} {m m' : Op}, applyAll x op es m = .ok m' → (es.map fun e => e.dst.toList).Nodup → e ∈ es →
    getKw e.dst.toList m = none → (lookup e.src (.dict op) = none → getKw e.dst.toList m' = none) ∧
      (∀ v t, lookup e.src (.dict op) = some v → convert x e.conv v = .ok t → getKw e.dst.toList m' = (match t with | .null => none | t => some t))
  | [], _, _, _, _, h, _ => by cases h
  | e' :: es, m, m', h, hn, he, hm => by
    unfold applyAll at h
    rw [List.map_cons, List.nodup_cons] at hn
    split at h
    · cases h
    · rename_i m1 h1
      by_cases hq : e'.dst.toList = e.dst.toList
      · have hee : e = e' := by
          rcases List.mem_cons.1 he with h | h
          · exact h
          · exact absurd (List.mem_map.2 ⟨e, h, hq.symm⟩) hn.1
        subst hee
        have ho : getKw e.dst.toList m' = getKw e.dst.toList m1 :=
          all_other h (fun e1 h1 he1 => hn.1 (List.mem_map.2 ⟨e1, h1, he1.symm⟩))
        rw [ho]
        constructor
        · intro hl
          unfold applyEntry at h1
          rw [hl] at h1
          cases h1
          exact hm
        · intro v t hl hc
          unfold applyEntry at h1
          rw [hl] at h1
          dsimp only at h1
          rw [hc] at h1
          cases t with
          | null =>
            cases h1
            exact hm
          | str _ => cases h1; exact (getKw_setKw _ _ _ _).trans (if_pos rfl)
          | num _ => cases h1; exact (getKw_setKw _ _ _ _).trans (if_pos rfl)
          | list _ => cases h1; exact (getKw_setKw _ _ _ _).trans (if_pos rfl)
          | dict _ => cases h1; exact (getKw_setKw _ _ _ _).trans (if_pos rfl)
      · have he' : e ∈ es := by
          rcases List.mem_cons.1 he with h | h
          · exact absurd (by rw [h]) hq
          · exact h
        exact all_get h hn.2 he' ((entry_other h1 (Ne.symm hq)).trans hm)

theorem all_ok {x : Ext} {op : Op} : ∀ (es : List Entry) (m : Op), (∀ e ∈ es, ∀ v, lookup e.src (.dict op) = some v → ∃ t, convert x e.conv v = .ok t) →
    ∃ m', applyAll x op es m = .ok m'
  | [], m, _ => ⟨m, rfl⟩
  | e :: es, m, h => by
    have h1 : ∃ m1, applyEntry x op m e = .ok m1 := by
      unfold applyEntry
      cases hl : lookup e.src (.dict op) with
      | none => exact ⟨m, rfl⟩
      | some v =>
        obtain ⟨t, ht⟩ := h e List.mem_cons_self v hl
        dsimp only
        rw [ht]
        cases t <;> exact ⟨_, rfl⟩
    obtain ⟨m1, h1⟩ := h1
    unfold applyAll
    rw [h1]
    exact all_ok es m1 (fun e' he => h e' (List.mem_cons_of_mem _ he))

/-- The table of a page that is used, when the metadata are found. -/
theorem uses {x : Ext} {p : Page} {op : Op} {mp : Mapping} (hp : mappingOf p op = .ok mp) : instrument x p op = applyAll x op (table mp) [] := by
  unfold instrument
  rw [hp]
  rfl

theorem scaled {x : Ext} {op m : Op} {es : List Entry} (h : applyAll x op es [] = .ok m) (hn : (es.map fun e => e.dst.toList).Nodup) (src : List String) (dst : String) (c : Conv) (q : ℚ)
    (he : ⟨src, dst, c⟩ ∈ es) (hc : ∀ v, convert x c (.num v) = .ok (.num (v * q))) : Scaled op m src dst q := by
  have := all_get h hn he rfl
  exact ⟨fun v hv => this.2 (.num v) _ ((at_iff _ _ _).1 hv) (hc v), fun hv => this.1 (none_iff _ _ hv)⟩

theorem copied {x : Ext} {op m : Op} {es : List Entry} (h : applyAll x op es [] = .ok m) (hn : (es.map fun e => e.dst.toList).Nodup) (src : List String) (dst : String)
    (he : ⟨src, dst, .same⟩ ∈ es) : Copied op m src dst := by
  have := all_get h hn he rfl
  refine ⟨fun v hv hnull => ?_, fun hv => this.1 (none_iff _ _ hv)⟩
  have := this.2 v v ((at_iff _ _ _).1 hv) rfl
  cases v with
  | null => exact absurd rfl hnull
  | str _ => exact this
  | num _ => exact this
  | list _ => exact this
  | dict _ => exact this

theorem tryTimes_num (x : Ext) (q v : ℚ) : convert x (.tryTimes q) (.num v) = .ok (.num (v * q)) := rfl
theorem times_num (x : Ext) (q v : ℚ) : convert x (.times q) (.num v) = .ok (.num (v * q)) := rfl

/-! ### FEI -/

theorem fei_nodup : (feiTable.map fun e => e.dst.toList).Nodup := by decide +kernel

/-- C165, FEI, partial: the energy is in keV, the current in nA and the working distance in mm, as the file has V, A and m. Dwell time, name of the
microscope and user are kept. Missing: the stage (`C165_fails_stage`). -/
theorem C165_fei_partial {x : Ext} {p : Page} {op m : Op} (hp : p.isFei = true) (h : instrument x p op = .ok m) :
    Scaled op m ["fei_metadata", "Beam", "HV"] "Acquisition_instrument.SEM.beam_energy" (1 / 1000) ∧
    Scaled op m ["fei_metadata", "EBeam", "BeamCurrent"] "Acquisition_instrument.SEM.beam_current" (10 ^ 9) ∧
    Scaled op m ["fei_metadata", "Stage", "WorkingDistance"] "Acquisition_instrument.SEM.working_distance" 1000 ∧
    Copied op m ["fei_metadata", "Scan", "Dwelltime"] "Acquisition_instrument.SEM.dwell_time" ∧
    Copied op m ["fei_metadata", "System", "SystemType"] "Acquisition_instrument.SEM.microscope" ∧
    Copied op m ["fei_metadata", "User", "User"] "General.authors" := by
  have hm : mappingOf p op = .ok .fei := if_pos hp
  rw [uses hm] at h
  exact ⟨scaled h fei_nodup _ _ _ _ (by simp [table, feiTable]) (tryTimes_num x _), scaled h fei_nodup _ _ _ _ (by simp [table, feiTable]) (tryTimes_num x _),
    scaled h fei_nodup _ _ _ _ (by simp [table, feiTable]) (tryTimes_num x _), copied h fei_nodup _ _ (by simp [table, feiTable]),
    copied h fei_nodup _ _ (by simp [table, feiTable]), copied h fei_nodup _ _ (by simp [table, feiTable])⟩

/-- C165, FEI: dates and times are those of the file. -/
theorem C165_fei_date {x : Ext} {p : Page} {op m : Op} (hp : p.isFei = true) (h : instrument x p op = .ok m) :
    (∀ t d, At ["fei_metadata", "User", "Date"] (.dict op) (.str t) → x.date t = .ok d → Has m "General.date" (.str d)) ∧
    (∀ t d, At ["fei_metadata", "User", "Time"] (.dict op) (.str t) → x.time t = .ok d → Has m "General.time" (.str d)) := by
  have hm : mappingOf p op = .ok .fei := if_pos hp
  rw [uses hm] at h
  constructor
  · intro t d ha hd
    refine (all_get h fei_nodup (e := ⟨["fei_metadata", "User", "Date"], "General.date", .date⟩) (by simp [table, feiTable]) rfl).2 (.str t) (.str d) ((at_iff _ _ _).1 ha) ?_
    show (x.date t).map T.str = _
    rw [hd]
    rfl
  · intro t d ha hd
    refine (all_get h fei_nodup (e := ⟨["fei_metadata", "User", "Time"], "General.time", .time⟩) (by simp [table, feiTable]) rfl).2 (.str t) (.str d) ((at_iff _ _ _).1 ha) ?_
    show (x.time t).map T.str = _
    rw [hd]
    rfl

/-- C165, FEI: numbers and texts are enough for the metadata to be found; a text that is no number is left out. -/
theorem C165_fei_found {x : Ext} {p : Page} {op : Op} (hp : p.isFei = true)
    (hf : ∀ t e, x.env.float t = .error e → e = .valueError)
    (hnum : ∀ s ∈ [["fei_metadata", "Beam", "HV"], ["fei_metadata", "EBeam", "BeamCurrent"], ["fei_metadata", "Stage", "WorkingDistance"]], ∀ v, At s (.dict op) v →
      (∃ q, v = .num q) ∨ ∃ t, v = .str t)
    (hd : ∀ v, At ["fei_metadata", "User", "Date"] (.dict op) v → ∃ t d, v = .str t ∧ x.date t = .ok d)
    (ht : ∀ v, At ["fei_metadata", "User", "Time"] (.dict op) v → ∃ t d, v = .str t ∧ x.time t = .ok d) :
    ∃ m, instrument x p op = .ok m := by
  have hm : mappingOf p op = .ok .fei := if_pos hp
  rw [uses hm]
  have key : ∀ q v, ((∃ r, v = .num r) ∨ ∃ t, v = .str t) → ∃ t, convert x (.tryTimes q) v = .ok t := by
    intro q v hv
    rcases hv with ⟨r, rfl⟩ | ⟨t, rfl⟩
    · exact ⟨_, rfl⟩
    · show ∃ t', orNone (x.env.float t) q = .ok t'
      cases hx : x.env.float t with
      | ok r => exact ⟨_, rfl⟩
      | error e =>
        have := hf t e hx
        subst this
        exact ⟨_, rfl⟩
  refine all_ok _ _ ?_
  intro e he v hv
  have ha := (at_iff _ _ _).2 hv
  simp only [table, feiTable, List.mem_cons, List.not_mem_nil, or_false] at he
  rcases he with rfl | rfl | rfl | rfl | rfl | rfl | rfl | rfl | rfl | rfl | rfl | rfl | rfl
  · exact key _ v (hnum _ (by simp) v ha)
  · exact ⟨v, rfl⟩
  · exact ⟨v, rfl⟩
  · exact ⟨v, rfl⟩
  · exact ⟨v, rfl⟩
  · exact ⟨v, rfl⟩
  · exact key _ v (hnum _ (by simp) v ha)
  · exact ⟨v, rfl⟩
  · exact key _ v (hnum _ (by simp) v ha)
  · exact ⟨v, rfl⟩
  · obtain ⟨t, d, rfl, h⟩ := hd v ha
    refine ⟨.str d, ?_⟩
    show (x.date t).map T.str = _
    rw [h]
    rfl
  · obtain ⟨t, d, rfl, h⟩ := ht v ha
    refine ⟨.str d, ?_⟩
    show (x.time t).map T.str = _
    rw [h]
    rfl
  · exact ⟨v, rfl⟩

/-! ### Zeiss -/

theorem zeiss_nodup : (zeissTable.map fun e => e.dst.toList).Nodup := by decide +kernel

/-- C165, Zeiss, partial: stage and working distance are in mm, the dwell time in s and the current in nA, up to rounding to seven digits; numbers of the others are kept.
Missing: the units of the others (`C165_fails_energy`), and values without units (`C165_fails_unitless`). -/
theorem C165_zeiss_partial {x : Ext} {p : Page} {op m : Op} (hf : p.isFei = false) (hp : p.isSem = true) (h : instrument x p op = .ok m) :
    (∀ e ∈ [("ap_stage_at_x", "Acquisition_instrument.SEM.Stage.x", "mm"), ("ap_stage_at_y", "Acquisition_instrument.SEM.Stage.y", "mm"),
        ("ap_stage_at_z", "Acquisition_instrument.SEM.Stage.z", "mm"), ("ap_wd", "Acquisition_instrument.SEM.working_distance", "mm"),
        ("dp_dwell_time", "Acquisition_instrument.SEM.dwell_time", "s"), ("ap_iprobe", "Acquisition_instrument.SEM.beam_current", "nA")],
      ∀ n v u f, At ["CZ_SEM", e.1] (.dict op) (.list [n, .num v, .str u]) → x.factor u e.2.2.toList = some f → Has m e.2.1 (.num (x.digits (v * f)))) ∧
    (∀ e ∈ [("ap_actualkv", "Acquisition_instrument.SEM.beam_energy"), ("ap_mag", "Acquisition_instrument.SEM.magnification"),
        ("ap_stage_at_r", "Acquisition_instrument.SEM.Stage.rotation"), ("ap_stage_at_t", "Acquisition_instrument.SEM.Stage.tilt")],
      ∀ n v r, At ["CZ_SEM", e.1] (.dict op) (.list (n :: .num v :: r)) → Has m e.2 (.num v)) ∧
    (∀ e ∈ [("dp_detector_type", "Acquisition_instrument.SEM.Detector.detector_type"), ("sv_serial_number", "Acquisition_instrument.SEM.microscope"),
        ("sv_user_name", "General.authors")],
      ∀ n t r, At ["CZ_SEM", e.1] (.dict op) (.list (n :: .str t :: r)) → x.env.float t = .error .valueError → Has m e.2 (.str t)) := by
  have hm : mappingOf p op = .ok .zeiss := by
    unfold mappingOf
    rw [if_neg (by rw [hf]; simp), if_pos hp]
  rw [uses hm] at h
  have one : ∀ (src dst : String) (c : Conv), (⟨["CZ_SEM", src], dst, c⟩ : Entry) ∈ zeissTable → ∀ v t, At ["CZ_SEM", src] (.dict op) v → convert x c v = .ok t →
      getKw dst.toList m = (match t with | .null => none | t => some t) := fun src dst c he v t ha hc =>
    (all_get h zeiss_nodup he rfl).2 v t ((at_iff _ _ _).1 ha) hc
  refine ⟨?_, ?_, ?_⟩
  · intro e he n v u f ha hu
    have hc : ∀ w, e.2.2.toList = w → convert x (.tupleUnits w) (.list [n, .num v, .str u]) = .ok (.num (x.digits (v * f))) := by
      rintro w rfl
      show (match x.factor u e.2.2.toList with | some f => Except.ok (T.num (x.digits (v * f))) | none => .error PyErr.typeError) = _
      rw [hu]
    simp only [List.mem_cons, List.not_mem_nil, or_false] at he
    rcases he with rfl | rfl | rfl | rfl | rfl | rfl <;> exact one _ _ _ (by simp [zeissTable]) _ _ ha (hc _ rfl)
  · intro e he n v r ha
    have hc : convert x .tuple (.list (n :: .num v :: r)) = .ok (.num v) := rfl
    simp only [List.mem_cons, List.not_mem_nil, or_false] at he
    rcases he with rfl | rfl | rfl | rfl <;> exact one _ _ .tuple (by simp [zeissTable]) _ _ ha hc
  · intro e he n t r ha hx
    have hc : convert x .tuple (.list (n :: .str t :: r)) = .ok (.str t) := by
      show zeissValue x (.str t) = _
      unfold zeissValue
      show (match x.env.float t with | .ok q => _ | .error .valueError => _ | .error e => _) = _
      rw [hx]
    simp only [List.mem_cons, List.not_mem_nil, or_false] at he
    rcases he with rfl | rfl | rfl <;> exact one _ _ .tuple (by simp [zeissTable]) _ _ ha hc

/-! ### TVIPS -/

theorem tvips_nodup (d : Bool) : ((tvipsTable d).map fun e => e.dst.toList).Nodup := by
  cases d <;> decide +kernel

theorem tvips_mode {op : Op} (q : ℚ) (h : At ["TVIPS", "TemMode"] (.dict op) (.num q)) : tvipsMode op = .ok (decide (q = 3)) := by
  cases h with
  | under _ _ _ w _ h1 h2 =>
    cases h2 with
    | under _ _ d w' _ h3 h4 =>
      cases h4
      unfold tvipsMode sub
      rw [h1]
      simp only [bind, Except.bind, T.get, h3, T.isNum]

/-- C165, TVIPS: energy in keV, exposure in s, the stage in mm with its tilts, name of the camera; the magnification is a camera length in mode 3, and only then. -/
theorem C165_tvips {x : Ext} {p : Page} {op m : Op} {q : ℚ} (hf : p.isFei = false) (hs : p.isSem = false) (hp : p.isTvips = true) (hq : At ["TVIPS", "TemMode"] (.dict op) (.num q))
    (h : instrument x p op = .ok m) :
    Scaled op m ["TVIPS", "TemHighTension"] "Acquisition_instrument.TEM.beam_energy" (1 / 1000) ∧
    Scaled op m ["TVIPS", "ExposureTime"] "Acquisition_instrument.TEM.Detector.Camera.exposure" (1 / 1000) ∧
    Copied op m ["TVIPS", "CameraType"] "Acquisition_instrument.TEM.Detector.Camera.name" ∧
    (q = 3 → Copied op m ["TVIPS", "TemMagnification"] "Acquisition_instrument.TEM.camera_length" ∧ Lacks m "Acquisition_instrument.TEM.magnification") ∧
    (q ≠ 3 → Copied op m ["TVIPS", "TemMagnification"] "Acquisition_instrument.TEM.magnification" ∧ Lacks m "Acquisition_instrument.TEM.camera_length") ∧
    (∀ a b c d e r, At ["TVIPS", "TemStagePosition"] (.dict op) (.list (.num a :: .num b :: .num c :: .num d :: .num e :: r)) →
      Has m "Acquisition_instrument.TEM.Stage" (.dict [("x".toList, .num (a * 1000)), ("y".toList, .num (b * 1000)), ("z".toList, .num (c * 1000)),
        ("tilt_alpha".toList, .num d), ("tilt_beta".toList, .num e)])) ∧
    (∀ t, At ["TVIPS", "Comment"] (.dict op) (.str t) → (t ≠ [] → Has m "General.notes" (.str t)) ∧ (t = [] → Lacks m "General.notes")) := by
  have hm : mappingOf p op = .ok (.tvips (decide (q = 3))) := by
    unfold mappingOf
    rw [if_neg (by rw [hf]; simp), if_neg (by rw [hs]; simp), if_pos hp, tvips_mode q hq]
    rfl
  rw [uses hm] at h
  have hn := tvips_nodup (decide (q = 3))
  refine ⟨scaled h hn _ _ _ _ (by simp [table, tvipsTable]) (times_num x _), scaled h hn _ _ _ _ (by simp [table, tvipsTable]) (times_num x _),
    copied h hn _ _ (by simp [table, tvipsTable]), ?_, ?_, ?_, ?_⟩
  · intro hq3
    refine ⟨copied h hn _ _ (by simp [table, tvipsTable, hq3]), (all_other h ?_).trans rfl⟩
    rw [decide_eq_true hq3]
    decide +kernel
  · intro hq3
    refine ⟨copied h hn _ _ (by simp [table, tvipsTable, hq3]), (all_other h ?_).trans rfl⟩
    rw [decide_eq_false hq3]
    decide +kernel
  · intro a b c d e r ha
    exact (all_get h hn (e := ⟨["TVIPS", "TemStagePosition"], "Acquisition_instrument.TEM.Stage", .stage⟩) (by simp [table, tvipsTable]) rfl).2 _ _ ((at_iff _ _ _).1 ha) rfl
  · intro t ha
    have g := (all_get h hn (e := ⟨["TVIPS", "Comment"], "General.notes", .notEmpty⟩) (by simp [table, tvipsTable]) rfl).2 (.str t)
    constructor
    · intro ht
      refine g (.str t) ((at_iff _ _ _).1 ha) ?_
      show (if (T.str t).isText "" then _ else _) = _
      exact if_neg (by simp [T.isText, ht])
    · rintro rfl
      exact g .null ((at_iff _ _ _).1 ha) rfl

theorem two_digits {n : Nat} (h : n < 60) : Digits2 n (two n) := by
  have : ∀ k : Fin 60, two k.1 = [Char.ofNat (48 + k.1 / 10), Char.ofNat (48 + k.1 % 10)] := by decide +kernel
  exact this ⟨n, h⟩

theorem hour_digits {n : Nat} (h0 : 10 ≤ n) (h : n < 24) : Digits2 n (decChars n) := by
  have : ∀ k : Fin 24, 10 ≤ k.1 → decChars k.1 = [Char.ofNat (48 + k.1 / 10), Char.ofNat (48 + k.1 % 10)] := by decide +kernel
  exact this ⟨n, h⟩ h0

/-- C165, TVIPS, partial: seconds from 10:00:00 to 23:59:59 are a time. Missing: earlier ones and those after a day (`C165_fails_hour`, `C165_fails_day`). -/
theorem C165_time_partial {x : Ext} {p : Page} {op m : Op} {q : ℚ} (hf : p.isFei = false) (hs : p.isSem = false) (hp : p.isTvips = true) (hq : At ["TVIPS", "TemMode"] (.dict op) (.num q))
    (h : instrument x p op = .ok m) (hh mi s : Nat) (h10 : 10 ≤ hh) (h24 : hh < 24) (hmi : mi < 60) (hse : s < 60)
    (ha : At ["TVIPS", "Time"] (.dict op) (.num ((60 * (60 * hh + mi) + s : Nat) : ℚ))) :
    ∃ a b c, Digits2 hh a ∧ Digits2 mi b ∧ Digits2 s c ∧ Has m "General.time" (.str (a ++ ':' :: b ++ ':' :: c)) := by
  refine ⟨decChars hh, two mi, two s, hour_digits h10 h24, two_digits hmi, two_digits hse, ?_⟩
  have hm : mappingOf p op = .ok (.tvips (decide (q = 3))) := by
    unfold mappingOf
    rw [if_neg (by rw [hf]; simp), if_neg (by rw [hs]; simp), if_pos hp, tvips_mode q hq]
    rfl
  rw [uses hm] at h
  refine (all_get h (tvips_nodup _) (e := ⟨["TVIPS", "Time"], "General.time", .seconds⟩) (by simp [table, tvipsTable]) rfl).2 _ (.str _) ((at_iff _ _ _).1 ha) ?_
  have h1 : toInt (((60 * (60 * hh + mi) + s : Nat)) : ℚ) = ((60 * (60 * hh + mi) + s : Nat) : Int) := by
    unfold toInt
    rw [if_pos (Nat.cast_nonneg _)]
    exact Int.floor_natCast _
  show Except.ok (T.str (deltaText (toInt _))) = _
  rw [h1]
  unfold deltaText
  have e1 : ((60 * (60 * hh + mi) + s : Nat) : Int) / 86400 = 0 := by omega
  have e2 : (((60 * (60 * hh + mi) + s : Nat) : Int) % 86400).toNat = 60 * (60 * hh + mi) + s := by omega
  have e3 : (60 * (60 * hh + mi) + s) / 3600 = hh := by omega
  have e4 : (60 * (60 * hh + mi) + s) / 60 % 60 = mi := by omega
  have e5 : (60 * (60 * hh + mi) + s) % 60 = s := by omega
  rw [e1, e2]
  dsimp only
  rw [e3, e4, e5]
  rfl

/-! ### JEOL -/

theorem jeol_nodup (d : Bool) : ((jeolTable d).map fun e => e.dst.toList).Nodup := by
  cases d <;> decide +kernel

/-- C165, JEOL: energy in keV, tilts of the stage, name of the microscope, mode of the acquisition; the value of the selector is a camera length in the mode `DIFF` and a magnification otherwise. -/
theorem C165_jeol {x : Ext} {p : Page} {op m : Op} {t : Text} (hf : p.isFei = false) (hs : p.isSem = false) (hp : p.isTvips = false) (hi : p.isSis = false)
    (hmake : At ["Make"] (.dict op) (.str "JEOL Ltd.".toList)) (hq : At ["ImageDescription", "ImageFormingSystem", "ModeString"] (.dict op) (.str t))
    (h : instrument x p op = .ok m) :
    Scaled op m ["ImageDescription", "ElectronGun", "AccelerationVoltage"] "Acquisition_instrument.TEM.beam_energy" (1 / 1000) ∧
    Scaled op m ["ImageDescription", "ElectronGun", "BeamCurrent"] "Acquisition_instrument.TEM.beam_current" (1 / 1000) ∧
    Copied op m ["ImageDescription", "Instruments"] "Acquisition_instrument.TEM.microscope" ∧
    Copied op m ["ImageDescription", "GonioStage", "StagePosition", "TX"] "Acquisition_instrument.TEM.Stage.tilt_alpha" ∧
    Copied op m ["ImageDescription", "GonioStage", "StagePosition", "TY"] "Acquisition_instrument.TEM.Stage.tilt_beta" ∧
    (∀ v, At ["ImageDescription", "Eos", "EosMode"] (.dict op) (.str v) →
      Has m "Acquisition_instrument.TEM.acquisition_mode" (.str (if v = "eosASID".toList then "STEM".toList else "TEM".toList))) ∧
    (t = "DIFF".toList → Copied op m ["ImageDescription", "ImageFormingSystem", "SelectorValue"] "Acquisition_instrument.TEM.camera_length" ∧
      Lacks m "Acquisition_instrument.TEM.magnification") ∧
    (t ≠ "DIFF".toList → Copied op m ["ImageDescription", "ImageFormingSystem", "SelectorValue"] "Acquisition_instrument.TEM.magnification" ∧
      Lacks m "Acquisition_instrument.TEM.camera_length") := by
  have hm : mappingOf p op = .ok (.jeol (decide (t = "DIFF".toList))) := by
    unfold mappingOf
    rw [if_neg (by rw [hf]; simp), if_neg (by rw [hs]; simp), if_neg (by rw [hp]; simp), if_neg (by rw [hi]; simp)]
    cases hmake with
    | under _ _ _ w _ h1 h2 =>
      cases h2
      cases hq with
      | under _ _ _ w1 _ g1 g2 =>
        cases g2 with
        | under _ _ d1 w2 _ g3 g4 =>
          cases g4 with
          | under _ _ d2 w3 _ g5 g6 =>
            cases g6
            have hmk : (tagOr "Make" op .null).isText "JEOL Ltd." = true := by
              unfold tagOr
              rw [h1]
              simp [T.isText]
            rw [if_pos hmk]
            unfold sub
            rw [g1]
            simp only [bind, Except.bind, T.get, g3, g5, T.isText]
            rfl
  rw [uses hm] at h
  have hn := jeol_nodup (decide (t = "DIFF".toList))
  refine ⟨scaled h hn _ _ _ _ (by simp [table, jeolTable]) (times_num x _), scaled h hn _ _ _ _ (by simp [table, jeolTable]) (times_num x _), copied h hn _ _ (by simp [table, jeolTable]),
    copied h hn _ _ (by simp [table, jeolTable]), copied h hn _ _ (by simp [table, jeolTable]), ?_, ?_, ?_⟩
  · intro v ha
    refine (all_get h hn (e := ⟨["ImageDescription", "Eos", "EosMode"], "Acquisition_instrument.TEM.acquisition_mode", .eos⟩) (by simp [table, jeolTable]) rfl).2 _ (.str _)
      ((at_iff _ _ _).1 ha) ?_
    simp only [convert, T.isText, decide_eq_true_eq]
  · intro ht
    refine ⟨copied h hn _ _ (by simp [table, jeolTable, ht]), (all_other h ?_).trans rfl⟩
    rw [decide_eq_true ht]
    decide +kernel
  · intro ht
    refine ⟨copied h hn _ _ ?_, (all_other h ?_).trans rfl⟩
    · rw [decide_eq_false ht]
      simp [table, jeolTable]
    · rw [decide_eq_false ht]
      decide +kernel

/-! ### Examples and counterexamples -/

/-- A part of `float`, dates as they are, some units. -/
def someExt : Ext where
  env := ⟨fun _ => .error .valueError, fun _ l => l, id, fun _ => none, fun _ => none, fun _ => .error .valueError, id, false⟩
  date t := .ok t
  time t := .ok t
  factor u v := if u = v then some 1 else if u = "µm".toList ∧ v = "mm".toList then some (1 / 1000) else if u = "V".toList ∧ v = "kV".toList then some (1 / 1000) else none
  digits := id

def page (fei sem tvips : Bool) : Page := ⟨[], [], fei, sem, tvips, false, false, []⟩

/-- A number at a place of the result. -/
def numAt (d : String) : Py Op → Option (Option ℚ)
  | .ok m => some (match getKw d.toList m with | some (.num q) => some q | _ => none)
  | .error _ => none

/-- A text at a place of the result. -/
def textAt (d : String) : Py Op → Option (Option Text)
  | .ok m => some (match getKw d.toList m with | some (.str q) => some q | _ => none)
  | .error _ => none

/-- A dictionary. -/
def dict (l : List (String × T)) : T := .dict (l.map fun p => (p.1.toList, p.2))

def feiOp : Op := [("fei_metadata".toList, dict [("Beam", dict [("HV", .num 20000)]), ("EBeam", dict [("BeamCurrent", .str "?".toList)]),
  ("Stage", dict [("StageX", .num (1 / 200)), ("WorkingDistance", .num (1 / 200))])])]

/-- Energy in keV and working distance in mm; a current that is no number is left out. -/
example : numAt "Acquisition_instrument.SEM.beam_energy" (instrument someExt (page true false false) feiOp) = some (some 20) ∧
    numAt "Acquisition_instrument.SEM.working_distance" (instrument someExt (page true false false) feiOp) = some (some 5) ∧
    numAt "Acquisition_instrument.SEM.beam_current" (instrument someExt (page true false false) feiOp) = some none := by decide +kernel

/-- C165 fails: the position of the stage of FEI stays in m, while the working distance, in m as well, becomes mm. -/
theorem C165_fails_stage : numAt "Acquisition_instrument.SEM.Stage.x" (instrument someExt (page true false false) feiOp) = some (some (1 / 200)) ∧
    numAt "Acquisition_instrument.SEM.working_distance" (instrument someExt (page true false false) feiOp) = some (some (1000 * (1 / 200))) := by decide +kernel

def zeissOp (key : String) (v : List T) : Op := [("CZ_SEM".toList, dict [(key, .list (.str "name".toList :: v))])]

/-- A stage in µm. -/
example : numAt "Acquisition_instrument.SEM.Stage.x" (instrument someExt (page false true false) (zeissOp "ap_stage_at_x" [.num 1500, .str "µm".toList])) = some (some (3 / 2)) := by
  decide +kernel

/-- C165 fails: an energy in V is taken as one in kV. -/
theorem C165_fails_energy : numAt "Acquisition_instrument.SEM.beam_energy" (instrument someExt (page false true false) (zeissOp "ap_actualkv" [.num 800, .str "V".toList])) =
    some (some 800) := by decide +kernel

/-- C165 fails: a position of the stage without units is an error. -/
theorem C165_fails_unitless : instrument someExt (page false true false) (zeissOp "ap_stage_at_x" [.num 0]) = .error .valueError := by rfl

/-- C165 fails: a magnification of 50 000 is the text `50.00 K X`. -/
theorem C165_fails_magnification : textAt "Acquisition_instrument.SEM.magnification" (instrument someExt (page false true false) (zeissOp "ap_mag" [.str "50.00 K X".toList])) =
    some (some "50.00 K X".toList) := by decide +kernel

def tvipsOp (mode : ℚ) (more : List (String × T)) : Op := [("TVIPS".toList, dict (("TemMode", .num mode) :: ("TemMagnification", .num 800) :: more))]

/-- A camera length. -/
example : numAt "Acquisition_instrument.TEM.camera_length" (instrument someExt (page false false true) (tvipsOp 3 [])) = some (some 800) := by decide +kernel

example : textAt "General.time" (instrument someExt (page false false true) (tvipsOp 1 [("Time", .num 45296)])) = some (some "12:34:56".toList) := by decide +kernel

/-- C165 fails: times before ten o'clock have one digit for the hour. -/
theorem C165_fails_hour : textAt "General.time" (instrument someExt (page false false true) (tvipsOp 1 [("Time", .num 3723)])) = some (some "1:02:03".toList) := by decide +kernel

/-- C165 fails: from 86400 s on the time has days. -/
theorem C165_fails_day : textAt "General.time" (instrument someExt (page false false true) (tvipsOp 1 [("Time", .num 86400)])) = some (some "1 day, 0:00:00".toList) := by
  decide +kernel

def jeolOp (mode : String) : Op := [("Make".toList, .str "JEOL Ltd.".toList), ("ImageDescription".toList, dict [("ImageFormingSystem", dict [("ModeString", .str mode.toList), ("SelectorValue", .num 200)]),
  ("ElectronGun", dict [("AccelerationVoltage", .num 200000)])])]

example : numAt "Acquisition_instrument.TEM.camera_length" (instrument someExt (page false false false) (jeolOp "DIFF")) = some (some 200) ∧
    numAt "Acquisition_instrument.TEM.magnification" (instrument someExt (page false false false) (jeolOp "MAG")) = some (some 200) ∧
    numAt "Acquisition_instrument.TEM.beam_energy" (instrument someExt (page false false false) (jeolOp "MAG")) = some (some 200) := by decide +kernel

end Verif.Props.TiffMapping
