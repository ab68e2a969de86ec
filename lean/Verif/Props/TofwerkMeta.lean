import Verif.Model.TofwerkMeta
import Mathlib.Tactic.FieldSimp
import Mathlib.Tactic.Ring
/-!
C168: metadata and original metadata of Tofwerk files.
-/
namespace Verif.Props.TofwerkMeta
open Verif Verif.TofwerkMeta
open Verif.Tofwerk (Peak)

/-! ### What the attributes of a file say -/

/-- The attribute `k` is `a`. -/
def Has {α : Type} (d : List (String × α)) (k : String) (a : α) : Prop :=
  ∃ l r, d = l ++ (k, a) :: r ∧ ∀ e ∈ l, e.1 ≠ k

/-- There is no attribute `k`. -/
def Missing {α : Type} (d : List (String × α)) (k : String) : Prop := ∀ e ∈ d, e.1 ≠ k

/-- The attribute is the value, or an array that begins with it. -/
def Begins (d : Attrs) (k : String) (s : Scalar) : Prop := Has d k (.one s) ∨ ∃ l, Has d k (.many (s :: l))

/-- The attribute is an integer or a number. -/
def IsNum (d : Attrs) (k : String) (q : Rat) : Prop := Begins d k (.float q) ∨ ∃ i : Int, Begins d k (.int i) ∧ q = i

/-- The attribute is bytes or a text. -/
def IsText (d : Attrs) (k : String) (t : Text) : Prop := Has d k (.one (.bytes t)) ∨ Has d k (.one (.text t))

private theorem item_has {α : Type} {d : List (String × α)} {k : String} {a : α} (h : Has d k a) :
    item d k = some a := by
  obtain ⟨l, r, rfl, hl⟩ := h
  rw [item, List.find?_append, List.find?_eq_none.2 (by simpa using fun x y hxy => hl (x, y) hxy)]
  simp

private theorem item_missing {α : Type} {d : List (String × α)} {k : String} (h : Missing d k) :
    item d k = none := by
  rw [item, List.find?_eq_none.2 (by simpa using fun x y hxy => h (x, y) hxy)]
  rfl

private theorem has_or {α : Type} (d : List (String × α)) (k : String) : Missing d k ∨ ∃ a, Has d k a := by
  induction d with
  | nil => exact .inl (by simp [Missing])
  | cons e d ih =>
    by_cases he : e.1 = k
    · exact .inr ⟨e.2, [], d, by simp [← he], by simp⟩
    · rcases ih with ih | ⟨a, l, r, rfl, hl⟩
      · exact .inl (by simpa [Missing] using ⟨he, fun a b hab => ih (a, b) hab⟩)
      · exact .inr ⟨a, e :: l, r, by simp, by simpa using ⟨he, fun a b hab => hl (a, b) hab⟩⟩

private theorem getInt_begins {P : Lib} {d : Attrs} {k : String} {i c : Int} (h : Begins d k (.int i)) :
    getInt P d k c = .ok i := by
  rcases h with h | ⟨l, h⟩ <;> rw [getInt, item_has h] <;> rfl

private theorem getInt_missing {P : Lib} {d : Attrs} {k : String} {c : Int} (h : Missing d k) :
    getInt P d k c = .ok c := by rw [getInt, item_missing h]

private theorem getFloat_num {P : Lib} {d : Attrs} {k : String} {q c : Rat} (h : IsNum d k q) :
    getFloat P d k c = .ok q := by
  rcases h with (h | ⟨l, h⟩) | ⟨i, (h | ⟨l, h⟩), rfl⟩ <;> rw [getFloat, item_has h] <;> rfl

private theorem getFloat_missing {P : Lib} {d : Attrs} {k : String} {c : Rat} (h : Missing d k) :
    getFloat P d k c = .ok c := by rw [getFloat, item_missing h]

private theorem needFloat_num {P : Lib} {d : Attrs} {k : String} {q : Rat} (h : IsNum d k q) :
    needFloat P d k = .ok q := by
  rcases h with (h | ⟨l, h⟩) | ⟨i, (h | ⟨l, h⟩), rfl⟩ <;> rw [needFloat, item_has h] <;> rfl

private theorem getText_text {P : Lib} {d : Attrs} {k : String} {t : Text} (h : IsText d k t) :
    getText P d k = t := by
  rcases h with h | h <;> rw [getText, item_has h] <;> rfl

private theorem getText_missing {P : Lib} {d : Attrs} {k : String} (h : Missing d k) :
    getText P d k = [] := by rw [getText, item_missing h]

private theorem bind_ok {α β : Type} {x : Py α} {f : α → Py β} {r : β} (h : (x >>= f) = .ok r) :
    ∃ a, x = .ok a ∧ f a = .ok r := by
  cases x with
  | error e => cases h
  | ok a => exact ⟨a, rfl, h⟩

private theorem tof_ok {P : Lib} {f : File} {r : Dict} (h : tofMeta P f = .ok r) :
    ∃ n mode p1 p2 interval ion period third,
      getInt P f.root "NbrPeaks" 0 = .ok n ∧ getInt P f.full "MassCalibMode" 0 = .ok mode ∧
      getFloat P f.full "MassCalibration p1" 0 = .ok p1 ∧ getFloat P f.full "MassCalibration p2" 0 = .ok p2 ∧
      getFloat P f.full "SampleInterval" 0 = .ok interval ∧ getFloat P f.full "Single Ion Signal" 1 = .ok ion ∧
      getInt P f.timing "TofPeriod" 0 = .ok period ∧ thirdMeta P f = .ok third ∧
      r = [("ToF.ion_mode", .text (getText P f.root "IonMode")),
        ("ToF.n_peaks", .int n),
        ("ToF.mass_calib_mode", .int mode),
        ("ToF.mass_calib_p1", .num p1),
        ("ToF.mass_calib_p2", .num p2),
        ("ToF.sample_interval_s", .num interval),
        ("ToF.single_ion_signal", .num ion),
        ("ToF.tof_period_samples", .int period),
        ("ToF.mass_range_Da", .list [.num f.range.1, .num f.range.2])] ++ third := by
  obtain ⟨n, h1, h⟩ := bind_ok h
  obtain ⟨mode, h2, h⟩ := bind_ok h
  obtain ⟨p1, h3, h⟩ := bind_ok h
  obtain ⟨p2, h4, h⟩ := bind_ok h
  obtain ⟨interval, h5, h⟩ := bind_ok h
  obtain ⟨ion, h6, h⟩ := bind_ok h
  obtain ⟨period, h7, h⟩ := bind_ok h
  obtain ⟨third, h8, h⟩ := bind_ok h
  cases h
  exact ⟨n, mode, p1, p2, interval, ion, period, third, h1, h2, h3, h4, h5, h6, h7, h8, rfl⟩

private theorem build_ok {P : Lib} {f : File} {r : Dict} (h : build P f = .ok r) :
    ∃ n mode p1 p2 interval ion period third v slices segments,
      getInt P f.root "NbrPeaks" 0 = .ok n ∧ getInt P f.full "MassCalibMode" 0 = .ok mode ∧
      getFloat P f.full "MassCalibration p1" 0 = .ok p1 ∧ getFloat P f.full "MassCalibration p2" 0 = .ok p2 ∧
      getFloat P f.full "SampleInterval" 0 = .ok interval ∧ getFloat P f.full "Single Ion Signal" 1 = .ok ion ∧
      getInt P f.timing "TofPeriod" 0 = .ok period ∧ thirdMeta P f = .ok third ∧ version P f.root = .ok v ∧
      getInt P f.root "NbrWrites" 0 = .ok slices ∧ getInt P f.root "NbrSegments" 0 = .ok segments ∧
      r = fibMeta P f ++ ([("ToF.ion_mode", .text (getText P f.root "IonMode")),
        ("ToF.n_peaks", .int n),
        ("ToF.mass_calib_mode", .int mode),
        ("ToF.mass_calib_p1", .num p1),
        ("ToF.mass_calib_p2", .num p2),
        ("ToF.sample_interval_s", .num interval),
        ("ToF.single_ion_signal", .num ion),
        ("ToF.tof_period_samples", .int period),
        ("ToF.mass_range_Da", .list [.num f.range.1, .num f.range.2])] ++ third) ++
        [("DAQ.hardware", .text (getText P f.root "DAQ Hardware")),
        ("DAQ.tofdaq_version", .text v),
        ("DAQ.gui_version", .text (getText P f.root "FiblysGUIVersion")),
        ("DAQ.computer_id", .text (getText P f.root "Computer ID"))] ++
        [("n_depth_slices", .int slices), ("n_segments", .int segments),
        ("file_type", .text (if f.hasPeaks then "pre-processed" else "raw").toList)] ++
        pressureMeta f ++ peakMeta f := by
  obtain ⟨tof, ht, h⟩ := bind_ok h
  obtain ⟨daq, hd, h⟩ := bind_ok h
  obtain ⟨v, hv, hd⟩ := bind_ok hd
  obtain ⟨slices, hs, h⟩ := bind_ok h
  obtain ⟨segments, hg, h⟩ := bind_ok h
  obtain ⟨n, mode, p1, p2, interval, ion, period, third, h1, h2, h3, h4, h5, h6, h7, h8, rfl⟩ := tof_ok ht
  cases hd
  cases h
  exact ⟨n, mode, p1, p2, interval, ion, period, third, v, slices, segments, h1, h2, h3, h4, h5, h6, h7, h8, hv, hs,
    hg, rfl⟩

/-! ### The claims -/

/-- C168, numbers. Counts and settings are the integers of their attributes, and 0 without them; coefficients, interval and signal of
one ion are the numbers of their attributes, and 0, 0, 0 and 1 without them; the third coefficient is given just if there is one. -/
theorem C168_numbers {P : Lib} {f : File} {r : Dict} (h : build P f = .ok r) :
    (∀ d k key, (d, k, key) ∈ [(f.root, "NbrPeaks", "ToF.n_peaks"), (f.root, "NbrWrites", "n_depth_slices"),
        (f.root, "NbrSegments", "n_segments"), (f.full, "MassCalibMode", "ToF.mass_calib_mode"),
        (f.timing, "TofPeriod", "ToF.tof_period_samples")] →
      (∀ i, Begins d k (.int i) → (key, .int i) ∈ r) ∧ (Missing d k → (key, .int 0) ∈ r)) ∧
    (∀ k key c, (k, key, c) ∈ [("MassCalibration p1", "ToF.mass_calib_p1", (0 : Rat)),
        ("MassCalibration p2", "ToF.mass_calib_p2", 0), ("SampleInterval", "ToF.sample_interval_s", 0),
        ("Single Ion Signal", "ToF.single_ion_signal", 1)] →
      (∀ q, IsNum f.full k q → (key, .num q) ∈ r) ∧ (Missing f.full k → (key, .num c) ∈ r)) ∧
    (∀ q, IsNum f.full "MassCalibration p3" q → ("ToF.mass_calib_p3", .num q) ∈ r) ∧
    (Missing f.full "MassCalibration p3" → ∀ v, ("ToF.mass_calib_p3", v) ∉ r) := by
  obtain ⟨n, mode, p1, p2, interval, ion, period, third, v, slices, segments, h1, h2, h3, h4, h5, h6, h7, h8, hv, hs,
    hg, rfl⟩ := build_ok h
  have gi : ∀ {d : Attrs} {k : String} {x : Int}, getInt P d k 0 = .ok x →
      (∀ i, Begins d k (.int i) → i = x) ∧ (Missing d k → x = 0) := by
    intro d k x hx
    refine ⟨fun i hi => ?_, fun hm => ?_⟩
    · rw [getInt_begins hi] at hx
      exact Except.ok.inj hx
    · rw [getInt_missing hm] at hx
      exact (Except.ok.inj hx).symm
  have gf : ∀ {k : String} {x c : Rat}, getFloat P f.full k c = .ok x →
      (∀ i, IsNum f.full k i → i = x) ∧ (Missing f.full k → x = c) := by
    intro k x c hx
    refine ⟨fun i hi => ?_, fun hm => ?_⟩
    · rw [getFloat_num hi] at hx
      exact Except.ok.inj hx
    · rw [getFloat_missing hm] at hx
      exact (Except.ok.inj hx).symm
  refine ⟨?_, ?_, ?_, ?_⟩
  · intro d k key hm
    simp only [List.mem_cons, Prod.mk.injEq, List.not_mem_nil, or_false] at hm
    rcases hm with ⟨rfl, rfl, rfl⟩ | ⟨rfl, rfl, rfl⟩ | ⟨rfl, rfl, rfl⟩ | ⟨rfl, rfl, rfl⟩ | ⟨rfl, rfl, rfl⟩
    · exact ⟨fun i hi => by rw [(gi h1).1 i hi]; simp, fun hm => by rw [← (gi h1).2 hm]; simp⟩
    · exact ⟨fun i hi => by rw [(gi hs).1 i hi]; simp, fun hm => by rw [← (gi hs).2 hm]; simp⟩
    · exact ⟨fun i hi => by rw [(gi hg).1 i hi]; simp, fun hm => by rw [← (gi hg).2 hm]; simp⟩
    · exact ⟨fun i hi => by rw [(gi h2).1 i hi]; simp, fun hm => by rw [← (gi h2).2 hm]; simp⟩
    · exact ⟨fun i hi => by rw [(gi h7).1 i hi]; simp, fun hm => by rw [← (gi h7).2 hm]; simp⟩
  · intro k key c hm
    simp only [List.mem_cons, Prod.mk.injEq, List.not_mem_nil, or_false] at hm
    rcases hm with ⟨rfl, rfl, rfl⟩ | ⟨rfl, rfl, rfl⟩ | ⟨rfl, rfl, rfl⟩ | ⟨rfl, rfl, rfl⟩
    · exact ⟨fun i hi => by rw [(gf h3).1 i hi]; simp, fun hm => by rw [← (gf h3).2 hm]; simp⟩
    · exact ⟨fun i hi => by rw [(gf h4).1 i hi]; simp, fun hm => by rw [← (gf h4).2 hm]; simp⟩
    · exact ⟨fun i hi => by rw [(gf h5).1 i hi]; simp, fun hm => by rw [← (gf h5).2 hm]; simp⟩
    · exact ⟨fun i hi => by rw [(gf h6).1 i hi]; simp, fun hm => by rw [← (gf h6).2 hm]; simp⟩
  · intro q hq
    have : ∃ a, item f.full "MassCalibration p3" = some a := by
      rcases hq with (h | ⟨l, h⟩) | ⟨i, (h | ⟨l, h⟩), rfl⟩ <;> exact ⟨_, item_has h⟩
    obtain ⟨a, ha⟩ := this
    rw [thirdMeta, ha] at h8
    simp only [needFloat_num hq] at h8
    cases h8
    simp
  · intro hm v hv
    rw [thirdMeta, item_missing hm] at h8
    cases h8
    have hf : ∀ v, ("ToF.mass_calib_p3", v) ∉ fibMeta P f := by
      intro v hv
      unfold fibMeta at hv
      cases e : fibPart P f with
      | error _ => simp [e] at hv
      | ok d =>
        rw [e] at hv
        unfold fibPart at e
        cases hf : f.fib with
        | none => rw [hf] at e; cases e
        | some d' =>
          rw [hf] at e
          obtain ⟨_, _, e⟩ := bind_ok e
          obtain ⟨_, _, e⟩ := bind_ok e
          obtain ⟨_, _, e⟩ := bind_ok e
          obtain ⟨_, _, e⟩ := bind_ok e
          cases e
          simp at hv
    have hp : ∀ v, ("ToF.mass_calib_p3", v) ∉ pressureMeta f := by
      intro v hv
      unfold pressureMeta at hv
      split at hv <;> simp at hv
    have hk : ∀ v, ("ToF.mass_calib_p3", v) ∉ peakMeta f := by
      intro v hv
      unfold peakMeta at hv
      split at hv <;> simp at hv
    simp [hf, hp, hk] at hv

/-- C168, texts. Mode, hardware, version of the interface and computer are the texts of their attributes, stored as bytes or as texts, and
empty without them; the version of the program is that of a text; the type of the file says whether there are data of peaks; and the
table of peaks is that of the file. -/
theorem C168_texts {P : Lib} {f : File} {r : Dict} (h : build P f = .ok r) :
    (∀ k key, (k, key) ∈ [("IonMode", "ToF.ion_mode"), ("DAQ Hardware", "DAQ.hardware"),
        ("FiblysGUIVersion", "DAQ.gui_version"), ("Computer ID", "DAQ.computer_id")] →
      (∀ t, IsText f.root k t → (key, .text t) ∈ r) ∧ (Missing f.root k → (key, .text []) ∈ r)) ∧
    (∀ t, Begins f.root "TofDAQ Version" (.text t) → ("DAQ.tofdaq_version", .text t) ∈ r) ∧
    (Missing f.root "TofDAQ Version" → ("DAQ.tofdaq_version", .text []) ∈ r) ∧
    (f.hasPeaks = true → ("file_type", .text "pre-processed".toList) ∈ r) ∧
    (f.hasPeaks = false → ("file_type", .text "raw".toList) ∈ r) ∧
    (∀ l, f.peaks = some l → ("Signal.peak_table", .peaks l) ∈ r) ∧
    ("ToF.mass_range_Da", .list [.num f.range.1, .num f.range.2]) ∈ r := by
  obtain ⟨n, mode, p1, p2, interval, ion, period, third, v, slices, segments, h1, h2, h3, h4, h5, h6, h7, h8, hv, hs,
    hg, rfl⟩ := build_ok h
  refine ⟨?_, ?_, ?_, ?_, ?_, ?_, by simp⟩
  · intro k key hm
    simp only [List.mem_cons, Prod.mk.injEq, List.not_mem_nil, or_false] at hm
    rcases hm with ⟨rfl, rfl⟩ | ⟨rfl, rfl⟩ | ⟨rfl, rfl⟩ | ⟨rfl, rfl⟩ <;>
      exact ⟨fun t ht => by simp [getText_text (P := P) ht], fun hm => by simp [getText_missing (P := P) hm]⟩
  · intro t ht
    have : v = t := by
      rcases ht with h | ⟨l, h⟩ <;> rw [version, item_has h] at hv <;> cases hv <;> rfl
    simp [this]
  · intro hm
    rw [version, item_missing hm] at hv
    cases hv
    simp
  · intro hp
    simp [hp]
  · intro hp
    simp [hp]
  · intro l hl
    simp [peakMeta, hl]

/-- C168, the beam. With voltage, current, field of view and number of segments, the voltage is given in kV, current and field of view as
they are, and the pixels in µm of all segments make up the field of view in mm.

The full claim is this for each value on its own. Missing: one value without the others, `C168_fails_beam`. -/
theorem C168_beam_partial {P : Lib} {f : File} {r : Dict} (h : build P f = .ok r) {d : Attrs} (hd : f.fib = some d)
    {voltage current view : Rat} (hv : IsNum d "Voltage" voltage) (hc : IsNum d "Current" current)
    (hw : IsNum d "ViewField" view) {n : Int}
    (hn : Begins f.root "NbrSegments" (.int n) ∨ (Missing f.root "NbrSegments" ∧ n = 1)) (h0 : n ≠ 0) :
    (∃ x, ("FIB.voltage_kV", .num x) ∈ r ∧ x * 1000 = voltage) ∧ ("FIB.current_A", .num current) ∈ r ∧
      ("FIB.view_field_mm", .num view) ∈ r ∧ (∃ p, ("FIB.pixel_size_um", .num p) ∈ r ∧ p * n = view * 1000) ∧
      (∀ t, IsText d "FibHardware" t → ("FIB.hardware", .text t) ∈ r) := by
  obtain ⟨_, mode, p1, p2, interval, ion, period, third, v, slices, segments, h1, h2, h3, h4, h5, h6, h7, h8, hv', hs,
    hg, rfl⟩ := build_ok h
  have hn' : getInt P f.root "NbrSegments" 1 = .ok n := by
    rcases hn with hn | ⟨hn, rfl⟩
    · exact getInt_begins hn
    · exact getInt_missing hn
  have hfib : fibMeta P f = [("FIB.hardware", .text (getText P d "FibHardware")),
      ("FIB.voltage_kV", .num (voltage / 1000)), ("FIB.current_A", .num current),
      ("FIB.view_field_mm", .num view), ("FIB.pixel_size_um", .num (view * 1000 / n))] := by
    have : fibPart P f = .ok [("FIB.hardware", .text (getText P d "FibHardware")),
        ("FIB.voltage_kV", .num (voltage / 1000)), ("FIB.current_A", .num current),
        ("FIB.view_field_mm", .num view), ("FIB.pixel_size_um", .num (view * 1000 / n))] := by
      simp [fibPart, hd, hn', needFloat_num (P := P) hv, needFloat_num (P := P) hc, needFloat_num (P := P) hw, pixel, h0,
        bind, Except.bind, pure, Except.pure]
    rw [fibMeta, this]
  rw [hfib]
  have hq : (n : Rat) ≠ 0 := by exact_mod_cast h0
  refine ⟨⟨voltage / 1000, by simp, by ring⟩, by simp, by simp, ⟨view * 1000 / n, by simp, by field_simp⟩, ?_⟩
  intro t ht
  rw [getText_text (P := P) ht]
  simp

/-- C168, pressure: the sum of all pressures is their number times the one given, and without pressures there is none. -/
theorem C168_pressure {P : Lib} {f : File} {r : Dict} (h : build P f = .ok r) :
    (∀ l, f.pressure = some l → l ≠ [] → ∃ p, ("chamber_pressure_Pa", .num p) ∈ r ∧ p * l.length = l.sum) ∧
    (f.pressure = none → ∀ v, ("chamber_pressure_Pa", v) ∈ r → False) := by
  obtain ⟨_, mode, p1, p2, interval, ion, period, third, v, slices, segments, h1, h2, h3, h4, h5, h6, h7, h8, hv', hs,
    hg, rfl⟩ := build_ok h
  constructor
  · intro l hl hne
    have hq : (l.length : Rat) ≠ 0 := by
      have := List.length_pos_iff.2 hne
      exact_mod_cast this.ne'
    refine ⟨l.sum / l.length, ?_, by field_simp⟩
    have : pressureMeta f = [("chamber_pressure_Pa", .num (l.sum / l.length))] := by
      cases l with
      | nil => exact absurd rfl hne
      | cons a l => rw [pressureMeta, hl]
    simp [this]
  · intro hp v hv
    have hf : ∀ v, ("chamber_pressure_Pa", v) ∉ fibMeta P f := by
      intro v hv
      unfold fibMeta at hv
      cases e : fibPart P f with
      | error _ => simp [e] at hv
      | ok d =>
        rw [e] at hv
        unfold fibPart at e
        cases hf : f.fib with
        | none => rw [hf] at e; cases e
        | some d' =>
          rw [hf] at e
          obtain ⟨_, _, e⟩ := bind_ok e
          obtain ⟨_, _, e⟩ := bind_ok e
          obtain ⟨_, _, e⟩ := bind_ok e
          obtain ⟨_, _, e⟩ := bind_ok e
          cases e
          simp at hv
    have ht : ("chamber_pressure_Pa", v) ∉ third := by
      intro ht
      unfold thirdMeta at h8
      split at h8
      · cases h8
        simp at ht
      · obtain ⟨_, _, h8⟩ := bind_ok h8
        cases h8
        simp at ht
    have hk : ("chamber_pressure_Pa", v) ∉ peakMeta f := by
      intro hv
      unfold peakMeta at hv
      split at hv <;> simp at hv
    simp [pressureMeta, hp, hf, hk, ht] at hv

/-- C168: a file whose attributes are numbers where numbers are needed is read, whatever else is there. -/
theorem C168_reads (P : Lib) (f : File)
    (hi : ∀ d k, (d, k) ∈ [(f.root, "NbrPeaks"), (f.root, "NbrWrites"), (f.root, "NbrSegments"), (f.full, "MassCalibMode"),
      (f.timing, "TofPeriod")] → Missing d k ∨ ∃ i, Begins d k (.int i))
    (hq : ∀ k ∈ ["MassCalibration p1", "MassCalibration p2", "MassCalibration p3", "SampleInterval", "Single Ion Signal"],
      Missing f.full k ∨ ∃ q, IsNum f.full k q)
    (hv : ∀ l, ¬ Has f.root "TofDAQ Version" (.many l)) : ∃ r, build P f = .ok r := by
  have gi : ∀ d k, (Missing d k ∨ ∃ i, Begins d k (.int i)) → ∃ x, getInt P d k 0 = .ok x := by
    rintro d k (h | ⟨i, h⟩)
    · exact ⟨_, getInt_missing h⟩
    · exact ⟨_, getInt_begins h⟩
  have gf : ∀ k c, (Missing f.full k ∨ ∃ q, IsNum f.full k q) → ∃ x, getFloat P f.full k c = .ok x := by
    rintro k c (h | ⟨i, h⟩)
    · exact ⟨_, getFloat_missing h⟩
    · exact ⟨_, getFloat_num h⟩
  simp only [List.mem_cons, Prod.mk.injEq, List.not_mem_nil, or_false, forall_eq_or_imp, forall_eq] at hi hq
  obtain ⟨n, h1⟩ := gi f.root "NbrPeaks" (hi _ _ (by simp))
  obtain ⟨slices, hs⟩ := gi f.root "NbrWrites" (hi _ _ (by simp))
  obtain ⟨segments, hg⟩ := gi f.root "NbrSegments" (hi _ _ (by simp))
  obtain ⟨mode, h2⟩ := gi f.full "MassCalibMode" (hi _ _ (by simp))
  obtain ⟨period, h7⟩ := gi f.timing "TofPeriod" (hi _ _ (by simp))
  obtain ⟨p1, h3⟩ := gf "MassCalibration p1" 0 hq.1
  obtain ⟨p2, h4⟩ := gf "MassCalibration p2" 0 hq.2.1
  obtain ⟨interval, h5⟩ := gf "SampleInterval" 0 hq.2.2.2.1
  obtain ⟨ion, h6⟩ := gf "Single Ion Signal" 1 hq.2.2.2.2
  have h8 : ∃ third, thirdMeta P f = .ok third := by
    rcases hq.2.2.1 with h | ⟨q, h⟩
    · exact ⟨[], by rw [thirdMeta, item_missing h]⟩
    · have : ∃ a, item f.full "MassCalibration p3" = some a := by
        rcases h with (h | ⟨l, h⟩) | ⟨i, (h | ⟨l, h⟩), rfl⟩ <;> exact ⟨_, item_has h⟩
      obtain ⟨a, ha⟩ := this
      exact ⟨_, by rw [thirdMeta, ha]; simp only [needFloat_num h]; rfl⟩
  obtain ⟨third, h8⟩ := h8
  have hv' : ∃ v, version P f.root = .ok v := by
    rcases has_or f.root "TofDAQ Version" with h | ⟨a, h⟩
    · exact ⟨_, by rw [version, item_missing h]⟩
    · cases a with
      | one s => exact ⟨_, by rw [version, item_has h]; rfl⟩
      | many l => exact absurd h (hv l)
  obtain ⟨v, hv'⟩ := hv'
  exact ⟨_, by simp only [build, tofMeta, daqMeta, h1, h2, h3, h4, h5, h6, h7, h8, hv', hs, hg, bind, Except.bind, pure,
    Except.pure]; rfl⟩

/-- C168: each value is given once. -/
theorem C168_once {P : Lib} {f : File} {r : Dict} (h : build P f = .ok r) : (r.map Prod.fst).Nodup := by
  obtain ⟨_, mode, p1, p2, interval, ion, period, third, v, slices, segments, h1, h2, h3, h4, h5, h6, h7, h8, hv', hs,
    hg, rfl⟩ := build_ok h
  have hf : (fibMeta P f).map Prod.fst = [] ∨ (fibMeta P f).map Prod.fst =
      ["FIB.hardware", "FIB.voltage_kV", "FIB.current_A", "FIB.view_field_mm", "FIB.pixel_size_um"] := by
    unfold fibMeta
    cases e : fibPart P f with
    | error _ => exact .inl rfl
    | ok d =>
      refine .inr ?_
      unfold fibPart at e
      cases hf : f.fib with
      | none => rw [hf] at e; cases e
      | some d' =>
        rw [hf] at e
        obtain ⟨_, _, e⟩ := bind_ok e
        obtain ⟨_, _, e⟩ := bind_ok e
        obtain ⟨_, _, e⟩ := bind_ok e
        obtain ⟨_, _, e⟩ := bind_ok e
        cases e
        rfl
  have ht : third.map Prod.fst = [] ∨ third.map Prod.fst = ["ToF.mass_calib_p3"] := by
    unfold thirdMeta at h8
    split at h8
    · cases h8
      exact .inl rfl
    · obtain ⟨_, _, h8⟩ := bind_ok h8
      cases h8
      exact .inr rfl
  have hp : (pressureMeta f).map Prod.fst = [] ∨ (pressureMeta f).map Prod.fst = ["chamber_pressure_Pa"] := by
    unfold pressureMeta
    split
    · exact .inl rfl
    · exact .inr rfl
    · exact .inr rfl
  have hk : (peakMeta f).map Prod.fst = [] ∨ (peakMeta f).map Prod.fst = ["Signal.peak_table"] := by
    unfold peakMeta
    split
    · exact .inl rfl
    · exact .inr rfl
  simp only [List.map_append, List.map_cons, List.map_nil]
  rcases hf with hf | hf <;> rcases ht with ht | ht <;> rcases hp with hp | hp <;> rcases hk with hk | hk <;>
    rw [hf, ht, hp, hk] <;> decide +kernel

/-! ### Original metadata -/

/-- The names that the reader gives to more than attributes. -/
def reserved : List String := ["PeakTable", "FIBImages", "SaturationWarning", "MassAxis", "FullSpectra"]

private theorem put_mem (d : Dict) (k : String) (v : Val) : (k, v) ∈ put d k v := by
  unfold put
  split
  · rename_i h
    simp only [List.any_eq_true, decide_eq_true_eq] at h
    obtain ⟨e, he, hk⟩ := h
    exact List.mem_map.2 ⟨e, he, if_pos hk⟩
  · simp

private theorem put_other {d : Dict} {k k' : String} {v w : Val} (h : k' ≠ k) (hm : (k', w) ∈ d) :
    (k', w) ∈ put d k v := by
  unfold put
  split
  · exact List.mem_map.2 ⟨(k', w), hm, if_neg h⟩
  · exact List.mem_append_left _ hm

private theorem putSome_other {d : Dict} {k k' : String} {v : Option Val} {w : Val} (h : k' ≠ k) (hm : (k', w) ∈ d) :
    (k', w) ∈ putSome d k v := by
  cases v with
  | none => exact hm
  | some v => exact put_other h hm

/-- C168, original metadata: every attribute of the file is there under its name, bytes as texts and arrays as lists; and so are the
table of peaks, the names of the images, the axis of masses, shape and type of the warnings, and clock and interval of the spectra.

The full claim is this for all attributes. Missing: attributes with one of the five names that the reader uses itself,
`C168_fails_name`. -/
theorem C168_original_partial {P : Lib} {f : File} {r : Dict} (h : original P f = .ok r) :
    (∀ k a, (k, a) ∈ f.root → k ∉ reserved →
      (∀ i, a = .one (.int i) → (k, .int i) ∈ r) ∧ (∀ q, a = .one (.float q) → (k, .num q) ∈ r) ∧
      (∀ t, a = .one (.bytes t) ∨ a = .one (.text t) → (k, .text t) ∈ r) ∧
      (∀ l : List Int, a = .many (l.map .int) → (k, .list (l.map .int)) ∈ r) ∧
      (∀ l : List Rat, a = .many (l.map .float) → (k, .list (l.map .num)) ∈ r) ∧
      (∀ l : List Text, a = .many (l.map .bytes) ∨ a = .many (l.map .text) → (k, .list (l.map .text)) ∈ r)) ∧
    (∀ l, f.peaks = some l → ("PeakTable", .peaks l) ∈ r) ∧
    (∀ l, f.images = some l → ("FIBImages", .list (l.map .text)) ∈ r) ∧
    (∀ l, f.massAxis = some l → ("MassAxis", .list (l.map .num)) ∈ r) ∧
    (∀ l t, f.shape = some (l, t) → ("SaturationWarning", .list [.text "shape".toList,
      .list (l.map fun n : Nat => .int n), .text "dtype".toList, .text t]) ∈ r) ∧
    (∀ c i, IsNum f.full "ClockPeriod" c → IsNum f.full "SampleInterval" i →
      ("FullSpectra", .list [.text "ClockPeriod".toList, .num c, .text "SampleInterval".toList, .num i]) ∈ r) := by
  obtain ⟨clock, hc, h⟩ := bind_ok h
  obtain ⟨interval, hi, h⟩ := bind_ok h
  cases h
  refine ⟨?_, ?_, ?_, ?_, ?_, ?_⟩
  · intro k a hm hk
    simp only [reserved, List.mem_cons, List.not_mem_nil, or_false, not_or] at hk
    obtain ⟨k1, k2, k3, k4, k5⟩ := hk
    have key : (k, decodeAttr a) ∈ f.root.map fun e => (e.1, decodeAttr e.2) := List.mem_map.2 ⟨(k, a), hm, rfl⟩
    have key := putSome_other (v := spectra clock interval) k5 (putSome_other
      (v := f.massAxis.map fun l => .list (l.map .num)) k4 (putSome_other (v := f.shape.map fun s =>
        .list [.text "shape".toList, .list (s.1.map fun n : Nat => .int n), .text "dtype".toList, .text s.2]) k3
        (putSome_other (v := f.images.map fun l => .list (l.map .text)) k2
          (putSome_other (v := f.peaks.map .peaks) k1 key))))
    refine ⟨?_, ?_, ?_, ?_, ?_, ?_⟩
    · rintro i rfl
      exact key
    · rintro i rfl
      exact key
    · rintro i (rfl | rfl) <;> exact key
    · rintro l rfl
      simpa [decodeAttr, plain, Function.comp_def] using key
    · rintro l rfl
      simpa [decodeAttr, plain, Function.comp_def] using key
    · rintro l (rfl | rfl) <;> simpa [decodeAttr, plain, Function.comp_def] using key
  · intro l hl
    refine putSome_other (by decide) (putSome_other (by decide) (putSome_other (by decide) (putSome_other (by decide) ?_)))
    rw [hl]
    exact put_mem _ _ _
  · intro l hl
    refine putSome_other (by decide) (putSome_other (by decide) (putSome_other (by decide) ?_))
    rw [hl]
    exact put_mem _ _ _
  · intro l hl
    refine putSome_other (by decide) ?_
    rw [hl]
    exact put_mem _ _ _
  · intro l t hl
    refine putSome_other (by decide) (putSome_other (by decide) ?_)
    rw [hl]
    exact put_mem _ _ _
  · intro c i hc' hi'
    have gt : ∀ k q x, IsNum f.full k q → timing P f k = .ok x → x = some q := by
      intro k q x hq hx
      have : ∃ a, item f.full k = some a := by
        rcases hq with (h | ⟨l, h⟩) | ⟨i, (h | ⟨l, h⟩), rfl⟩ <;> exact ⟨_, item_has h⟩
      obtain ⟨a, ha⟩ := this
      rw [timing, ha] at hx
      simp only [needFloat_num hq] at hx
      cases hx
      rfl
    rw [gt _ _ _ hc' hc, gt _ _ _ hi' hi]
    exact put_mem _ _ _

/-! ### Examples and failures -/

def lib : Lib := ⟨fun _ => none, fun _ => none, fun _ => [], fun _ => "[b'positive']".toList⟩

/-- A file with everything. -/
def sample : File where
  root := [("NbrSegments", .many [.int 4]), ("NbrWrites", .one (.int 7)), ("IonMode", .one (.bytes "positive".toList))]
  full := [("MassCalibration p1", .many [.float 3])]
  timing := []
  fib := some [("Voltage", .one (.float 30000)), ("Current", .one (.float 2)), ("ViewField", .one (.float (1 / 50)))]
  pressure := some [1, 3]
  peaks := some [⟨"nominal".toList, 1, 0, 2⟩]
  hasPeaks := true
  range := (1, 1)
  images := none
  shape := none
  massAxis := none

example : IsNum [("Voltage", .one (.float 30000)), ("Current", .one (.float 2)), ("ViewField", .one (.float (1 / 50)))]
    "Voltage" 30000 ∧ Begins sample.root "NbrSegments" (.int 4) ∧ (∃ r, build lib sample = .ok r) ∧
    (∃ r, original lib sample = .ok r) :=
  ⟨.inl (.inl ⟨[], _, rfl, by simp⟩), .inr ⟨[], [], _, rfl, by simp⟩, ⟨_, rfl⟩, ⟨_, rfl⟩⟩

/-- Without the current of the beam, voltage, field of view and hardware are lost as well. -/
theorem C168_fails_beam (P : Lib) (f : File) (d : Attrs) (hd : f.fib = some d) (hc : Missing d "Current") {r : Dict}
    (h : build P f = .ok r) : ∀ v, ("FIB.voltage_kV", v) ∉ r := by
  obtain ⟨_, mode, p1, p2, interval, ion, period, third, v, slices, segments, h1, h2, h3, h4, h5, h6, h7, h8, hv', hs,
    hg, rfl⟩ := build_ok h
  intro x hx
  have hf : fibMeta P f = [] := by
    have hc' : needFloat P d "Current" = .error .keyError := by rw [needFloat, item_missing hc]
    unfold fibMeta fibPart
    rw [hd]
    cases e1 : getInt P f.root "NbrSegments" 1 <;> simp only [bind, Except.bind]
    cases e2 : needFloat P d "Voltage" <;> simp only [hc']
  have ht : ("FIB.voltage_kV", x) ∉ third := by
    intro ht
    unfold thirdMeta at h8
    split at h8
    · cases h8
      simp at ht
    · obtain ⟨_, _, h8⟩ := bind_ok h8
      cases h8
      simp at ht
  have hp : ("FIB.voltage_kV", x) ∉ pressureMeta f := by
    intro hv
    unfold pressureMeta at hv
    split at hv <;> simp at hv
  have hk : ("FIB.voltage_kV", x) ∉ peakMeta f := by
    intro hv
    unfold peakMeta at hv
    split at hv <;> simp at hv
  simp [hf, ht, hp, hk] at hx

/-- A version stored as bytes is given with the marks of bytes, other than the other texts. -/
theorem C168_fails_version (P : Lib) (f : File) (t : Text) (hb : Has f.root "TofDAQ Version" (.one (.bytes t))) {r : Dict}
    (h : build P f = .ok r) : ("DAQ.tofdaq_version", .text ("b'".toList ++ t ++ "'".toList)) ∈ r := by
  obtain ⟨_, mode, p1, p2, interval, ion, period, third, v, slices, segments, h1, h2, h3, h4, h5, h6, h7, h8, hv', hs,
    hg, rfl⟩ := build_ok h
  rw [version, item_has hb] at hv'
  cases hv'
  simp [str]

/-- A text stored as an array of one text is given as the array is shown. -/
theorem C168_fails_array (P : Lib) (f : File) (l : List Scalar) (hb : Has f.root "IonMode" (.many l)) {r : Dict}
    (h : build P f = .ok r) : ("ToF.ion_mode", .text (P.showMany l)) ∈ r := by
  obtain ⟨_, mode, p1, p2, interval, ion, period, third, v, slices, segments, h1, h2, h3, h4, h5, h6, h7, h8, hv', hs,
    hg, rfl⟩ := build_ok h
  have : getText P f.root "IonMode" = P.showMany l := by rw [getText, item_has hb]; rfl
  simp [this]

/-- Without the number of segments the metadata say that there are none, while the pixels are those of one segment. -/
theorem C168_fails_segments : ∃ f r, build lib f = .ok r ∧ ("n_segments", .int 0) ∈ r ∧
    ("FIB.pixel_size_um", .num 20) ∈ r := by
  refine ⟨{ sample with root := [] }, _, rfl, by simp, ?_⟩
  have : fibMeta lib { sample with root := [] } = [("FIB.hardware", .text []), ("FIB.voltage_kV", .num (30000 / 1000)),
    ("FIB.current_A", .num 2), ("FIB.view_field_mm", .num (1 / 50)), ("FIB.pixel_size_um", .num (1 / 50 * 1000 / 1))] := rfl
  rw [this]
  simp
  norm_num

/-- An attribute of the file named as the axis of masses is replaced. -/
theorem C168_fails_name : ∃ f r, ("MassAxis", .one (.text "linear".toList)) ∈ f.root ∧ original lib f = .ok r ∧
    ∀ t, ("MassAxis", .text t) ∉ r := by
  refine ⟨{ sample with root := [("MassAxis", .one (.text "linear".toList))], massAxis := some [1, 2] }, _, by simp, rfl, ?_⟩
  intro t ht
  simp [put, putSome, sample, decodeAttr, plain, spectra] at ht

end Verif.Props.TofwerkMeta
