import Verif.Props.DMSignal
/-! Images of Digital Micrograph files: C134 (derived metadata), examples and counterexamples. -/
namespace Verif.Props.DMSignal
open Verif Verif.DMSignal

/-! ### C134: derived metadata -/

theorem contains_iff (x : Text) : ∀ m : Text, contains x m = true ↔ ∃ a b, m = a ++ x ++ b
  | [] => by
    constructor
    · intro h
      have : x = [] := by simpa [contains] using h
      exact ⟨[], [], by simp [this]⟩
    · rintro ⟨a, b, e⟩
      have : x = [] := by
        have := e.symm
        simp only [List.append_eq_nil_iff] at this
        exact this.1.2
      simp [contains, this]
  | c :: t => by
    unfold contains
    rw [Bool.or_eq_true, contains_iff x t, List.isPrefixOf_iff_prefix]
    constructor
    · rintro (⟨b, e⟩ | ⟨a, b, e⟩)
      · exact ⟨[], b, e.symm⟩
      · exact ⟨c :: a, b, by rw [e]; rfl⟩
    · rintro ⟨a, b, e⟩
      cases a with
      | nil => exact Or.inl ⟨b, e.symm⟩
      | cons d a =>
        simp only [List.cons_append, List.cons.injEq] at e
        exact Or.inr ⟨a, b, e.2⟩

/-- C134: the mode is `STEM` for an illumination mode that mentions it, else `SEM` for one that mentions that, and
otherwise `TEM`. -/
theorem C134_mode (m : Text) :
    ((∃ a b, m = a ++ "STEM".toList ++ b) → mode m = "STEM".toList) ∧
    ((¬ ∃ a b, m = a ++ "STEM".toList ++ b) → (∃ a b, m = a ++ "SEM".toList ++ b) → mode m = "SEM".toList) ∧
    ((¬ ∃ a b, m = a ++ "STEM".toList ++ b) → (¬ ∃ a b, m = a ++ "SEM".toList ++ b) → mode m = "TEM".toList) := by
  refine ⟨fun h => ?_, fun h1 h2 => ?_, fun h1 h2 => ?_⟩ <;> unfold mode
  · rw [if_pos ((contains_iff _ m).2 h)]
  · rw [if_neg (fun e => h1 ((contains_iff _ m).1 e)), if_pos ((contains_iff _ m).2 h2)]
  · rw [if_neg (fun e => h1 ((contains_iff _ m).1 e)), if_neg (fun e => h2 ((contains_iff _ m).1 e))]

/-- C134: the quantity names what was counted, and the units in brackets; electrons have the units `Counts`. -/
theorem C134_quantity (im : Im) (u : Text) :
    (IsXray im → quantity im "e-".toList = "X-rays (Counts)".toList) ∧
    (¬ IsXray im → quantity im "e-".toList = "Electrons (Counts)".toList) ∧
    (IsXray im → quantity im [] = "X-rays".toList) ∧
    (¬ IsXray im → quantity im [] = "Intensity".toList) ∧
    (u ≠ [] → u ≠ "e-".toList → IsXray im → quantity im u = "X-rays (".toList ++ u ++ ")".toList) ∧
    (u ≠ [] → u ≠ "e-".toList → ¬ IsXray im → quantity im u = "Intensity (".toList ++ u ++ ")".toList) := by
  have hx : ¬ IsXray im → signalType im ≠ "EDS_TEM".toList := by
    intro hx
    by_cases hc : IsCL im
    · rw [signalType_cl hc]; decide
    · by_cases he : IsEels im
      · rw [signalType_eels he]; decide
      · rw [signalType_other hx hc he]; decide
  have en : ("e-".toList : Text) ≠ [] := by decide
  refine ⟨fun h => ?_, fun h => ?_, fun h => ?_, fun h => ?_, fun h1 h2 h => ?_, fun h1 h2 h => ?_⟩ <;>
    unfold quantity <;> dsimp only
  · rw [if_pos rfl, if_pos (signalType_xray h), if_neg (by decide)]; rfl
  · rw [if_pos rfl, if_neg (hx h), if_pos rfl, if_neg (by decide)]; rfl
  · rw [if_neg (Ne.symm en), if_pos (signalType_xray h), if_pos rfl]
  · rw [if_neg (Ne.symm en), if_neg (hx h), if_neg (Ne.symm en), if_pos rfl]
  · rw [if_neg h2, if_pos (signalType_xray h), if_neg h1]; rfl
  · rw [if_neg h2, if_neg (hx h), if_neg h2, if_neg h1]; rfl

/-- C134: the exposure is the integration time, or else the exposure of a frame times the number of frames (one when it
is not given), or else unknown. -/
theorem C134_exposure (t e n : Rat) (x : Option Rat) (y : Option Rat) :
    exposureTime (some t) x y = some t ∧ exposureTime none (some e) (some n) = some (e * n) ∧
    exposureTime none (some e) none = some e ∧ exposureTime none none y = none := by
  refine ⟨by cases x <;> rfl, rfl, ?_, rfl⟩
  show some (e * 1) = some e
  rw [mul_one]

/-- C134: the name of the microscope is the first of the entries that is filled. -/
theorem C134_microscope {pre : List (Option Text)} {m : Text} (rest : List (Option Text))
    (hp : ∀ o ∈ pre, o = none ∨ o = some [] ∨ o = some "[]".toList) (h1 : m ≠ []) (h2 : m ≠ "[]".toList) :
    microscopeName (pre ++ some m :: rest) = some m ∧ microscopeName pre = none := by
  induction pre with
  | nil =>
    refine ⟨?_, rfl⟩
    show (if m ≠ [] ∧ m ≠ "[]".toList then some m else _) = _
    rw [if_pos ⟨h1, h2⟩]
  | cons o pre ih =>
    have ih' := ih fun x hx => hp x (List.mem_cons_of_mem _ hx)
    rcases hp o List.mem_cons_self with e | e | e <;> subst e
    · exact ih'
    · constructor
      · show (if ([] : Text) ≠ [] ∧ _ then _ else microscopeName (pre ++ some m :: rest)) = _
        rw [if_neg (by simp)]; exact ih'.1
      · show (if ([] : Text) ≠ [] ∧ _ then _ else microscopeName pre) = _
        rw [if_neg (by simp)]; exact ih'.2
    · constructor
      · show (if "[]".toList ≠ ([] : Text) ∧ "[]".toList ≠ "[]".toList then _
          else microscopeName (pre ++ some m :: rest)) = _
        rw [if_neg (fun h => h.2 rfl)]; exact ih'.1
      · show (if "[]".toList ≠ ([] : Text) ∧ "[]".toList ≠ "[]".toList then _ else microscopeName pre) = _
        rw [if_neg (fun h => h.2 rfl)]; exact ih'.2

/-! ### Examples -/

/-- An energy-loss spectrum image of 2 × 1 positions and 2 channels; the energy is the last dimension. -/
def si : Im where
  name := "SI".toList
  dims := [2, 1, 2]
  cals := [⟨3, 2, "nm".toList⟩, ⟨0, 2, "nm".toList⟩, ⟨10, 1 / 2, "eV".toList⟩]
  dataType := 10
  count := 4
  offset := 1
  big := false
  format := some "Spectrum image".toList
  signal := some "EELS".toList
  spim := false
  spimEels := false
  monarc := false

example : axes si = .ok
    [⟨some "Energy loss".toList, 2, 0, 1 / 2, -5, "eV".toList, true⟩,
     ⟨some "y".toList, 1, 1, 2, 0, "nm".toList, false⟩,
     ⟨some "x".toList, 2, 2, 2, -6, "nm".toList, false⟩] := by decide +kernel

example : IsEels si ∧ LastWith si "eV".toList 2 ∧ si.cals.length ≤ si.dims.length ∧ toSpectrum si = true := by
  refine ⟨by decide, ⟨by decide, ⟨_, rfl, rfl⟩, fun j c hj hc => ?_⟩, by decide, by decide +kernel⟩
  have := (List.getElem?_eq_some_iff.1 hc).1
  simp [si] at this
  omega

/-- The pixels of the spectrum image. -/
def siVal : List Nat → Nat
  | [x, _, e] => 258 + x + 2 * e
  | _ => 0

def siFile : List UInt8 := [9, 2, 1, 3, 1, 4, 1, 5, 1]

theorem si_holds : Holds si 2 siFile siVal := by
  refine ⟨by decide, fun c hc => ?_⟩
  unfold InBounds si at hc
  simp only at hc
  cases hc with
  | cons h1 t =>
    cases t with
    | cons h2 t =>
      cases t with
      | cons h3 t =>
        cases t
        rename_i x y e
        match x, y, e, h1, h2, h3 with
        | 0, 0, 0, _, _, _ => exact ⟨by decide, by decide⟩
        | 0, 0, 1, _, _, _ => exact ⟨by decide, by decide⟩
        | 1, 0, 0, _, _, _ => exact ⟨by decide, by decide⟩
        | 1, 0, 1, _, _, _ => exact ⟨by decide, by decide⟩

/-- The premises of `C133_file` are met: a thumbnail and a spectrum image. -/
example : Readable siFile si siVal :=
  ⟨by decide, by decide, by decide, 2, by decide, Or.inl rfl, si_holds⟩

example : ∃ sh at_, getData si false siFile = .ok (.array sh at_) ∧ at_ [1, 0, 0] = some 260 :=
  ⟨_, _, rfl, by decide⟩

/-- A colour image: blue 1, green 2, red 3, alpha 4. -/
def colour : Im := { si with dims := [1], cals := [], dataType := 23, count := 1, offset := 0 }

example : ∃ sh at_, getData colour false [1, 2, 3, 4] = .ok (.array sh at_) ∧
    at_ [0] = some (3 + 256 * 2 + 65536 * 1 + 16777216 * 4) := ⟨_, _, rfl, by decide⟩

/-! ### Counterexamples -/

/-- The energy axis of an X-ray spectrum image is called `x`: `signal_type` gives `EDS_TEM`, but `names` looks for `EDS`
or `EDX`, so the name `Energy` is never given. -/
theorem C132_fails_xray_energy : ∃ im : Im, IsXray im ∧ LastWith im "keV".toList 0 ∧
    im.cals.length ≤ im.dims.length ∧ ∃ axs a, axes im = .ok axs ∧ axs[im.dims.length - 1]? = some a ∧
      a.units = "keV".toList ∧ a.name = some "x".toList := by
  refine ⟨{ si with dims := [2], cals := [⟨0, 1, "keV".toList⟩], signal := some "X-ray".toList }, by decide,
    ⟨by decide, ⟨_, rfl, rfl⟩, fun j c hj hc => ?_⟩, by decide,
    [⟨some "x".toList, 2, 0, 1, 0, "keV".toList, false⟩], _, by decide +kernel, rfl, rfl, rfl⟩
  have := (List.getElem?_eq_some_iff.1 hc).1
  simp at this
  omega

/-- In an image with more calibrations than dimensions the axes get the calibrations of the wrong dimensions: the list is
reversed before it is matched with the axes. -/
theorem C132_fails_more_calibrations : ∃ im : Im, im.dims = [2] ∧
    im.cals = [⟨0, 1, "nm".toList⟩, ⟨0, 5, "s".toList⟩] ∧ ∃ axs a, axes im = .ok axs ∧ axs = [a] ∧
      a.scale = 5 ∧ a.units = "s".toList :=
  ⟨{ si with
      dims := [2]
      cals := [⟨0, 1, "nm".toList⟩, ⟨0, 5, "s".toList⟩]
      signal := none
      format := none }, rfl, rfl,
    [⟨some "x".toList, 2, 0, 5, 0, "s".toList, false⟩], _, by decide +kernel, rfl, rfl, rfl⟩

/-- The pixels of a big-endian file are read with their bytes reversed: the byte order found by the tag parser
(`Data.endian`) is not used for the data. -/
theorem C133_fails_big_endian : ∃ (im : Im) (file : List UInt8) (val : List Nat → Nat),
    im.big = true ∧ Holds im 2 file val ∧ im.count = size im.dims ∧ (im.dataType, 2) ∈ pixelTypes ∧
    ∃ sh at_, getData im false file = .ok (.array sh at_) ∧ at_ [0] = some 256 ∧ val [0] = 1 := by
  refine ⟨{ si with dims := [1], cals := [], dataType := 10, count := 1, offset := 0, big := true }, [0, 1],
    fun _ => 1, rfl, ⟨by decide, fun c hc => ?_⟩, by decide, by decide, _, _, rfl, by decide, rfl⟩
  unfold InBounds at hc
  simp only at hc
  cases hc with
  | cons h1 t =>
    cases t
    rename_i x
    match x, h1 with
    | 0, _ => exact ⟨by decide, by decide⟩

end Verif.Props.DMSignal
