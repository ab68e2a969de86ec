import Verif.Props.UsidMeta
import Mathlib.Data.Rat.Cast.Order
/-! USID files: cases that meet the hypotheses of C116 and C117, and what does not hold. -/
namespace Verif.Props.Usid
open Verif Verif.Usid

/-- An environment: exact slopes, tables in the opposite order. -/
def exEnv : Env where
  slope vals := if ∀ i < vals.length, vals.getD i 0 = vals.getD 0 0 + i * (vals.getD 1 0 - vals.getD 0 0) then
    .ok (vals.getD 1 0 - vals.getD 0 0) else .error .valueError
  arrange l := l.reverse
  stamp := [("machine_id".toList, .str "pc".toList)]

theorem exSlope : SlopeOk exEnv := by
  refine ⟨fun vals step hl ⟨start, h⟩ => ?_, fun vals e h _ => ?_⟩
  · have hget : ∀ i < vals.length, vals.getD i 0 = start + i * step := by
      intro i hi
      apply h i
      rw [List.getD_eq_getElem?_getD, List.getElem?_eq_getElem hi]
      rfl
    have h0 := hget 0 (by omega)
    have h1 := hget 1 (by omega)
    simp only [Nat.cast_zero, zero_mul, add_zero, Nat.cast_one, one_mul] at h0 h1
    have hs : vals.getD 1 0 - vals.getD 0 0 = step := by rw [h0, h1]; ring
    unfold exEnv
    dsimp only
    rw [hs, if_pos]
    intro i hi
    rw [hget i hi, h0]
  · unfold exEnv at h
    dsimp only at h
    split at h
    · cases h
    · injection h with h; exact h.symm

theorem exArrange : ∀ l, (exEnv.arrange l).Perm l := fun l => List.reverse_perm l

/-- Two positions and three energies; the second position is at another distance. -/
def exPos : List Dim := [⟨['x'], "um".toList, [0, 2, 5]⟩, ⟨['t'], ['s'], [7]⟩]
def exSpec : List Dim := [⟨['V'], ['V'], [1, 3]⟩]

/-- A main dataset with them. -/
def exMain : Main where
  path := "/Measurement_000/Channel_000/Raw".toList
  parent := [("a".toList, .num 1)]
  above := [("b".toList, .num 2)]
  pos := ⟨[['t'], ['x']], [['s'], "um".toList], [(['t'], [7]), (['x'], [0, 2, 5])]⟩
  spec := ⟨[['V']], [['V']], [(['V'], [1, 3])]⟩
  reshaped := true
  labels := [['x'], ['t'], ['V']]
  shape := [3, 1, 2]
  data := .plain [1, 2, 3, 4, 5, 6]
  descriptor := "Current (nA)".toList

def exFile : File := ⟨"a.h5".toList, [exMain], ["/Measurement_000".toList]⟩

theorem exValues {t : Dims} {dims : List Dim} (h1 : ∀ d ∈ dims, (d.name, d.values) ∈ t.values) (h2 : (t.values.map Prod.fst).Nodup) :
    ∀ d ∈ dims, (d.name, d.values) ∈ t.values ∧ ∀ v, (d.name, v) ∈ t.values → v = d.values := by
  refine fun d hd => ⟨h1 d hd, fun v hv => ?_⟩
  have := List.inj_on_of_nodup_map h2 hv (h1 d hd) rfl
  injection this

theorem exLegible : Legible exMain exPos exSpec where
  posTable := ⟨⟨exPos.reverse, List.reverse_perm _, rfl, rfl⟩, by decide +kernel, exValues (by decide +kernel) (by decide +kernel)⟩
  specTable := ⟨⟨exSpec, List.Perm.refl _, rfl, rfl⟩, by decide +kernel, exValues (by decide +kernel) (by decide +kernel)⟩
  labels := rfl
  shape := rfl
  filled := by decide +kernel
  reshaped := rfl

/-- The hypotheses of C116 can be met. -/
example : ∃ ls : List (List Sig), fileReader exEnv true none exFile = .ok ls.flatten :=
  (C116_file_partial exSlope (f := exFile) (dims := [(exPos, exSpec)]) (.cons exLegible .nil) (.inl rfl)).imp fun _ h => h.1

example : ∃ l, fileReader exEnv true (some exMain.path) exFile = .ok l :=
  (C116_path exSlope (f := exFile) (List.mem_cons_self ..) (by simp [exFile]) exLegible (.inl rfl)).imp fun _ h => h.1

example : fileReader exEnv false (some exMain.path) exFile = .error .valueError :=
  C116_rejects_uneven exSlope (f := exFile) (List.mem_cons_self ..) (by simp [exFile]) exLegible
    ⟨⟨['x'], "um".toList, [0, 2, 5]⟩, by simp [exPos], by simp, .valueError, by decide +kernel⟩

example : fileReader exEnv true (some "/Measurement_000".toList) exFile = .error .typeError :=
  C116_rejects_path (by decide +kernel)

example : Descriptor " Current (nA) ".toList "Current".toList "nA".toList :=
  .round (q' := "Current ".toList) ⟨⟨[], [' '], by decide +kernel⟩, by decide +kernel, by decide +kernel⟩
    ⟨by decide +kernel, by decide +kernel, by decide +kernel, by decide +kernel⟩
    ⟨⟨[' '], [' '], by decide +kernel⟩, by decide +kernel, by decide +kernel⟩

/-- The parameters of the dataset, which is in a channel. -/
example : ∃ l, fileReader exEnv true (some exMain.path) exFile = .ok l ∧ ∀ s ∈ l, s.parameters = [("a".toList, .num 1)] := by
  obtain ⟨l, h, -⟩ := C116_path exSlope (f := exFile) (ignore := true) (List.mem_cons_self ..) (by simp [exFile]) exLegible (.inl rfl)
  refine ⟨l, h, fun s hs => ?_⟩
  exact (C116_parameters (f := exFile) (a := "/Measurement_000".toList) (g := "Channel_000".toList) (last := "Raw".toList) (List.mem_cons_self ..)
    (by simp [exFile]) (.inr (by decide +kernel)) (by decide +kernel) (by decide +kernel) (by decide +kernel) h s hs).1 ⟨[], "_000".toList, by decide +kernel⟩

example (l : List Sig) : fileReader exEnv true (some exMain.path) ⟨"a.h5".toList, [{ exMain with reshaped := false }], []⟩ ≠ .ok l :=
  C116_rejects_shape (m := { exMain with reshaped := false }) (List.mem_cons_self ..) (by simp) rfl l

/-- What is read from the file. -/
def exSig : Sig := ⟨[3, 2], [1, 2, 3, 4, 5, 6], [⟨3, ['x'], "um".toList, 1, 0⟩, ⟨2, ['V'], ['V'], 2, 1⟩], [], "a.h5".toList, "Raw".toList,
  "Current".toList, "nA".toList, exMain.path, [("a".toList, .num 1)]⟩

theorem exRead : fileReader exEnv true none exFile = .ok [exSig] := by decide +kernel

/-- **Fails (C116).** The documentation says of `ignore_non_uniform_dims=True` that dimensions that are not uniform "will result in
Exceptions": they are read with scale 1 and offset 0, and it is `False` that makes them errors. -/
theorem C116_fails_documented : (∃ l, fileReader exEnv true none exFile = .ok l) ∧ fileReader exEnv false none exFile = .error .valueError :=
  ⟨⟨_, exRead⟩, by decide +kernel⟩

/-- **Fails (C116).** The attributes of the measurement, where the parameters of the experiment are, never reach the signals: the code
looks twice at the group of the dataset. -/
theorem C116_fails_measurement (env : Env) (ignore : Bool) (f : File) (m : Main) (a : Attrs) :
    mainToSignals env ignore f { m with above := a } = mainToSignals env ignore f m := rfl

/-- **Fails (C116).** Two dimensions with the same label: the data has more dimensions than there are different axes, and one axis is
used twice. -/
theorem C116_fails_labels : ∃ m : Main, ∃ s, mainToSignals exEnv true exFile m = .ok [s] ∧ s.shape = [2, 3] ∧ s.axes.map (·.size) = [2, 2] :=
  ⟨{ exMain with
      pos := ⟨[['x'], ['x']], [['m'], ['m']], [(['x'], [0, 1]), (['x'], [0, 1, 2])]⟩
      spec := ⟨[['V']], [['V']], [(['V'], [1])]⟩
      labels := [['x'], ['x'], ['V']]
      shape := [2, 3, 1] }, ⟨[2, 3], [1, 2, 3, 4, 5, 6], [⟨2, ['x'], ['m'], 1, 0⟩, ⟨2, ['x'], ['m'], 1, 0⟩], [], "a.h5".toList, "Raw".toList,
  "Current".toList, "nA".toList, exMain.path, [("a".toList, .num 1)]⟩, by decide +kernel, rfl, rfl⟩

/-- **Fails (C116).** A quantity with round brackets before its units in square brackets: part of the quantity becomes units. -/
theorem C116_fails_descriptor : splitDescriptor "Current (tip) [nA]".toList = ("Current".toList, "tip nA".toList) := by decide +kernel

/-! ### Writing -/

def exNav : List (WAxis × Nat) := [(⟨some " y ".toList, some "nm".toList, 2, 1, true⟩, 2)]
def exAxes : List (WAxis × Nat) := [(⟨none, none, 3, 0, false⟩, 3)]

/-- A signal to write. -/
def exW : WSig where
  shape := [2, 3]
  data := [1, 2, 3, 4, 5, 6]
  axes := [⟨some " y ".toList, some "nm".toList, 2, 1, true⟩, ⟨none, none, 3, 0, false⟩]
  metadata := [("General".toList, .node [("title".toList, .leaf (.str ['t']))]), ("n".toList, .leaf (.num 1))]
  original := [("a".toList, .node [("b".toList, .node [("c".toList, .leaf (.num 2))])])]

theorem exWritable : Writable exW exNav exAxes := ⟨rfl, rfl, by simp [exNav], by simp [exAxes], by simp [exNav, exAxes]⟩

theorem exNamed : Named "Pos".toList exNav [['y']] :=
  ⟨.inl ⟨_, rfl, by simp, ⟨[' '], [' '], by decide +kernel⟩, by decide +kernel, by decide +kernel⟩, trivial⟩

theorem exNamed' : Named "Spec".toList exAxes ["Spec_Dim_0".toList] := ⟨.inr ⟨.inl rfl, by decide +kernel⟩, trivial⟩

/-- The hypotheses of C117 can be met, with a file that exists. -/
example : ∃ g r, fileWriter exEnv "a.h5".toList (some exFile) exW = .ok g ∧ fileReader exEnv true none g = .ok ([exSig] ++ [r]) := by
  obtain ⟨g, r, h1, h2, _⟩ := C117_roundtrip_partial (ignore := true) (name := "a.h5".toList) (old := some exFile) (before := [exSig]) exSlope exArrange exWritable exNamed exNamed'
    (by simp) (by simp) ⟨rfl, exRead⟩
  exact ⟨g, r, h1, h2⟩

example : ∃ g m, fileWriter exEnv "a.h5".toList none exW = .ok g ∧ g.mains.getLast? = some m ∧
    getKw "Original-a-b-c".toList m.above = some (.num 2) := by
  obtain ⟨g, m, h1, h2, _, h4, _⟩ := C117_attributes (env := exEnv) (name := "a.h5".toList) (old := none) exWritable
    (.mk (by decide +kernel) (by decide +kernel) (by
      intro k e h
      simp [exW] at h
      rw [h.2]
      exact .mk (by decide +kernel) (by decide +kernel) (by simp)))
    (.mk (by decide +kernel) (by decide +kernel) (by
      intro k e h
      simp [exW] at h
      rw [h.2]
      refine .mk (by decide +kernel) (by decide +kernel) (by
        intro k e h
        simp at h
        rw [h.2]
        exact .mk (by decide +kernel) (by decide +kernel) (by simp))))
    (by decide +kernel)
  refine ⟨g, m, h1, h2, ?_⟩
  have := h4 ["a".toList, "b".toList, "c".toList] (.num 2)
    (.node (List.mem_cons_self ..) (.node (List.mem_cons_self ..) (.leaf (List.mem_cons_self ..))))
  exact this

/-- Writing to a new file and reading it. -/
def through (s : WSig) : Py (List Sig) := do fileReader exEnv true none (← fileWriter exEnv "a.h5".toList none s)

/-- **Fails (C117).** Which axes are navigation axes does not come back: two signals that differ only in this are read alike. -/
theorem C117_fails_navigate : ∃ s t : WSig, s.shape = t.shape ∧ s.axes.map (·.navigate) = [true, false] ∧ t.axes.map (·.navigate) = [false, false] ∧
    through s = through t ∧ ∃ r, through s = .ok [r] :=
  ⟨{ exW with axes := [⟨some ['y'], none, 2, 1, true⟩, ⟨some ['x'], none, 3, 0, false⟩] },
    { exW with axes := [⟨some ['y'], none, 2, 1, false⟩, ⟨some ['x'], none, 3, 0, false⟩] }, rfl, rfl, rfl, by decide +kernel,
    ⟨[2, 3], [1, 2, 3, 4, 5, 6], [⟨2, ['y'], "a. u.".toList, 2, 1⟩, ⟨3, ['x'], "a. u.".toList, 3, 0⟩], [], "a.h5".toList, "Raw_Data".toList,
      "Unknown Quantity".toList, "Unknown Units".toList, "/Measurement_000/Channel_000/Raw_Data".toList, [("machine_id".toList, .str "pc".toList)]⟩,
    by decide +kernel⟩

/-- **Fails (C117).** The metadata do not come back, whatever they are. -/
theorem C117_fails_metadata : through exW = through { exW with metadata := [], original := [] } := by decide +kernel

/-- **Fails (C117).** An axis of one value is lost, with its position. -/
theorem C117_fails_single : ∃ s : WSig, s.shape = [1, 2] ∧ ∃ r, through s = .ok [r] ∧ r.shape = [2] ∧ r.axes.map (·.name) = [['x']] :=
  ⟨{ exW with shape := [1, 2], data := [1, 2], axes := [⟨some ['z'], none, 2, 5, true⟩, ⟨some ['x'], none, 3, 0, false⟩] }, rfl,
    ⟨[2], [1, 2], [⟨2, ['x'], "a. u.".toList, 3, 0⟩], [], "a.h5".toList, "Raw_Data".toList,
      "Unknown Quantity".toList, "Unknown Units".toList, "/Measurement_000/Channel_000/Raw_Data".toList, [("machine_id".toList, .str "pc".toList)]⟩,
    by decide +kernel, rfl, rfl⟩

/-- **Fails (C117).** If a signal axis comes before a navigation axis, the axes are exchanged: names, scales and offsets of the wrong
dimension. -/
theorem C117_fails_order : ∃ s : WSig, s.shape = [2, 3] ∧ s.axes.map (·.name) = [some ['E'], some ['x']] ∧
    ∃ r, through s = .ok [r] ∧ r.shape = [2, 3] ∧ r.axes.map (·.name) = [['x'], ['E']] :=
  ⟨{ exW with axes := [⟨some ['E'], none, 2, 5, false⟩, ⟨some ['x'], none, 3, 0, true⟩] }, rfl, rfl,
    ⟨[2, 3], [1, 2, 3, 4, 5, 6], [⟨2, ['x'], "a. u.".toList, 3, 0⟩, ⟨3, ['E'], "a. u.".toList, 2, 5⟩], [], "a.h5".toList, "Raw_Data".toList,
      "Unknown Quantity".toList, "Unknown Units".toList, "/Measurement_000/Channel_000/Raw_Data".toList, [("machine_id".toList, .str "pc".toList)]⟩,
    by decide +kernel, rfl, rfl⟩

/-- **Fails (C117).** With dashes in keys two values of the metadata have the same attribute; the last one stays. -/
theorem C117_fails_keys : flattenDict [("a-b".toList, .leaf (.num 1)), ("a".toList, .node [("b".toList, .leaf (.num 2))])] [] =
    [("a-b".toList, .num 2)] := by
  simp only [flattenDict, flattenItems, flattenTree]
  decide +kernel

/-- **Fails (C117).** An axis without units is read with units. -/
theorem C117_fails_units : ∃ s : WSig, s.axes.map (·.units) = [none] ∧ ∃ r, through s = .ok [r] ∧ r.axes.map (·.units) = ["a. u.".toList] :=
  ⟨{ exW with shape := [2], data := [1, 2], axes := [⟨some ['x'], none, 3, 0, false⟩] }, rfl,
    ⟨[2], [1, 2], [⟨2, ['x'], "a. u.".toList, 3, 0⟩], [], "a.h5".toList, "Raw_Data".toList,
      "Unknown Quantity".toList, "Unknown Units".toList, "/Measurement_000/Channel_000/Raw_Data".toList, [("machine_id".toList, .str "pc".toList)]⟩,
    by decide +kernel, rfl⟩

end Verif.Props.Usid
