import Verif.Props.EmdNcemWrite
/-! Where C112 and C113 fail, and cases that meet their hypotheses. -/
namespace Verif.Props.EmdNcem
open Verif Verif.EmdNcem Verif.Spec.EmdNcem Verif.Lemmas.EmdNcem

/-- Exact arithmetic; pint knows nothing. -/
def exact : Env := ⟨(· + ·), fun a b => a - b, fun l => l.sum / l.length, fun _ => none, fun _ => [], fun _ => .error .keyError,
  Verif.Props.SignalChunks.exactRoot⟩

def noVelox : File → Py (List Sig) := fun _ => .error .ioError

def versionAttrs : Attrs := [("version_major".toList, .str "0".toList), ("version_minor".toList, .str "2".toList)]
def one : Attrs := [("emd_group_type".toList, .num 1)]

/-- A dataset of numbers. -/
def nums (attrs : Attrs) (shape : List Nat) (l : List ℚ) : Obj := .dset ⟨attrs, true, ⟨shape, l.map Val.num⟩, .auto⟩

/-- A dimension with two positions. -/
def dimOf (name units : String) (offset scale : ℚ) : Obj :=
  nums [("name".toList, .str name.toList), ("units".toList, .str units.toList)] [2] [offset, offset + scale]

/-! ### Reading -/

/-- Two pictures of three by two points, in groups of their own. -/
def two : File := ⟨"dir/two.emd".toList, versionAttrs, [
  ("user".toList, .group [("name".toList, .str "me".toList)]),
  ("p".toList, .group one), ("p/data".toList, nums [] [2, 3] [1, 2, 3, 4, 5, 6]),
  ("p/dim1".toList, dimOf "x" "[n_m]" 5 2), ("p/dim2".toList, dimOf "y" "[n_m]" 0 3),
  ("q".toList, .group one), ("q/data".toList, nums [] [2, 3] [7, 8, 9, 10, 11, 12]),
  ("q/dim1".toList, dimOf "x" "[n_m]" 5 2), ("q/dim2".toList, dimOf "y" "[n_m]" 0 3)]⟩

/-- What is read from it. -/
def twoSigs : List Sig := [
  ⟨⟨[3, 2], [1, 4, 2, 5, 3, 6].map Val.num⟩, [⟨0, some "y".toList, some "nm".toList, 3, 0, some 3, false⟩, ⟨1, some "x".toList, some "nm".toList, 2, 5, some 2, false⟩],
    "p".toList, "two.emd".toList, [], ⟨some "0.2".toList, [("user".toList, [("name".toList, .str "me".toList)])], none⟩⟩,
  ⟨⟨[3, 2], [7, 10, 8, 11, 9, 12].map Val.num⟩, [⟨0, some "y".toList, some "nm".toList, 3, 0, some 3, false⟩, ⟨1, some "x".toList, some "nm".toList, 2, 5, some 2, false⟩],
    "q".toList, "two.emd".toList, [], ⟨some "0.2".toList, [("user".toList, [("name".toList, .str "me".toList)])], none⟩⟩]

example : fileReader exact noVelox two .none (some false) = .ok twoSigs := by decide +kernel
example : fileReader exact noVelox two .none none = .ok twoSigs := by decide +kernel
example : fileReader exact noVelox two (.many ["q/data".toList]) none = .ok (twoSigs.drop 1) := by decide +kernel

/-- The records of this file. -/
def recA : Rec := ⟨"p".toList, "data".toList, [2, 3], fun idx => .num (flatIndex [2, 3] idx + 1), [⟨5, 2, some "x".toList, some "nm".toList⟩, ⟨0, 3, some "y".toList, some "nm".toList⟩]⟩
def recB : Rec := ⟨"q".toList, "data".toList, [2, 3], fun idx => .num (flatIndex [2, 3] idx + 7), [⟨5, 2, some "x".toList, some "nm".toList⟩, ⟨0, 3, some "y".toList, some "nm".toList⟩]⟩

theorem two_dim {p : Text} {name : String} {offset scale : ℚ} (h : getKw p two.entries = some (dimOf name "[n_m]" offset scale))
    (hs : offset + scale - offset = scale) (hm : ([scale].sum / ([scale].length : ℚ)) = scale) :
    HoldsDim exact two p ⟨offset, scale, some name.toList, some "nm".toList⟩ := by
  refine ⟨_, h, .inl ⟨rfl, 0, fun i => if i = 0 then offset else offset + scale, rfl, rfl, rfl, ?_, hm⟩, .inr ⟨_, rfl, .inl rfl⟩,
    some "[n_m]".toList, .inr ⟨_, rfl, .inl rfl⟩, .inr ⟨_, _, rfl, rfl, .inr ⟨["nm".toList], by simp, ?_, .inr ⟨rfl, rfl⟩⟩⟩⟩
  · intro i hi
    have : i = 0 := by omega
    subst this
    exact hs
  · exact Bracketed.cons (pre := []) (a := "n_m".toList) (t := []) (by decide) (by decide) (by decide) (by decide) (.none (by decide))

theorem two_path : Path "p".toList ∧ Path "q".toList :=
  ⟨path_part ⟨by decide, by decide, by decide⟩, path_part ⟨by decide, by decide, by decide⟩⟩

theorem two_zero : ¬ FromZero two "p".toList ∧ ¬ FromZero two "q".toList :=
  ⟨fun h => h (by decide +kernel), fun h => h (by decide +kernel)⟩

theorem two_holds : Holds exact two recA ∧ Holds exact two recB := by
  constructor
  · refine ⟨⟨two_path.1, ⟨by decide, by decide, by decide⟩, by decide, _, rfl, by decide +kernel⟩, rfl, ?_⟩
    intro j x hx
    refine ⟨fun h => absurd h two_zero.1, fun _ => ?_⟩
    match j, hx with
    | 0, hx => cases hx; exact two_dim rfl (by norm_num) (by norm_num)
    | 1, hx => cases hx; exact two_dim rfl (by norm_num) (by norm_num)
  · refine ⟨⟨two_path.2, ⟨by decide, by decide, by decide⟩, by decide, _, rfl, by decide +kernel⟩, rfl, ?_⟩
    intro j x hx
    refine ⟨fun h => absurd h two_zero.2, fun _ => ?_⟩
    match j, hx with
    | 0, hx => cases hx; exact two_dim rfl (by norm_num) (by norm_num)
    | 1, hx => cases hx; exact two_dim rfl (by norm_num) (by norm_num)

theorem two_plain : NotVelox exact two ∧ Berkeley two ∧ Complete two ∧ ¬ Prismatic two := by
  have : ¬ Prismatic two := fun h => h (by decide +kernel)
  exact ⟨.inl (by decide +kernel), .inl ⟨_, _, rfl, rfl⟩, fun h => absurd h this, this⟩

/-- The hypotheses of `C113_datasets` are met. -/
example : ∃ ss, fileReader exact noVelox two (.many ["q/data".toList, "p/data".toList]) none = .ok ss ∧
    List.Forall₂ (fun r s => Shows two r s ∧ ShowsMeta two r.group r.group s) [recB, recA] ss :=
  C113_datasets two_plain.1 two_plain.2.1 two_plain.2.2.1 (by
    intro r hr
    simp only [List.mem_cons, List.not_mem_nil, or_false] at hr
    rcases hr with rfl | rfl
    · exact two_holds.2
    · exact two_holds.1) (.inl rfl)

/-- The hypotheses of `C113_stacks_partial` are met, with a single dataset. -/
example : ∃ ss, fileReader exact noVelox two (.one "q/data".toList) (some true) = .ok ss ∧
    List.Forall₂ (fun t s => (t.more = [] → Shows two t.first s) ∧
      (t.more ≠ [] → ShowsStack two t s) ∧ ShowsMeta two t.first.group t.base s) [⟨recB, [], "q".toList⟩] ss :=
  C113_stacks_partial (ps := ["q/data".toList]) two_plain.1 two_plain.2.1 two_plain.2.2.1 (by
    intro t ht
    rw [List.mem_singleton] at ht
    subst ht
    exact ⟨⟨two_holds.2, by simp, by simp⟩, fun l hp => absurd hp two_plain.2.2.2⟩) ⟨rfl, by simp, by
    intro t ht
    rw [List.mem_singleton] at ht
    subst ht
    exact ⟨⟨fun h => absurd h.1 two_plain.2.2.2, fun _ => rfl⟩, by simp⟩, by simp⟩ (.inr ⟨_, rfl, rfl, rfl⟩)

/-- A stack: the group of the first dataset has a group with the second one in it. -/
def nested : File := ⟨"n.emd".toList, versionAttrs, [
  ("a".toList, .group one), ("a/data".toList, nums [] [2, 3] [1, 2, 3, 4, 5, 6]),
  ("a/dim1".toList, dimOf "x" "[n_m]" 5 2), ("a/dim2".toList, dimOf "y" "[n_m]" 0 3),
  ("a/b".toList, .group one), ("a/b/data".toList, nums [] [2, 3] [7, 8, 9, 10, 11, 12])]⟩

example : (fileReader exact noVelox nested .none none).map (fun l => l.map fun s => (s.arr, s.axes.map Axis.size)) =
    .ok [(⟨[2, 3, 2], [1, 4, 2, 5, 3, 6, 7, 10, 8, 11, 9, 12].map Val.num⟩, [2, 3, 2])] := by decide +kernel

/-- **C113 fails**: in a stack, axes of length one disappear, and the others take the place and the calibration of the wrong dimension:
the axis with two points has the name and the scale of `dim1`, whose length is one. -/
theorem C113_stack_fails_squeeze : ∃ f : File,
    (fileReader exact noVelox f .none none).map (fun l => l.map fun s => s.axes) =
      .ok [[⟨0, some "a".toList, none, 2, 0, some 1, true⟩, ⟨1, some "one".toList, some [], 2, 0, some 7, false⟩]] ∧
    (fileReader exact noVelox f .none (some false)).map (fun l => (l.take 1).map fun s => s.axes) =
      .ok [[⟨0, some "two".toList, some [], 2, 0, some 3, false⟩, ⟨1, some "one".toList, some [], 1, 0, some 7, false⟩]] :=
  ⟨⟨"f.emd".toList, versionAttrs, [("a".toList, .group one), ("a/data".toList, nums [] [1, 2] [1, 2]),
    ("a/dim1".toList, dimOf "one" "" 0 7), ("a/dim2".toList, dimOf "two" "" 0 3),
    ("a/b".toList, .group one), ("a/b/data".toList, nums [] [1, 2] [3, 4]),
    ("a/b/dim1".toList, dimOf "one" "" 0 7), ("a/b/dim2".toList, dimOf "two" "" 0 3)]⟩, by decide +kernel, by decide +kernel⟩

/-- **C113 fails**: a stack of datasets with dimensions counted from zero is not read; each of them is. -/
theorem C113_stack_fails_zero : ∃ f : File,
    (fileReader exact noVelox f .none none).map List.length = .error .attributeError ∧
    (fileReader exact noVelox f .none (some false)).map List.length = .ok 2 :=
  ⟨⟨"f.emd".toList, versionAttrs, [("a".toList, .group one), ("a/data".toList, nums [] [2, 2] [1, 2, 3, 4]),
    ("a/dim0".toList, dimOf "x" "" 0 7), ("a/dim1".toList, dimOf "y" "" 0 3),
    ("a/b".toList, .group one), ("a/b/data".toList, nums [] [2, 2] [3, 4, 5, 6]),
    ("a/b/dim0".toList, dimOf "x" "" 0 7), ("a/b/dim1".toList, dimOf "y" "" 0 3)]⟩, by decide +kernel⟩

/-- **C113 fails**: of two datasets in the same group, the first one is stacked with itself and the second one is never read. -/
theorem C113_stack_fails_same : ∃ f : File,
    (fileReader exact noVelox f .none none).map (fun l => l.map fun s => s.arr) = .ok [⟨[2, 2], [1, 2, 1, 2].map Val.num⟩] ∧
    (fileReader exact noVelox f .none (some false)).map (fun l => l.map fun s => s.arr) =
      .ok [⟨[2], [1, 2].map Val.num⟩, ⟨[2], [3, 4].map Val.num⟩] :=
  ⟨⟨"f.emd".toList, versionAttrs, [("a".toList, .group one), ("a/data".toList, nums [] [2] [1, 2]), ("a/data2".toList, nums [] [2] [3, 4]),
    ("a/dim1".toList, dimOf "x" "" 0 7)]⟩, by decide +kernel⟩

/-- **C113 fails**: groups that have nothing to do with each other are stacked when the path of one dataset contains the name of the other
group: group `a` with all datasets `data`. If the shapes differ, the file is not read. -/
theorem C113_stack_fails_similar : ∃ f : File,
    (fileReader exact noVelox f .none none).map List.length = .error .valueError ∧
    (fileReader exact noVelox f .none (some false)).map List.length = .ok 2 :=
  ⟨⟨"f.emd".toList, versionAttrs, [("a".toList, .group one), ("a/data".toList, nums [] [2] [1, 2]), ("a/dim1".toList, dimOf "x" "" 0 7),
    ("b".toList, .group one), ("b/data".toList, nums [] [3] [3, 4, 5]), ("b/dim1".toList, dimOf "x" "" 0 7)]⟩, by decide +kernel⟩

/-- **C113 fails**: numbered groups, for which the argument `stack_group` is made, are not stacked unless the file is one of prismatic. -/
theorem C113_stack_fails_numbered : ∃ f : File,
    (fileReader exact noVelox f .none (some true)).map (fun l => l.map fun s => (s.title, s.arr.shape)) =
      .ok [("group0000".toList, [2]), ("group0001".toList, [2])] :=
  ⟨⟨"f.emd".toList, versionAttrs, [("group0000".toList, .group one), ("group0000/data".toList, nums [] [2] [1, 2]), ("group0000/dim1".toList, dimOf "x" "" 0 7),
    ("group0001".toList, .group one), ("group0001/data".toList, nums [] [2] [3, 4]), ("group0001/dim1".toList, dimOf "x" "" 0 7)]⟩, by decide +kernel⟩

/-- **C113 fails**: a dataset at the root whose name begins with `data` keeps all others from being read. -/
theorem C113_find_fails_root : ∃ f : File,
    (∃ e, fileReader exact noVelox f .none none = .error e) ∧
    (fileReader exact noVelox f (.one "a/data".toList) none).map List.length = .ok 1 :=
  ⟨⟨"f.emd".toList, versionAttrs, [("a".toList, .group one), ("a/data".toList, nums [] [2] [1, 2]), ("a/dim1".toList, dimOf "x" "" 0 7),
    ("database".toList, nums [] [1] [0])]⟩, ⟨_, rfl⟩, by decide +kernel⟩

/-- **C113 fails**: the scale of a dimension with a single position is not a number. -/
theorem C113_axis_fails_single : ∃ f : File,
    (fileReader exact noVelox f .none none).map (fun l => l.map fun s => s.axes.map Axis.scale) = .ok [[none]] :=
  ⟨⟨"f.emd".toList, versionAttrs, [("a".toList, .group one), ("a/data".toList, nums [] [1] [1]), ("a/dim1".toList, nums [] [1] [5])]⟩,
    by decide +kernel⟩

/-! ### Writing -/

/-- A stack of three spectra of two channels. -/
def spectra : In := ⟨⟨[3, 2], [1, 2, 3, 4, 5, 6].map Val.num⟩, 8, none,
  [⟨some "x".toList, some "nm".toList, 5, 2, true⟩, ⟨some "E".toList, none, 100, 1 / 2, false⟩], "EELS".toList,
  [("signal_type".toList, some (.str "EELS".toList)), ("bad".toList, none)],
  [("user".toList, .dict [("name".toList, some (.str "me".toList))])]⟩

theorem spectra_writable : Writable exact spectra where
  shape := by decide
  pos := by decide
  data := rfl
  item := by decide
  axes := rfl
  title := ⟨by decide, by decide⟩
  units := by
    intro a ha u hu
    simp only [spectra, List.mem_cons, List.not_mem_nil, or_false] at ha
    rcases ha with rfl | rfl
    · cases hu; exact ⟨by decide, by decide, by decide, by decide⟩
    · simp at hu
  scale := by
    intro a ha
    simp only [spectra, List.mem_cons, List.not_mem_nil, or_false] at ha
    rcases ha with rfl | rfl
    · decide +kernel
    · decide +kernel
  signal := by decide
  original := by
    intro n hn
    simp only [List.mem_cons, List.not_mem_nil, or_false] at hn
    rcases hn with rfl | rfl | rfl | rfl
    · exact .inl rfl
    · exact .inl rfl
    · exact .inr ⟨_, rfl, by intro e he; rw [List.mem_singleton] at he; subst he; simp⟩
    · exact .inl rfl

/-- The hypotheses of `C112_roundtrip_partial` are met. -/
example : ∃ f r, write exact "f.emd".toList spectra .none = .ok f ∧ Stores spectra .none f ∧ fileReader exact noVelox f .none none = .ok [r] ∧
    Back exact spectra r :=
  C112_roundtrip_partial (fun x => by simp [exact]) Verif.Props.SignalChunks.exactRoot_ok spectra_writable

/-- Write and read again. -/
def again (s : In) : Py (List Sig) := write exact "f.emd".toList s .none >>= fun f => fileReader exact noVelox f .none none

/-- **C112 fails**: the navigation axis comes back as one of the signal. -/
theorem C112_fails_navigate : ∃ s : In, Writable exact s ∧ s.axes.map InAxis.navigate = [true, false] ∧
    (again s).map (fun l => l.map fun r => r.axes.map Axis.navigate) = .ok [[false, false]] :=
  ⟨spectra, spectra_writable, rfl, by decide +kernel⟩

/-- **C112 fails**: the type of the signal is in the file, but it is not read. -/
theorem C112_fails_type : ∃ s : In, Writable exact s ∧ getKw "signal_type".toList s.signal = some (some (.str "EELS".toList)) ∧
    (again s).map (fun l => l.map Sig.signalType) = .ok [[]] :=
  ⟨spectra, spectra_writable, by decide +kernel, by decide +kernel⟩

/-- **C112 fails**: empty units come back as a pair of brackets. -/
theorem C112_fails_empty_units : ∃ s : In, s.axes.map InAxis.units = [some []] ∧
    (again s).map (fun l => l.map fun r => r.axes.map Axis.units) = .ok [[some "[]".toList]] :=
  ⟨⟨⟨[2], [1, 2].map Val.num⟩, 8, none, [⟨none, some [], 0, 1, false⟩], "t".toList, [], []⟩, rfl, by decide +kernel⟩

/-- **C112 fails**: underscores in units are removed. -/
theorem C112_fails_units : ∃ s : In, s.axes.map InAxis.units = [some "a_b".toList] ∧
    (again s).map (fun l => l.map fun r => r.axes.map Axis.units) = .ok [[some "ab".toList]] :=
  ⟨⟨⟨[2], [1, 2].map Val.num⟩, 8, none, [⟨none, some "a_b".toList, 0, 1, false⟩], "t".toList, [], []⟩, rfl, by decide +kernel⟩

/-- **C112 fails**: of a title with a slash, only the last part comes back. -/
theorem C112_fails_slash : ∃ s : In, s.title = "before/after".toList ∧ (again s).map (fun l => l.map Sig.title) = .ok ["after".toList] :=
  ⟨⟨⟨[2], [1, 2].map Val.num⟩, 8, none, [⟨none, none, 0, 1, false⟩], "before/after".toList, [], []⟩, rfl, by decide +kernel⟩

/-- **C112 fails**: a title that is a slash cannot be written without the signal landing at the root, where it is not found. -/
theorem C112_fails_root : ∃ s : In, s.title = "/".toList ∧ ∃ e, again s = .error e :=
  ⟨⟨⟨[2], [1, 2].map Val.num⟩, 8, none, [⟨none, none, 0, 1, false⟩], "/".toList, [], []⟩, rfl, _, rfl⟩

/-- **C112 fails**: `_depth` is removed from the title. -/
theorem C112_fails_depth : ∃ s : In, s.title = "a_depth_b".toList ∧ (again s).map (fun l => l.map Sig.title) = .ok ["a_b".toList] :=
  ⟨⟨⟨[2], [1, 2].map Val.num⟩, 8, none, [⟨none, none, 0, 1, false⟩], "a_depth_b".toList, [], []⟩, rfl, by decide +kernel⟩

/-- **C112 fails**: a title with `CBED` in it gives the signal another type. -/
theorem C112_fails_cbed : ∃ s : In, s.title = "no CBED".toList ∧
    (again s).map (fun l => l.map Sig.signalType) = .ok ["electron_diffraction".toList] :=
  ⟨⟨⟨[2], [1, 2].map Val.num⟩, 8, none, [⟨none, none, 0, 1, false⟩], "no CBED".toList, [], []⟩, rfl, by decide +kernel⟩

/-- **C112 fails**: with rounding, the scale of an axis that begins far from zero is lost. The arithmetic is that of whole numbers here. -/
theorem C112_fails_scale : ∃ (env : Env) (s : In) (f : File), (∀ x, env.mean [x] = x) ∧ s.axes.map InAxis.scale = [1 / 4] ∧
    write env [] s .none = .ok f ∧ (fileReader env noVelox f .none none).map (fun l => l.map fun r => r.axes.map Axis.scale) = .ok [[some 0]] :=
  ⟨{ exact with add := fun a b => (a + b).floor }, ⟨⟨[2], [1, 2].map Val.num⟩, 8, none, [⟨none, none, 3, 1 / 4, false⟩], "t".toList, [], []⟩, _,
    fun x => by simp [exact], rfl, rfl, by decide +kernel⟩

/-- **C112 fails**: the default chunks keep the axes with the numbers of the signal axes whole, but in the transposed data these are others:
of three spectra (rows) of 400000 channels, each chunk has all rows, and not all channels. -/
theorem C112_fails_chunks : ∃ s : In, s.axes.map InAxis.navigate = [true, false] ∧ s.arr.shape = [3, 400000] ∧
    ∃ n : Nat, n < 400000 ∧ chunksFor exact s s.arr.shape.reverse .none = .ok (.shape [n, 3]) :=
  ⟨⟨⟨[3, 400000], []⟩, 8, none, [⟨none, none, 0, 1, true⟩, ⟨none, none, 0, 1, false⟩], [], [], []⟩, rfl, rfl, 41666, by decide, by decide +kernel⟩

/-- **C112 fails**: metadata that HDF5 cannot store is left out in `Signal`, but in the four groups it prevents the file from being written. -/
theorem C112_fails_original : ∃ s : In, ∃ e, write exact [] s .none = .error e :=
  ⟨⟨⟨[2], [1, 2].map Val.num⟩, 8, none, [⟨none, none, 0, 1, false⟩], "t".toList, [("a".toList, none)], [("user".toList, .dict [("a".toList, none)])]⟩, _, rfl⟩

end Verif.Props.EmdNcem
