import Verif.Props.NexusMeta
import Verif.Props.NexusDefault
/-! C122 to C125: cases in which NeXus files are not read or written as expected, and cases that meet the hypotheses of the theorems. -/
namespace Verif.Props.Nexus
open Verif Verif.Nexus

/-- NXdata with a signal `data`. -/
def nxd (extra : Attrs) (kids : Kids) : Node :=
  .grp ([("NX_class".toList, .bytes "NXdata".toList), ("signal".toList, .str "data".toList)] ++ extra) kids

/-- A dataset with two values. -/
def two : Node := .ds [] (.nums [2] [5, 7])

/-- A dataset with two rows of three values. -/
def six : Node := .ds [] (.nums [2, 3] [1, 2, 3, 4, 5, 6])

/-- Titles of what was read. -/
def titles (r : Py (List Sig)) : Option (List (Option Text)) :=
  r.toOption.map fun l => l.map fun s => ((getKw "General".toList s.metadata) >>= R.sub "title") >>= R.text?

/-- An axis without its units. -/
structure View where
  size : Nat
  index : Nat
  name : Option Text
  scale : ℚ
  offset : ℚ
  navigate : Bool
  deriving DecidableEq

/-- Axes of what was read. -/
def axesOf (r : Py (List Sig)) : Option (List (List View)) :=
  r.toOption.map fun l => l.map fun s => s.axes.map fun x => ⟨x.size, x.index, x.name, x.scale, x.offset, x.navigate⟩

def failure {α : Type} (r : Py α) : Option PyErr := match r with | .error e => some e | .ok _ => none

def readIn (o : Opts) (f : Node) : Py (List Sig) := fileReader id "f".toList o f

/-! ### C122 -/

/-- A file with an entry that has a group of NXdata and a dataset beside it. -/
def plainFile : Node := .grp [("default".toList, .str "e".toList)]
  [("e".toList, .grp [("default".toList, .str "d".toList)] [("d".toList, nxd [] [("data".toList, two)]), ("x".toList, two)])]

/-- A case for C122: the signal of the group and the dataset. -/
example : titles (readIn {} plainFile) = some [some "d".toList, some "e_x".toList] := by decide +kernel

example : titles (readIn { useDefault := true } plainFile) = some [some "d".toList] := by decide +kernel

example : titles (readIn { datasetKey := .one "x".toList } plainFile) = some [some "e_x".toList] := by decide +kernel

/-- `hardlinks_only` is documented to ignore soft and external links; external links are followed. -/
theorem C122_fails_external : titles (readIn { hardlinksOnly := true } (.grp [] [("e".toList, .ext (nxd [] [("data".toList, two)]))])) = some [some "e".toList] := by decide +kernel

/-- With `hardlinks_only` the datasets in a group that is the original of a NeXus link are left out: its attribute `target`, its own path, is compared with the paths of its children, and just a child with that path is read. -/
theorem C122_fails_target :
    titles (readIn { hardlinksOnly := true } (.grp [] [("e".toList, .grp [("target".toList, .str "/e".toList)] [("x".toList, two)])])) = some [] ∧
    titles (readIn { hardlinksOnly := true } (.grp [] [("e".toList, .grp [("target".toList, .str "/e/x".toList)] [("x".toList, two), ("y".toList, two)])])) = some [some "e_x".toList] := by
  decide +kernel

/-- Arrays of texts are read as signals: their type is compared with `str` and `object`, which it never is. -/
theorem C122_fails_texts : titles (readIn {} (.grp [] [("x".toList, .ds [] (.texts [2] ["a".toList, "b".toList]))])) = some [some "x".toList] := by decide +kernel

/-- With a single entry and no attribute `default` of the file, the entry is not used: it is compared instead of set, and all signals are read. -/
theorem C122_fails_single : titles (readIn { useDefault := true } (.grp []
    [("e".toList, .grp [("default".toList, .str "d".toList)] [("d".toList, nxd [] [("data".toList, two)]), ("x".toList, two)])])) =
      some [some "d".toList, some "e_x".toList] := by decide +kernel

/-- The default is a part of the path: with the default `d` the group `da` is read too. -/
theorem C122_fails_part : titles (readIn { useDefault := true } (.grp [("default".toList, .str "e".toList)]
    [("e".toList, .grp [("default".toList, .str "d".toList)] [("d".toList, nxd [] [("data".toList, two)]), ("da".toList, nxd [] [("data".toList, two)])])])) =
      some [some "d".toList, some "da".toList] := by decide +kernel

/-- Without default, `use_default` makes the reader ignore the key for datasets. -/
theorem C122_fails_key : titles (readIn { useDefault := true, datasetKey := .one "x".toList } (.grp []
    [("e".toList, .grp [] [("d".toList, nxd [] [("data".toList, two)]), ("x".toList, two)])])) = some [some "d".toList, some "e_x".toList] := by decide +kernel

/-- A dataset without elements makes the whole file unreadable. -/
theorem C122_fails_empty : failure (readIn {} (.grp [] [("a".toList, .ds [] (.nums [0] [])), ("x".toList, two)])) = some .valueError := by decide +kernel

/-! ### C123 -/

/-- NXdata with two rows of three values and two axes. -/
def axesFile (extra : Attrs) (kids : Kids) : Node := .grp [] [("d".toList, nxd extra (("data".toList, six) :: kids))]

/-- An axis. -/
def ax (l : List ℚ) : Node := .ds [("units".toList, .str "nm".toList)] (.nums [l.length] l)

/-- A case for C123. -/
example : axesOf (readIn { nxdataOnly := true } (axesFile [("axes".toList, .objs [2] ["y".toList, "x".toList]), ("interpretation".toList, .str "spectrum".toList)]
    [("x".toList, ax [1, 3, 5]), ("y".toList, ax [0, 10])])) = some [[⟨2, 0, some "y".toList, 10, 0, true⟩, ⟨3, 1, some "x".toList, 2, 1, false⟩]] := by decide +kernel

example : Rows [2, 3] [] [("x".toList, ax [1, 3, 5])] 0 [['.'], "x".toList] [0, 1]
    [⟨2, 0, none, 1, 0, some (.str []), false⟩, ⟨3, 1, some "x".toList, 2, 1, some (.str "nm".toList), true⟩] :=
  .dot rfl (.named (m := 3) (b := [("units".toList, .str "nm".toList)]) (nd := ax [1, 3, 5]) (by decide) rfl (.inl ⟨rfl, rfl⟩) rfl
    (by rw [show evenly 1 2 3 = [1, 3, 5] by decide +kernel]; exact .same _) (.inr (.inl ⟨_, rfl, rfl⟩)) (by decide) (by decide) (.nil _))

/-- Values that descend are read as if they ascended: the scale is positive and the offset the smallest value. -/
theorem C123_fails_descending : axesOf (readIn { nxdataOnly := true } (.grp [] [("d".toList, nxd [("axes".toList, .objs [1] ["x".toList])]
    [("data".toList, two), ("x".toList, ax [8, 6])])])) = some [[⟨2, 0, some "x".toList, 2, 6, true⟩]] := by decide +kernel

/-- Values that are not in equal steps are lost, although axes can have such values. -/
theorem C123_fails_values : axesOf (readIn { nxdataOnly := true } (.grp [] [("d".toList, nxd [("axes".toList, .objs [1] ["x".toList])]
    [("data".toList, .ds [] (.nums [3] [1, 2, 3])), ("x".toList, ax [1, 2, 4])])])) = some [[⟨3, 0, some "x".toList, 1, 0, true⟩]] := by decide +kernel

/-- Steps are compared with an absolute tolerance: values of some nanometres in metres are taken as equal steps whatever they are. -/
theorem C123_fails_tolerance : axesOf (readIn { nxdataOnly := true } (.grp [] [("d".toList, nxd [("axes".toList, .objs [1] ["x".toList])]
    [("data".toList, .ds [] (.nums [3] [1, 2, 3])), ("x".toList, ax [0, 1 / 1000000000, 5 / 1000000000])])])) =
      some [[⟨3, 0, some "x".toList, 1 / 1000000000, 0, true⟩]] := by decide +kernel

/-- The interpretation marks the last axes of the list; with axes that are listed in another order than the dimensions, the first dimension is that of the spectrum. -/
theorem C123_fails_order : axesOf (readIn { nxdataOnly := true } (axesFile [("axes".toList, .objs [2] ["x".toList, "y".toList]), ("x_indices".toList, .num 1),
    ("y_indices".toList, .num 0), ("interpretation".toList, .str "spectrum".toList)] [("x".toList, ax [1, 3, 5]), ("y".toList, ax [0, 10])])) =
      some [[⟨3, 1, some "x".toList, 2, 1, true⟩, ⟨2, 0, some "y".toList, 10, 0, false⟩]] := by decide +kernel

/-- Two axes for one dimension, which NeXus allows, make the file unreadable. -/
theorem C123_fails_same : failure (readIn { nxdataOnly := true } (axesFile [("axes".toList, .objs [2] ["x".toList, "y".toList]), ("x_indices".toList, .num 0),
    ("y_indices".toList, .num 0)] [("x".toList, ax [1, 3]), ("y".toList, ax [0, 10])])) = some .valueError := by decide +kernel

/-- An axis without name before one for the first dimension takes this dimension as well; none is for the second. -/
theorem C123_fails_dot : axesOf (readIn { nxdataOnly := true } (axesFile [("axes".toList, .objs [2] [['.'], "x".toList]), ("x_indices".toList, .num 0)] [("x".toList, ax [1, 3])])) =
      some [[⟨2, 0, none, 1, 0, false⟩, ⟨2, 0, some "x".toList, 2, 1, true⟩]] := by decide +kernel

/-- Other datasets in the group have the axes of the signal, from the first on: three values along `x` have the axis `y`. -/
theorem C123_fails_beside : axesOf (readIn { datasetKey := .one "/d/z".toList } (axesFile [("axes".toList, .objs [2] ["y".toList, "x".toList])]
    [("x".toList, ax [1, 3, 5]), ("y".toList, ax [0, 10]), ("z".toList, .ds [] (.nums [3] [4, 4, 4]))])) = some [[⟨3, 0, some "y".toList, 10, 0, true⟩]] := by decide +kernel

/-- Datasets outside NXdata have no axes at all. -/
theorem C123_fails_none : axesOf (readIn {} (.grp [] [("x".toList, two)])) = some [[]] := by decide +kernel

/-- A part of the metadata of the first signal. -/
def metaAt (r : Py (List Sig)) (k : String) : Option R := r.toOption >>= fun l => l.head? >>= fun s => getKw k.toList s.metadata

/-! ### C124 -/

/-- Written and read. -/
def again (l : List WSig) (o : Opts := { nxdataOnly := true }) : Py (List Sig) := do readIn o (← fileWriter {} l)

/-- Metadata with a title. -/
def titled (t : String) : MDict := [("General".toList, .dict [("title".toList, .str t.toList)])]

/-- A signal with two values. -/
def sig1 (t : String) (x : WAxis) : WSig := ⟨.nums [2] [5, 7], [x], titled t, [], []⟩

def ax1 : WAxis := ⟨some "x".toList, some "nm".toList, false, .uniform 2 1 2⟩

theorem not_nx {d : MDict} (h : ∀ e ∈ d, e.1 ≠ "NX_class".toList) : ("NX_class".toList, M.str "NXdata".toList) ∉ d ∧ ("NX_class".toList, M.bytes "NXdata".toList) ∉ d :=
  ⟨fun hm => h _ hm rfl, fun hm => h _ hm rfl⟩

/-- A case for C124. -/
example : GoodSignal 0 (sig1 "a" ax1) "a".toList where
  axes := ⟨rfl, (fun i w n h1 h2 => by
    match i with
    | 0 => cases h1; cases h2; exact .named (by decide) (by decide) (by decide) (.inl (by decide))
    | i + 1 => cases h1), by decide, .inl ⟨1, .inl rfl, by decide, fun i w h => by
      match i with
      | 0 => cases h; rfl
      | i + 1 => cases h⟩, by decide⟩
  name := .title rfl rfl (by decide) (by decide) (by decide) (by decide)
  metadata := .dict (not_nx (by decide)) fun e he => by
    rw [List.mem_singleton.1 he]
    exact .dict (not_nx (by decide)) fun e he => by rw [List.mem_singleton.1 he]; exact .str _
  original := .dict (not_nx (by decide)) fun e he => absurd he List.not_mem_nil
  learning := .dict (not_nx (by decide)) fun e he => absurd he List.not_mem_nil

example : axesOf (again [sig1 "a" ax1, sig1 "b" ax1]) = some [[⟨2, 0, some "x".toList, 2, 1, false⟩], [⟨2, 0, some "x".toList, 2, 1, false⟩]] := by decide +kernel

example : titles (again [sig1 "a" ax1, sig1 "b" ax1]) = some [some "a".toList, some "b".toList] := by decide +kernel

/-- An axis with a negative scale comes back with a positive one. -/
theorem C124_fails_negative : axesOf (again [sig1 "a" { ax1 with kind := .uniform (-2) 1 2 }]) = some [[⟨2, 0, some "x".toList, 2, -1, false⟩]] := by decide +kernel

/-- The scale of an axis with one value is lost. -/
theorem C124_fails_one : axesOf (again [⟨.nums [1] [5], [{ ax1 with kind := .uniform 2 1 1 }], titled "a", [], []⟩]) = some [[⟨1, 0, some "x".toList, 1, 1, false⟩]] := by decide +kernel

/-- The calibration of an axis without name is lost. -/
theorem C124_fails_unnamed : axesOf (again [sig1 "a" { ax1 with name := none }]) = some [[⟨2, 0, none, 1, 0, false⟩]] := by decide +kernel

/-- The values of an axis that are not in equal steps are lost. -/
theorem C124_fails_values : axesOf (again [⟨.nums [3] [5, 6, 7], [{ ax1 with kind := .data [1, 2, 4] }], titled "a", [], []⟩]) = some [[⟨3, 0, some "x".toList, 1, 0, false⟩]] := by
  decide +kernel

/-- Three named signal axes come back as navigation axes. -/
theorem C124_fails_three : axesOf (again [⟨.nums [2, 2, 2] [1, 2, 3, 4, 5, 6, 7, 8], [{ ax1 with name := some "z".toList }, { ax1 with name := some "y".toList }, ax1], titled "a", [], []⟩]) =
    some [[⟨2, 0, some "z".toList, 2, 1, true⟩, ⟨2, 1, some "y".toList, 2, 1, true⟩, ⟨2, 2, some "x".toList, 2, 1, true⟩]] := by decide +kernel

/-- An axis with the name `data` has the data as its values. -/
theorem C124_fails_data : axesOf (again [sig1 "a" { ax1 with name := some "data".toList }]) = some [[⟨2, 0, some "data".toList, 2, 5, false⟩]] := by decide +kernel

/-- Names of axes with letters that are not ASCII cannot be written. -/
theorem C124_fails_letters : failure (again [sig1 "a" { ax1 with name := some "ä".toList }]) = some .unicodeError := by decide +kernel

/-- A space at the end of the name of an axis makes the file unreadable: the name is not found without it. -/
theorem C124_fails_space : failure (again [sig1 "a" { ax1 with name := some "x ".toList }]) = some .keyError := by decide +kernel

/-- The metadata of a signal with the title `auxiliary` are written to the group of the signal, and are lost: the group is NXdata. -/
theorem C124_fails_title : metaAt (again [⟨.nums [2] [5, 7], [ax1], titled "auxiliary" ++ [("A".toList, .num 3)], [], []⟩]) "A" = none := by rfl

/-- Slashes in a title are replaced, and two underscores at its beginning are removed. -/
theorem C124_fails_slash : titles (again [sig1 "a/b" ax1, sig1 "__c" ax1]) = some [some "a_b".toList, some "c".toList] := by decide +kernel

/-- Ten signals come back in another order: the tenth after the first. -/
theorem C124_fails_ten : titles (again ((List.range 10).map fun i => sig1 (["a", "b", "c", "d", "e", "f", "g", "h", "i", "j"].getD i "") ax1)) =
    some (["a", "j", "b", "c", "d", "e", "f", "g", "h", "i"].map fun s => some s.toList) := by decide +kernel

/-- With the arguments as they are by default, the axes come back as signals in addition. -/
theorem C124_fails_default : titles (again [sig1 "a" ax1] {}) = some [some "a".toList, some "entry1_a_x".toList] := by decide +kernel

/-! ### C125 -/

/-- A signal with metadata. -/
def sigM (md : MDict) (om : MDict := []) : WSig := ⟨.nums [2] [5, 7], [ax1], titled "a" ++ md, om, []⟩

/-- A part of the original metadata of the first signal. -/
def origAt (r : Py (List Sig)) (k : String) : Option R := r.toOption >>= fun l => l.head? >>= fun s => getKw k.toList s.original

instance : DecidablePred GoodKey := fun k => by unfold GoodKey; infer_instance

/-- A case for C125. -/
example : GoodMeta (sigM [("A".toList, .dict [("n".toList, .num 3)])] [("l".toList, .nums [2] [1, 2])]) where
  metadata := .dict (by decide) (by decide) fun e he => by
    rcases List.mem_cons.1 he with rfl | he
    · exact .dict (by decide) (by decide) fun e he => by rw [List.mem_singleton.1 he]; exact .str (by decide)
    · rw [List.mem_singleton.1 he]
      exact .dict (by decide) (by decide) fun e he => by rw [List.mem_singleton.1 he]; exact .num 3
  original := .dict (by decide) (by decide) fun e he => by rw [List.mem_singleton.1 he]; exact .nums (by decide)
  learning := .dict (by decide) (by decide) fun e he => absurd he List.not_mem_nil
  marked := by decide

example : metaAt (again [sigM [("A".toList, .dict [("n".toList, .num 3)])]]) "A" = some (.dict [("n".toList, .num 3)]) := by rfl

example : origAt (again [sigM [] [("l".toList, .nums [2] [1, 2])]]) "l" = some (.nums [2] [1, 2]) := by rfl

/-- Of `General` only the title is left: the authors are lost. -/
theorem C125_fails_general : metaAt (again [⟨.nums [2] [5, 7], [ax1], [("General".toList, .dict [("title".toList, .str "a".toList), ("authors".toList, .str "b".toList)])], [], []⟩]) "General" =
    some (.dict [("title".toList, .str "a".toList)]) := by rfl

/-- Names that begin with `keys` are changed. -/
theorem C125_fails_keys : metaAt (again [sigM [("keys1".toList, .num 3)]]) "keys1" = none ∧ metaAt (again [sigM [("keys1".toList, .num 3)]]) "fix_keys1" = some (.num 3) := ⟨by rfl, by rfl⟩

/-- A list with one element comes back as the element. -/
theorem C125_fails_list : metaAt (again [sigM [("l".toList, .nums [1] [3])]]) "l" = some (.num 3) := by rfl

/-- Nothing is written for `None` and for empty lists. -/
theorem C125_fails_none : metaAt (again [sigM [("n".toList, .none), ("l".toList, .nums [0] [])]]) "n" = none ∧ metaAt (again [sigM [("n".toList, .none), ("l".toList, .nums [0] [])]]) "l" = none :=
  ⟨by rfl, by rfl⟩

/-- Integers of numpy in the metadata raise AttributeError. -/
theorem C125_fails_numpy : failure (again [sigM [("n".toList, .npnum 3)]]) = some .attributeError := by decide +kernel

/-- A dictionary with `attrs` and the value `None` raises KeyError. -/
theorem C125_fails_value : failure (again [sigM [("n".toList, .dict [("value".toList, .none), ("attrs".toList, .dict [("units".toList, .str "nm".toList)])])]]) = some .keyError := by
  decide +kernel

/-- A dictionary with nothing but `value` comes back as the value. -/
theorem C125_fails_only : metaAt (again [sigM [("n".toList, .dict [("value".toList, .num 3)])]]) "n" = some (.num 3) := by rfl

/-- Spaces at the end of texts are removed. -/
theorem C125_fails_space : metaAt (again [sigM [("n".toList, .str "b ".toList)]]) "n" = some (.str "b".toList) := by rfl

/-- A list of dictionaries is written under other names. -/
theorem C125_fails_dicts : metaAt (again [sigM [("n".toList, .list [[("a".toList, .num 3)]])]]) "n" = none ∧
    metaAt (again [sigM [("n".toList, .list [[("a".toList, .num 3)]])]]) "_axes_0" = some (.dict [("a".toList, .num 3)]) := ⟨by rfl, by rfl⟩

/-- A signal without original metadata has those of the file: its groups and their classes. -/
theorem C125_fails_structure : ((again [sigM []]).toOption.map fun l => l.map fun s => s.original.map (·.1)) = some [["attrs".toList, "auxiliary".toList]] := by decide +kernel

end Verif.Props.Nexus
