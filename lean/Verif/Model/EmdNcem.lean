import Verif.Py.Assoc
import Verif.Py.Lines
import Verif.Py.Dec
import Verif.Py.Ravel
import Verif.Model.Ripple
import Verif.Model.SignalChunks
import Mathlib.Algebra.Order.Ring.Rat
import Mathlib.Algebra.Order.Group.Unbundled.Abs
/-!
Model of `rsciio/emd/_emd_ncem.py` (EMD files of the Berkeley variant, reading and writing) and of the
choice of the variant in `rsciio/emd/_api.py`.

A file is the attributes of the root and the list of its objects with their paths (no leading slash), in
the order of `visititems`. Paths given to `h5py` are normalised: empty components and `.` disappear.
The writer appends objects; their order does not matter as only one of them is a supported dataset.
Numbers are rationals, without NaN in the file; the addition, the differences and the mean of the
floating point unit are parameters. External: what `pint` makes of a unit, `str` of an attribute that is
no text, the JSON of `Version`, the reader of Velox files. Simplified: attributes come back as they
were written; `float` of a row of an axis with several dimensions fails; text data is not written.
Lazy reading gives the same values. Not modelled: compression, log messages, links, `HDF5` errors for
names with NUL.
-/
namespace Verif.EmdNcem

/-- Attributes: text, bytes with what decoding gives, numbers, arrays of numbers. -/
inductive V | str (t : Text) | bytes (t : Option Text) | num (q : ℚ) | list (l : List ℚ)
  deriving DecidableEq

/-- Elements of arrays. -/
inductive Val | num (q : ℚ) | text (t : Text)
  deriving DecidableEq

abbrev Attrs := List (Text × V)

/-- An array in C order. -/
structure Arr where
  shape : List Nat
  data : List Val
  deriving DecidableEq

/-- A dataset; `numeric`: the type of its elements is a number. -/
structure Dset where
  attrs : Attrs
  numeric : Bool
  arr : Arr
  chunks : SignalChunks.Chunks
  deriving DecidableEq

inductive Obj | group (attrs : Attrs) | dset (d : Dset)
  deriving DecidableEq

structure File where
  name : Text
  attrs : Attrs
  entries : List (Text × Obj)
  deriving DecidableEq

/-- What is not modelled: floating point arithmetic, `pint`, `str`, JSON, and the root of `get_signal_chunks`. -/
structure Env where
  add : ℚ → ℚ → ℚ
  sub : ℚ → ℚ → ℚ
  mean : List ℚ → ℚ
  pint : Text → Option Text
  show_ : V → Text
  format : Obj → Py Text
  root : Nat → Nat → Nat → Nat

/-- An axis; the scale `none` is NaN. -/
structure Axis where
  index : Nat
  name : Option Text
  units : Option Text
  size : Nat
  offset : ℚ
  scale : Option ℚ
  navigate : Bool
  deriving DecidableEq

/-- `original_metadata`. -/
structure Original where
  version : Option Text
  groups : List (Text × Attrs)
  simulation : Option Attrs
  deriving DecidableEq

/-- A signal that was read. -/
structure Sig where
  arr : Arr
  axes : List Axis
  title : Text
  filename : Text
  signalType : Text
  original : Original
  deriving DecidableEq

/-- The argument `dataset_path`. -/
inductive PathArg | none | one (p : Text) | many (l : List Text)

/-! ### Texts and paths -/

/-- The parts of a path for HDF5. -/
def parts (p : Text) : List Text := (splitChar '/' p).filter fun c => c ≠ [] ∧ c ≠ ['.']

/-- The path without leading slash, empty parts and dots. -/
def norm (p : Text) : Text := joinWith ['/'] (parts p)

/-- `os.path.basename`. -/
def basename (p : Text) : Text := (p.reverse.takeWhile (· ≠ '/')).reverse

/-- `os.path.dirname`: up to the last slash, without trailing slashes unless there is nothing else. -/
def dirname (p : Text) : Text :=
  let head := (p.reverse.dropWhile (· ≠ '/')).reverse
  if head.all (· = '/') then head else rstripBy (· = '/') head

/-- `a in b` for texts. -/
def inText (a : Text) : Text → Bool
  | [] => a = []
  | c :: t => a.isPrefixOf (c :: t) || inText a t

/-- `file.get(path)`, for paths other than that of the root. -/
def get (f : File) (p : Text) : Option Obj := getKw (norm p) f.entries

/-- `group.attrs`. -/
def attrsOf : Obj → Attrs
  | .group a => a
  | .dset d => d.attrs

/-- `{key}/{name}`. -/
def child (g name : Text) : Text := g ++ '/' :: name

/-- `dim{i}`. -/
def dimName (i : Nat) : Text := "dim".toList ++ decChars i

/-! ### Choice of the variant (`_api.py`) -/

/-- `"k" in file.keys()`. -/
def hasKey (f : File) (k : Text) : Bool := f.entries.any fun e => e.1 = k

/-- `read_emd_version(group) != ""`, lines 553-573: both numbers are there. -/
def hasVersion (a : Attrs) : Bool :=
  (getKw "version_major".toList a).isSome && (getKw "version_minor".toList a).isSome

def isGroup : Obj → Bool
  | .group _ => true
  | .dset _ => false

/-- `is_EMD_NCEM`, `_api.py` lines 45-73: at the root, or in one of its groups. -/
def isNcem (f : File) : Bool :=
  hasVersion f.attrs || f.entries.any fun e => '/' ∉ e.1 && isGroup e.2 && hasVersion (attrsOf e.2)

/-- `is_EMD_Velox`, `_api.py` lines 76-106. -/
def isVelox (env : Env) (f : File) : Py Bool :=
  match getKw "Version".toList f.entries with
  | none => .ok false
  | some o => (env.format o).map fun t => t = "Velox".toList ∨ t = "DevelopersKit".toList

/-! ### Finding datasets -/

/-- Lines 155-165. -/
def prefixes : List Text := ["data".toList, "counted_datacube".toList, "datacube".toList, "diffractionslice".toList,
  "realslice".toList, "pointlistarray".toList, "pointlist".toList]

def supported (name : Text) : Bool := prefixes.any fun p => p.isPrefixOf name

/-- `if value:`. The truth of an array is that of its only element. -/
def truthy : V → Py Bool
  | .str t => .ok (t ≠ [])
  | .bytes t => .ok (t ≠ some [])
  | .num q => .ok (q ≠ 0)
  | .list [] => .ok false
  | .list [q] => .ok (q ≠ 0)
  | .list _ => .error .valueError

/-- `_get_emd_group_type(grp)`, lines 187-192, as a condition. -/
def groupType (o : Obj) : Py Bool :=
  match getKw "emd_group_type".toList (attrsOf o) with
  | none => .ok false
  | some v => truthy v

/-- `print_dataset_only`, lines 154-169: is the path appended? With a dataset at the root, `file.get("")` fails. -/
def listed (f : File) (e : Text × Obj) : Py Bool :=
  if supported (basename e.1) then
    match e.2 with
    | .group _ => .ok false
    | .dset _ =>
      if dirname e.1 = [] then .error .valueError
      else match get f (dirname e.1) with
        | none => .error .attributeError
        | some g => groupType g
  else .ok false

/-- `find_dataset_paths`, lines 132-177. -/
def findPaths (f : File) : Py (List Text) :=
  f.entries.foldlM (fun l e => (listed f e).map fun b => if b then l ++ [e.1] else l) []

/-- `_is_prismatic_file`, lines 179-181. -/
def prismatic (f : File) : Bool := hasKey f "4DSTEM_simulation".toList

/-! ### Data -/

/-- The value at an index. -/
def Arr.at (a : Arr) (idx : List Nat) : Val := a.data.getD (flatIndex a.shape idx) (.num 0)

/-- `transpose()`: the order of the axes is reversed. -/
def transpose (a : Arr) : Arr := ⟨a.shape.reverse, ravel a.shape.reverse fun idx => a.at idx.reverse⟩

/-- `_read_dataset`, lines 194-208: groups have no chunks, and a scalar cannot be sliced. -/
def readDataset : Obj → Py Arr
  | .group _ => .error .attributeError
  | .dset d => if d.arr.shape = [] then .error .valueError else .ok d.arr

/-- `np.stack(l).squeeze()`. -/
def stack : List Arr → Py Arr
  | [] => .error .valueError
  | a :: l => if l.all fun b => b.shape = a.shape then
      .ok ⟨((l.length + 1) :: a.shape).filter (· ≠ 1), (a :: l).flatMap Arr.data⟩
    else .error .valueError

/-- Differences of neighbours. -/
def diffs (env : Env) : List ℚ → List ℚ
  | a :: b :: l => env.sub b a :: diffs env (b :: l)
  | _ => []

def numbers (l : List Val) : List ℚ := l.filterMap fun | .num q => some q | .text _ => none

/-- `_parse_axis`, lines 442-454. -/
def parseAxis (env : Env) : Option Obj → Py (ℚ × Option ℚ)
  | none => .error .attributeError
  | some (.group _) => .error .attributeError
  | some (.dset d) =>
    if d.arr.shape ≠ [] ∧ d.numeric then
      match d.arr.shape, numbers d.arr.data with
      | [_], [] => .error .indexError
      | [_], [a] => .ok (a, none)                                         -- the mean of nothing
      | [_], a :: l => .ok (a, some (env.mean (diffs env (a :: l))))
      | _, _ => .error .typeError
    else .ok (0, some 1)

/-- All up to the next closing bracket in the same line, and what follows. -/
def closing : Text → Option (Text × Text)
  | [] => none
  | c :: t => if c = ']' then some ([], t) else if c = '\n' then none else
      match closing t with
      | none => none
      | some (a, r) => some (c :: a, r)

/-- What follows an opening bracket: one character, and all up to the next closing one. -/
def bracket : Text → Option (Text × Text)
  | [] => none
  | c :: t => if c = '\n' then none else
      match closing t with
      | none => none
      | some (a, r) => some (c :: a, r)

/-- `re.findall(r"(\[.+?\])", value)`, without the brackets; the bound is the length of the text. -/
def findUnits : Nat → Text → List Text
  | 0, _ => []
  | _, [] => []
  | n + 1, c :: t =>
    if c = '[' then
      match bracket t with
      | some (a, r) => a :: findUnits n r
      | none => findUnits n t
    else findUnits n t

/-- The value as a text: line 350. -/
def decode : V → Py Text
  | .str t => .ok t
  | .bytes (some t) => .ok t
  | .bytes none => .error .unicodeError
  | .num _ => .error .attributeError
  | .list _ => .error .attributeError

/-- Lines 352-370. -/
def parseUnits (env : Env) (value : Text) : Text :=
  let v := if value = "A".toList ∨ value = "A^-1".toList then Ripple.replace "A".toList "Å".toList value else value
  let us := findUnits v.length v
  let w := if us = [] then v else joinWith " * ".toList (us.map fun u => u.filter (· ≠ '_'))
  (env.pint w).getD w

/-- `_parse_attribute(dim, "name")`. -/
def attrName (a : Attrs) : Py (Option Text) :=
  match getKw "name".toList a with
  | none => .ok none
  | some v => (decode v).map some

/-- `_parse_attribute(dim, "units")`. -/
def attrUnits (env : Env) (a : Attrs) : Py (Option Text) :=
  match getKw "units".toList a with
  | none => .ok none
  | some v => (decode v).map fun t => some (parseUnits env t)

/-! ### Metadata -/

/-- `str(value)`, of a value that may be missing. -/
def str (env : Env) : Option V → Text
  | none => "None".toList
  | some (.str t) => t
  | some v => env.show_ v

/-- `_read_emd_version`, lines 210-221. -/
def version (env : Env) (a : Attrs) : Option Text :=
  match getKw "version_major".toList a with
  | none => none
  | some v => some (str env (some v) ++ '.' :: str env (getKw "version_minor".toList a))

/-- Lines 389, 482. -/
def groupNames : List Text := ["microscope".toList, "sample".toList, "user".toList, "comments".toList]

/-- `md_mapping`, lines 397-432. -/
def mapping : List (Text × Text) := [
  ("i".toList, "filenameAtoms".toList), ("a".toList, "algorithm".toList), ("fx".toList, "interpolationFactorX".toList),
  ("fy".toList, "interpolationFactorY".toList), ("F".toList, "numFP".toList), ("ns".toList, "numSlices".toList),
  ("te".toList, "includeThermalEffects".toList), ("oc".toList, "includeOccupancy".toList),
  ("3D".toList, "save3DOutput".toList), ("4D".toList, "save3DOutput".toList), ("DPC".toList, "saveDPC_CoM".toList),
  ("ps".toList, "savePotentialSlices".toList), ("nqs".toList, "nyquistSampling".toList),
  ("px".toList, "realspacePixelSizeX".toList), ("py".toList, "realspacePixelSizeY".toList), ("P".toList, "potBound".toList),
  ("s".toList, "sliceThickness".toList), ("zs".toList, "zStart".toList), ("E".toList, "E0".toList),
  ("A".toList, "alphaBeamMax".toList), ("rx".toList, "probeStepX".toList), ("ry".toList, "probeStepY".toList),
  ("df".toList, "probeDefocus".toList), ("sa".toList, "probeSemiangle".toList), ("d".toList, "detectorAngleStep".toList),
  ("tx".toList, "probeXtilt".toList), ("ty".toList, "probeYtilt".toList), ("c".toList, "cellDimension".toList),
  ("t".toList, "tile".toList), ("wx".toList, "scanWindowX".toList), ("wy".toList, "scanWindowY".toList),
  ("wxr".toList, "scanWindowX_r".toList), ("wyr".toList, "scanWindowY_r".toList), ("2D".toList, "integrationAngle".toList)]

/-- Lines 433-438. -/
def rename (a : Attrs) : Attrs :=
  a.foldl (fun d e => setKw ((getKw e.1 mapping).getD e.1) e.2 d) []

/-- Line 434. -/
def simulationPath : Text := "4DSTEM_simulation/metadata/metadata_0/original/simulation_parameters".toList

/-- The groups of line 389 that are there. -/
def omGroups (f : File) : List (Text × Attrs) :=
  groupNames.filterMap fun n => (get f n).map fun o => (n, attrsOf o)

/-- `_parse_original_metadata`, lines 386-440. -/
def parseOriginal (env : Env) (f : File) : Py Original :=
  let v := version env f.attrs
  if prismatic f then
    match get f simulationPath with
    | none => .error .attributeError
    | some o => .ok ⟨v, omGroups f, some (rename (attrsOf o))⟩
  else .ok ⟨v, omGroups f, none⟩

/-- Signal type and title, lines 373-384. -/
def signalType (group : Text) : Text := if inText "CBED".toList group then "electron_diffraction".toList else []

def titleOf (t : Text) : Text := Ripple.replace "_depth".toList [] t

/-! ### Axes -/

/-- A parameter that has to be a number. -/
def number : V → Py ℚ
  | .num q => .ok q
  | _ => .error .typeError

/-- `simu_om.get(key, 0)[i]`. -/
def element (a : Attrs) (key : Text) (i : Nat) : Py ℚ :=
  match getKw key a with
  | some (.list l) => match l[i]? with
    | some q => .ok q
    | none => .error .indexError
  | _ => .error .typeError

/-- `math.isclose(a, b, rel_tol=1e-4)`. -/
def isclose (a b : ℚ) : Bool := a = b ∨ |a - b| ≤ 1 / 10000 * max |a| |b|

/-- Lines 271-273: the scale of the depth. -/
def depthScale (om : Attrs) : Py ℚ :=
  match getKw "numSlices".toList om with
  | none => .ok 1
  | some v => do
    let n ← number v
    let t ← match getKw "sliceThickness".toList om with
      | none => .ok 1
      | some w => number w
    .ok (n * t)

/-- Lines 274-279: its offset. -/
def depthOffset (om : Attrs) (scale : ℚ) : Py ℚ :=
  match getKw "zStart".toList om with
  | none => .ok 0
  | some v => (number v).map fun z => if z = 0 then scale else z

/-- Lines 268-293: offset, scale and units of the axis of a stack of `n` datasets. -/
def stackCal (f : File) (om : Original) (key : Text) (n : Nat) : Py (ℚ × ℚ × Option Text) :=
  if prismatic f ∧ inText "depth".toList key then do
    let a := om.simulation.getD []
    let scale ← depthScale a
    let offset ← depthOffset a scale
    let tile ← element a "tile".toList 2
    let cell ← element a "cellDimension".toList 0
    if isclose (tile * cell) (n * scale) then .ok (offset, scale, some "Å".toList) else .ok (0, 1, none)
  else .ok (0, 1, none)

/-- Lines 323-332: `dim.name` ends with the name of the dimension. -/
def navigates (f : File) (dataset dim : Text) : Bool :=
  if prismatic f then
    if dataset = "datacube".toList then dim ≠ "dim3".toList ∧ dim ≠ "dim4".toList
    else dim ≠ "dim1".toList ∧ dim ≠ "dim2".toList
  else false

/-- Lines 320-344, for one axis. -/
def dimAxis (env : Env) (f : File) (group dataset : Text) (shape : List Nat) (arr dim : Nat) : Py Axis := do
  let o := get f (child group (dimName dim))
  let (offset, scale) ← parseAxis env o
  let a := match o with
    | some o => attrsOf o
    | none => []
  let name ← attrName a
  let units ← attrUnits env a
  .ok ⟨arr, name, units, shape.getD arr 0, offset, scale, navigates f dataset (dimName dim)⟩

/-- Line 228: dimensions start from zero. -/
def dim0 (f : File) (group : Text) : Bool := (get f (child group "dim0".toList)).isSome

/-- Lines 227-230. -/
def transposed (f : File) (group dataset : Text) : Bool := !dim0 f group && dataset ≠ "datacube".toList

/-- Lines 305-318: the indices in the array with the numbers of the dimensions. -/
def indices (stacked zero rev : Bool) (ndim : Nat) : List (Nat × Nat) :=
  let arr := if stacked then List.range' 1 (ndim - 1) else List.range ndim
  let dims := if stacked then arr else if zero then arr else arr.map (· + 1)
  arr.zip (if rev then dims.reverse else dims)

/-- The datasets, line 232. -/
def datasets (f : File) (groups : List Text) (dataset : Text) : List (Option Obj) :=
  groups.map fun g => get f (child g dataset)

/-- Lines 237-263. -/
def loadData (rev : Bool) (l : List Obj) : Py Arr := do
  let l ← l.mapM readDataset
  let l := if rev then l.map transpose else l
  match l with
  | [a] => .ok a
  | l => stack l

/-- Lines 294-304: the axis of a stack, if there is one. -/
def stackAxis (f : File) (om : Original) (key : Text) (more : List Text) : Py (List Axis) :=
  if more.isEmpty then .ok []
  else (stackCal f om key (more.length + 1)).map fun c => [⟨0, some key, c.2.2, more.length + 1, c.1, some c.2.1, true⟩]

/-- `_read_data_from_groups`, lines 223-345. The groups are not empty; `group` is the first of them. -/
def readGroups (env : Env) (f : File) (group : Text) (more : List Text) (dataset key : Text) (om : Original) :
    Py (Arr × List Axis) := do
  let l := datasets f (group :: more) dataset
  if l.any Option.isNone then .error .ioError
  else
    let rev := transposed f group dataset
    let a ← loadData rev l.reduceOption
    let first ← stackAxis f om key more
    let axes ← (indices (!more.isEmpty) (dim0 f group) rev a.shape.length).mapM fun p =>
      dimAxis env f group dataset a.shape p.1 p.2
    .ok (a, first ++ axes)

/-! ### Reading -/

/-- Lines 103-107: the text that the paths of a stack have in common. -/
def stackBase (f : File) (path : Text) : Text :=
  if prismatic f ∧ ¬ inText "ppotential".toList path then (dirname path).take ((dirname path).length - 4) else dirname path

/-- Lines 93-114: the paths with the same base are taken together. The bound is the number of paths. -/
def collect (f : File) : Nat → List Text → List (Text × List Text)
  | 0, _ => []
  | _, [] => []
  | n + 1, path :: rest =>
    let same := fun p => path ≠ p && inText (stackBase f path) p
    (path, rest.filter same) :: collect f n (rest.filter fun p => !same p)

/-- Lines 93-130: one signal. -/
def readSignal (env : Env) (f : File) (stacking : Bool) (s : Text × List Text) : Py Sig := do
  let group := dirname s.1
  let title := if stacking then basename (stackBase f s.1) else basename group
  let om ← parseOriginal env f
  let (a, axes) ← readGroups env f group (s.2.map dirname) (basename s.1) title om
  .ok ⟨a, axes, titleOf title, basename f.name, signalType group, om⟩

/-- `EMD_NCEM.read_file`, lines 55-130. -/
def readFile (env : Env) (f : File) (arg : PathArg) (stackGroup : Option Bool) : Py (List Sig) := do
  let (paths, stacking) ← match arg with
    | .many l => .ok (l, false)
    | .one p => .ok ([p], stackGroup.getD false)
    | .none => (findPaths f).map fun l => (l, stackGroup.getD true)
  (if stacking then collect f paths.length paths else paths.map fun p => (p, [])).mapM (readSignal env f stacking)

/-- `file_reader`, `_api.py` lines 182-222. -/
def fileReader (env : Env) (velox : File → Py (List Sig)) (f : File) (arg : PathArg) (stackGroup : Option Bool) :
    Py (List Sig) := do
  if ← isVelox env f then velox f
  else if isNcem f then readFile env f arg stackGroup
  else .error .ioError

/-! ### Writing -/

/-- An entry of the original metadata: a dictionary with values that HDF5 stores or not, or something else. -/
inductive Entry | dict (d : List (Text × Option V)) | other

/-- An axis of the signal to be written. -/
structure InAxis where
  name : Option Text
  units : Option Text
  offset : ℚ
  scale : ℚ
  navigate : Bool

/-- The signal to be written; `dask`: the chunks of the array, if it is lazy; `signal`: `metadata.Signal`. -/
structure In where
  arr : Arr
  itemsize : Nat
  dask : Option (List (List Nat))
  axes : List InAxis
  title : Text
  signal : List (Text × Option V)
  original : List (Text × Entry)

/-- The argument `chunks`: `None`, `True`, or a tuple. -/
inductive ChunkArg | none | auto | given (l : List Nat)

/-- `group.attrs[key] = value`, lines 486-487. -/
def storeAll (d : List (Text × Option V)) : Py Attrs :=
  d.foldlM (fun a e => match e.2 with
    | some v => .ok (setKw e.1 v a)
    | none => .error .typeError) []

/-- Lines 482-487. -/
def omAttrs (om : List (Text × Entry)) (name : Text) : Py Attrs :=
  match getKw name om with
  | none => .ok []
  | some .other => .error .attributeError
  | some (.dict d) => storeAll d

/-- Lines 482-487, the groups. -/
def omObjects (om : List (Text × Entry)) : Py (List (Text × Obj)) :=
  groupNames.mapM fun n => (omAttrs om n).map fun a => (n, .group a)

/-- The path of the group of the signal: line 498. A title with a leading slash is a path from the root. -/
def groupParts (title : Text) : List Text :=
  let t := if title = [] then "__unnamed__".toList else title
  if t.head? = some '/' then parts t else "signals".toList :: parts t

/-- `require_group(path)`: the groups on the way that are missing. `done` is the part of the path that is there. -/
def requireGroup (done : List Text) : List Text → List (Text × Obj) → List (Text × Obj)
  | [], es => es
  | p :: ps, es =>
    let path := joinWith ['/'] (done ++ [p])
    requireGroup (done ++ [p]) ps (if (getKw path es).isSome then es else es ++ [(path, .group [])])

/-- `group.attrs[key] = value` for the group at a path. -/
def setAttr (path k : Text) (v : V) (es : List (Text × Obj)) : List (Text × Obj) :=
  es.map fun e => if e.1 = path then (e.1, match e.2 with
    | .group a => .group (setKw k v a)
    | .dset d => .dset d) else e

/-- Lines 509-512: the axes of the signal, as indices of the data that is not yet transposed. -/
def signalAxes (axes : List InAxis) : List Nat :=
  (List.range axes.length).filter fun i => (axes[i]?).any fun a => !a.navigate

/-- Lines 504-516. `shape` is that of the transposed data. -/
def chunksFor (env : Env) (s : In) (shape : List Nat) : ChunkArg → Py SignalChunks.Chunks
  | .none => match s.dask with
    | some c => .ok (.shape (c.reverse.map fun l => l.headD 0))
    | none => SignalChunks.getSignalChunks env.root shape s.itemsize (some (signalAxes s.axes)) 1000000
  | .auto => .ok .auto
  | .given l => .ok (.shape l.reverse)

/-- Lines 535-539. -/
def unitsText : Option Text → Text
  | none => []
  | some u => '[' :: joinWith ['_'] (u.map fun c => [c]) ++ [']']

/-- Lines 525-540, for one axis. -/
def dimDset (env : Env) (a : InAxis) : Dset :=
  ⟨[("name".toList, .str (a.name.getD [])), ("units".toList, .str (unitsText a.units))], true,
    ⟨[2], [.num a.offset, .num (env.add a.offset a.scale)]⟩, .auto⟩

/-- `child`, where the path may be that of the root. -/
def inGroup (path name : Text) : Text := if path = [] then name else child path name

/-- Lines 522-540. -/
def dimObjects (env : Env) (path : Text) (ndim : Nat) (axes : List InAxis) : Py (List (Text × Obj)) :=
  ((List.range ndim).zip ((List.range ndim).map (· + 1)).reverse).mapM fun p =>
    match axes[p.1]? with
    | some a => .ok (inGroup path (dimName p.2), .dset (dimDset env a))
    | none => .error .indexError

/-- Lines 543-550: what cannot be stored is left out. -/
def setSignal (path : Text) (signal : List (Text × Option V)) (es : List (Text × Obj)) : List (Text × Obj) :=
  signal.foldl (fun es e => match e.2 with
    | some v => setAttr path e.1 v es
    | none => es) es

/-- `EMD_NCEM.write_file` and `_write_signal_to_group`, lines 456-550. -/
def write (env : Env) (name : Text) (s : In) (arg : ChunkArg) : Py File := do
  let objs ← omObjects s.original
  let ps := groupParts s.title
  let path := joinWith ['/'] ps
  let es := requireGroup [] ps (objs ++ [("signals".toList, .group [("emd_group_type".toList, .num 1)])])
  let data := transpose s.arr
  let chunks ← chunksFor env s data.shape arg
  let dims ← dimObjects env path data.shape.length s.axes
  let es := setSignal path s.signal (setAttr path "emd_group_type".toList (.num 1) es)
  .ok ⟨name, [("version_major".toList, .str "0".toList), ("version_minor".toList, .str "2".toList)],
    es ++ (inGroup path "data".toList, .dset ⟨[], true, data, chunks⟩) :: dims⟩

end Verif.EmdNcem
