import Verif.Model.EmdNcem
/-! What EMD files of the Berkeley variant hold and what is expected of signals, for C112 and C113. -/
namespace Verif.Spec.EmdNcem
open Verif Verif.EmdNcem

/-- The text occurs in another one. -/
def Has (a b : Text) : Prop := a <:+: b

/-- A name that is a part of a path. -/
def Part (p : Text) : Prop := p ≠ [] ∧ p ≠ ['.'] ∧ '/' ∉ p

/-- A path: parts with slashes between them. -/
def Path (p : Text) : Prop := ∃ ps : List Text, ps ≠ [] ∧ (∀ q ∈ ps, Part q) ∧ p = joinWith ['/'] ps

/-- Dataset `n` of group `g`, as a path. -/
def inside (g n : Text) : Text := g ++ '/' :: n

/-- Number `i` of a dimension in its name. -/
def dim (i : Nat) : Text := 'd' :: 'i' :: 'm' :: decChars i

/-- What `pint` makes of a unit: the text itself, if it does not know it. -/
def Canon (env : Env) (u w : Text) : Prop := env.pint u = some w ∨ env.pint u = none ∧ w = u

/-- The units in brackets in a text, without underscores. -/
inductive Bracketed : Text → List Text → Prop
  | none {t : Text} : '[' ∉ t → Bracketed t []
  | cons {pre a t : Text} {l : List Text} : '[' ∉ pre → a ≠ [] → ']' ∉ a → '\n' ∉ a → Bracketed t l →
      Bracketed (pre ++ '[' :: a ++ ']' :: t) (a.filter (· ≠ '_') :: l)

/-- Units of an axis, from the text in the file. Without brackets the text counts, with the letter Å for A. -/
def UnitText (env : Env) (u w : Text) : Prop :=
  '[' ∉ u ∧ (u = "A".toList ∧ Canon env "Å".toList w ∨ u = "A^-1".toList ∧ Canon env "Å^-1".toList w ∨
    u ≠ "A".toList ∧ u ≠ "A^-1".toList ∧ Canon env u w) ∨
  ∃ l, l ≠ [] ∧ Bracketed u l ∧ Canon env (joinWith " * ".toList l) w

/-- The attribute is missing, or it is a text. -/
def HasText (a : Attrs) (k : Text) (t : Option Text) : Prop :=
  getKw k a = none ∧ t = none ∨ ∃ u, t = some u ∧ (getKw k a = some (.str u) ∨ getKw k a = some (.bytes (some u)))

/-- The positions in a dataset: a straight line, or no numbers. -/
def Line (env : Env) (d : Dset) (offset scale : ℚ) : Prop :=
  (d.numeric = true ∧ ∃ (m : Nat) (x : Nat → ℚ), d.arr.shape = [m + 2] ∧
    d.arr.data = (List.range (m + 2)).map (fun i => Val.num (x i)) ∧
    x 0 = offset ∧ (∀ i, i ≤ m → env.sub (x (i + 1)) (x i) = scale) ∧ env.mean (List.replicate (m + 1) scale) = scale) ∨
  ((d.numeric = false ∨ d.arr.shape = []) ∧ offset = 0 ∧ scale = 1)

/-- What an axis of a dataset is about. -/
structure Dim where
  offset : ℚ
  scale : ℚ
  name : Option Text
  units : Option Text

/-- The dataset at a path describes an axis. -/
def HoldsDim (env : Env) (f : File) (p : Text) (x : Dim) : Prop :=
  ∃ d, getKw p f.entries = some (.dset d) ∧ Line env d x.offset x.scale ∧ HasText d.attrs "name".toList x.name ∧
    ∃ u, HasText d.attrs "units".toList u ∧ (u = none ∧ x.units = none ∨ ∃ t w, u = some t ∧ x.units = some w ∧ UnitText env t w)

/-- A dataset with values and axes, in the order of the file. -/
structure Rec where
  group : Text
  name : Text
  shape : List Nat
  val : List Nat → Val
  dims : List Dim

/-- Dimensions are counted from zero (py4DSTEM), or from one. -/
def FromZero (f : File) (g : Text) : Prop := getKw (inside g (dim 0)) f.entries ≠ none

/-- The file holds the values of a dataset. -/
def HoldsData (f : File) (r : Rec) : Prop :=
  Path r.group ∧ Part r.name ∧ r.shape ≠ [] ∧ ∃ d, getKw (inside r.group r.name) f.entries = some (.dset d) ∧
    d.arr = ⟨r.shape, ravel r.shape r.val⟩

/-- The file holds a dataset: its values, and one dimension for each of its axes. -/
def Holds (env : Env) (f : File) (r : Rec) : Prop :=
  HoldsData f r ∧ r.dims.length = r.shape.length ∧
    ∀ j x, r.dims[j]? = some x → (FromZero f r.group → HoldsDim env f (inside r.group (dim j)) x) ∧
      (¬ FromZero f r.group → HoldsDim env f (inside r.group (dim (j + 1))) x)

/-- Files of the program prismatic. -/
def Prismatic (f : File) : Prop := getKw "4DSTEM_simulation".toList f.entries ≠ none

/-- The order of the axes is reversed: not for dimensions counted from zero, and not for `datacube`. -/
def Reversed (f : File) (r : Rec) : Prop := ¬ FromZero f r.group ∧ r.name ≠ "datacube".toList

/-- Axes of the signal: prismatic files have two of them, the detector or the image. -/
def Detector (f : File) (r : Rec) (j : Nat) : Prop :=
  ¬ Prismatic f ∨ (r.name = "datacube".toList ∧ (FromZero f r.group ∧ (j = 3 ∨ j = 4) ∨ ¬ FromZero f r.group ∧ (j = 2 ∨ j = 3))) ∨
    (r.name ≠ "datacube".toList ∧ (FromZero f r.group ∧ (j = 1 ∨ j = 2) ∨ ¬ FromZero f r.group ∧ (j = 0 ∨ j = 1)))

/-- An axis shows axis `j` of a dataset. -/
def ShowsDim (f : File) (r : Rec) (j i : Nat) (x : Dim) (a : Axis) : Prop :=
  a.index = i ∧ a.name = x.name ∧ a.units = x.units ∧ some a.size = r.shape[j]? ∧ a.offset = x.offset ∧
    a.scale = some x.scale ∧ (a.navigate = false ↔ Detector f r j)

/-- The place of axis `j` of a dataset with `n` axes. -/
def Place (f : File) (r : Rec) (n j i : Nat) : Prop :=
  (Reversed f r → i + j + 1 = n) ∧ (¬ Reversed f r → i = j)

/-- The place of an index. -/
def PlaceIdx (f : File) (r : Rec) (idx idx' : List Nat) : Prop :=
  (Reversed f r → idx' = idx.reverse) ∧ (¬ Reversed f r → idx' = idx)

/-- Array and axes show a dataset. -/
def Shows (f : File) (r : Rec) (s : Sig) : Prop :=
  PlaceIdx f r r.shape s.arr.shape ∧ s.arr.data.length = size s.arr.shape ∧
  (∀ idx idx', InBounds r.shape idx → PlaceIdx f r idx idx' → s.arr.data[flatIndex s.arr.shape idx']? = some (r.val idx)) ∧
  s.axes.length = r.shape.length ∧
  ∀ j i x, r.dims[j]? = some x → Place f r r.shape.length j i → ∃ a, s.axes[i]? = some a ∧ ShowsDim f r j i x a

/-- The title: the name without `_depth` at its end. -/
def Title (t w : Text) : Prop :=
  (¬ Has "_depth".toList t ∧ w = t) ∨ (t = w ++ "_depth".toList ∧ ¬ Has "_depth".toList w)

/-- The last part of a path. -/
def Last (p t : Text) : Prop := '/' ∉ t ∧ (p = t ∨ ∃ q, p = inside q t)

/-- Names of parameters of prismatic. -/
def long : List (String × String) := [("i", "filenameAtoms"), ("a", "algorithm"), ("fx", "interpolationFactorX"),
  ("fy", "interpolationFactorY"), ("F", "numFP"), ("ns", "numSlices"), ("te", "includeThermalEffects"),
  ("oc", "includeOccupancy"), ("3D", "save3DOutput"), ("4D", "save3DOutput"), ("DPC", "saveDPC_CoM"),
  ("ps", "savePotentialSlices"), ("nqs", "nyquistSampling"), ("px", "realspacePixelSizeX"),
  ("py", "realspacePixelSizeY"), ("P", "potBound"), ("s", "sliceThickness"), ("zs", "zStart"), ("E", "E0"),
  ("A", "alphaBeamMax"), ("rx", "probeStepX"), ("ry", "probeStepY"), ("df", "probeDefocus"),
  ("sa", "probeSemiangle"), ("d", "detectorAngleStep"), ("tx", "probeXtilt"), ("ty", "probeYtilt"),
  ("c", "cellDimension"), ("t", "tile"), ("wx", "scanWindowX"), ("wy", "scanWindowY"), ("wxr", "scanWindowX_r"),
  ("wyr", "scanWindowY_r"), ("2D", "integrationAngle")]

/-- The long name of a parameter; unknown ones keep theirs. -/
def Long (k k' : Text) : Prop :=
  (∃ e ∈ long, e.1.toList = k ∧ e.2.toList = k') ∨ ((∀ e ∈ long, e.1.toList ≠ k) ∧ k' = k)

/-- The parameters of a prismatic file under their long names, which are all different. -/
def Parameters (a b : Attrs) : Prop :=
  ∀ k' v, getKw k' b = some v ↔ ∃ k, (k, v) ∈ a ∧ Long k k'

/-- The parameters with the same long name are not both there. -/
def Distinct (a : Attrs) : Prop := (a.map Prod.fst).Nodup ∧ ∀ k ∈ a.map Prod.fst, ∀ l ∈ a.map Prod.fst, ∀ k', Long k k' → Long l k' → k = l

/-- Where prismatic keeps its parameters. -/
def parameterPath : Text := "4DSTEM_simulation/metadata/metadata_0/original/simulation_parameters".toList

/-- The original metadata: version, attributes of four groups, and parameters of prismatic. -/
def ShowsOriginal (f : File) (o : Original) : Prop :=
  (∀ a b, getKw "version_major".toList f.attrs = some (.str a) → getKw "version_minor".toList f.attrs = some (.str b) →
    o.version = some (a ++ '.' :: b)) ∧
  (∀ n a, (n, a) ∈ o.groups ↔ n ∈ ["microscope".toList, "sample".toList, "user".toList, "comments".toList] ∧
    (getKw n f.entries = some (.group a) ∨ ∃ d, getKw n f.entries = some (.dset d) ∧ d.attrs = a)) ∧
  (¬ Prismatic f → o.simulation = none) ∧
  (Prismatic f → ∀ a, getKw parameterPath f.entries = some (.group a) → Distinct a → ∃ b, o.simulation = some b ∧ Parameters a b)

/-- Metadata of a signal from a group `g`, with a title from the text `t`. -/
def ShowsMeta (f : File) (g t : Text) (s : Sig) : Prop :=
  (∀ l w, Last t l → Title l w → s.title = w) ∧ Last f.name s.filename ∧
  (Has "CBED".toList g → s.signalType = "electron_diffraction".toList) ∧ (¬ Has "CBED".toList g → s.signalType = []) ∧
  ShowsOriginal f s.original

/-- Prismatic files come with their parameters. -/
def Complete (f : File) : Prop := Prismatic f → ∃ a, getKw parameterPath f.entries = some (.group a)

/-- The names of datasets with data. -/
def words : List String := ["data", "counted_datacube", "datacube", "diffractionslice", "realslice", "pointlistarray", "pointlist"]

def DataName (n : Text) : Prop := ∃ w ∈ words, w.toList <+: n

/-- The value of an attribute that stands for yes. -/
def Yes (v : V) : Prop := (∃ t, v = .str t ∧ t ≠ []) ∨ (∃ t, v = .bytes t ∧ t ≠ some []) ∨ (∃ q, v = .num q ∧ q ≠ 0) ∨ ∃ q, v = .list [q] ∧ q ≠ 0

/-- An array with several elements is neither yes nor no. -/
def Clear (v : V) : Prop := ∀ a b l, v ≠ .list (a :: b :: l)

/-- Attributes of the object at a path. -/
def AttrsAt (f : File) (p : Text) (a : Attrs) : Prop :=
  getKw p f.entries = some (.group a) ∨ ∃ d, getKw p f.entries = some (.dset d) ∧ d.attrs = a

/-- The object is a dataset with data: by its name, and by an attribute of its group. -/
def IsData (f : File) (p : Text) (o : Obj) : Prop :=
  (∃ d, o = .dset d) ∧ ∃ g n a v, p = inside g n ∧ '/' ∉ n ∧ DataName n ∧ AttrsAt f g a ∧ getKw "emd_group_type".toList a = some v ∧ Yes v

/-- The file is in order: datasets with such a name are in a group, and the attribute is clear. -/
def Ordered (f : File) : Prop :=
  (∀ e ∈ f.entries, Path e.1) ∧ ∀ p d, (p, Obj.dset d) ∈ f.entries → (∀ n, Last p n → DataName n →
    ∃ g a, p = inside g n ∧ AttrsAt f g a ∧ ∀ v, getKw "emd_group_type".toList a = some v → Clear v)

open Classical in
/-- The paths of all datasets with data, in the order of the file. -/
def AllData (f : File) (ps : List Text) : Prop := ps = (f.entries.filter fun e => IsData f e.1 e.2).map Prod.fst

/-- The file is of the Berkeley variant. -/
def Berkeley (f : File) : Prop :=
  (∃ v w, getKw "version_major".toList f.attrs = some v ∧ getKw "version_minor".toList f.attrs = some w) ∨
  ∃ n a v w, (n, Obj.group a) ∈ f.entries ∧ '/' ∉ n ∧ getKw "version_major".toList a = some v ∧ getKw "version_minor".toList a = some w

/-- The file is not of the other variant. -/
def NotVelox (env : Env) (f : File) : Prop :=
  getKw "Version".toList f.entries = none ∨
  ∃ o t, getKw "Version".toList f.entries = some o ∧ env.format o = .ok t ∧ t ≠ "Velox".toList ∧ t ≠ "DevelopersKit".toList

/-- The part of the paths that a stack has in common: the group, in prismatic files without its number. -/
def Common (f : File) (r : Rec) (base : Text) : Prop :=
  (Prismatic f ∧ ¬ Has "ppotential".toList (inside r.group r.name) → ∃ t, t.length = 4 ∧ r.group = base ++ t) ∧
  (¬ (Prismatic f ∧ ¬ Has "ppotential".toList (inside r.group r.name)) → base = r.group)

/-- A stack: the first dataset, the others, and what they have in common. -/
structure Stack where
  first : Rec
  more : List Rec
  base : Text

def Rec.path (r : Rec) : Text := inside r.group r.name
def Stack.all (s : Stack) : List Rec := s.first :: s.more

/-- The file holds a stack: datasets of the same name and shape, without axes of length one. -/
def HoldsStack (env : Env) (f : File) (s : Stack) : Prop :=
  Holds env f s.first ∧ (∀ r ∈ s.more, HoldsData f r ∧ r.name = s.first.name ∧ r.shape = s.first.shape) ∧
  (s.more ≠ [] → ¬ FromZero f s.first.group ∧ ∀ n ∈ s.first.shape, n ≠ 1)

/-- Depth of the slices, from the parameters of the simulation. -/
def Depth (b : Attrs) (n : Nat) (offset scale : ℚ) (units : Option Text) : Prop :=
  ∃ (slices thick start tile cell : ℚ) (ts cs : List ℚ), getKw "numSlices".toList b = some (.num slices) ∧
    getKw "sliceThickness".toList b = some (.num thick) ∧ getKw "zStart".toList b = some (.num start) ∧
    getKw "tile".toList b = some (.list ts) ∧ ts[2]? = some tile ∧ getKw "cellDimension".toList b = some (.list cs) ∧ cs[0]? = some cell ∧
    ((|tile * cell - n * (slices * thick)| ≤ max |tile * cell| |n * (slices * thick)| / 10000 ∧ units = some "Å".toList ∧
        scale = slices * thick ∧ (start = 0 → offset = scale) ∧ (start ≠ 0 → offset = start)) ∨
      (¬ |tile * cell - n * (slices * thick)| ≤ max |tile * cell| |n * (slices * thick)| / 10000 ∧ units = none ∧ scale = 1 ∧ offset = 0))

/-- The axis of a stack: numbers, or the depth in prismatic files. -/
def ShowsStackAxis (f : File) (n : Nat) (key : Text) (s : Sig) (a : Axis) : Prop :=
  a.index = 0 ∧ a.name = some key ∧ a.size = n ∧ a.navigate = true ∧
  (¬ (Prismatic f ∧ Has "depth".toList key) → a.offset = 0 ∧ a.scale = some 1 ∧ a.units = none) ∧
  (Prismatic f ∧ Has "depth".toList key → ∃ b sc, s.original.simulation = some b ∧ a.scale = some sc ∧ Depth b n a.offset sc a.units)

/-- The signal shows a stack: the first index counts the datasets. -/
def ShowsStack (f : File) (t : Stack) (s : Sig) : Prop :=
  (∃ sh, PlaceIdx f t.first t.first.shape sh ∧ s.arr.shape = (t.more.length + 1) :: sh) ∧
  s.arr.data.length = size s.arr.shape ∧
  (∀ k r idx idx', t.all[k]? = some r → InBounds r.shape idx → PlaceIdx f t.first idx idx' →
    s.arr.data[flatIndex s.arr.shape (k :: idx')]? = some (r.val idx)) ∧
  s.axes.length = t.first.shape.length + 1 ∧
  (∀ l, Last t.base l → ∃ a, s.axes[0]? = some a ∧ ShowsStackAxis f (t.more.length + 1) l s a) ∧
  ∀ j i x, t.first.dims[j]? = some x → Place f t.first t.first.shape.length j i →
    ∃ a, s.axes[i + 1]? = some a ∧ ShowsDim f t.first j (i + 1) x a

/-- The datasets with data fall into stacks. -/
def Stacked (f : File) (ps : List Text) (ss : List Stack) : Prop :=
  ps = (ss.flatMap Stack.all).map Rec.path ∧ ps.Nodup ∧
  (∀ s ∈ ss, Common f s.first s.base ∧ ∀ r ∈ s.more, Has s.base r.path) ∧
  ss.Pairwise fun s t => ∀ r ∈ t.all, ¬ Has s.base r.path

/-- The parameters that the depth of a stack is taken from. -/
def HoldsDepth (f : File) (s : Stack) : Prop :=
  ∀ l, Prismatic f → s.more ≠ [] → Last s.base l → Has "depth".toList l → ∃ a, getKw parameterPath f.entries = some (.group a) ∧ Distinct a ∧
    ∀ b, Parameters a b → ∃ offset scale units, Depth b (s.more.length + 1) offset scale units

/-! ### Writing -/

/-- A unit that the file keeps. -/
def Unit (u : Text) : Prop := u ≠ [] ∧ '_' ∉ u ∧ ']' ∉ u ∧ '\n' ∉ u

/-- Values that HDF5 stores. -/
def Stored (d : List (Text × Option V)) : Prop := ∀ e ∈ d, e.2 ≠ none

/-- A signal that can be written: the data fits to the shape, no axis is empty, there is an axis for each dimension, the title
is no path, and the attributes can be stored. -/
structure Writable (env : Env) (s : In) : Prop where
  shape : s.arr.shape ≠ []
  pos : ∀ n ∈ s.arr.shape, 0 < n
  data : s.arr.data.length = size s.arr.shape
  item : 0 < s.itemsize
  axes : s.axes.length = s.arr.shape.length
  title : '/' ∉ s.title ∧ s.title ≠ ['.']
  units : ∀ a ∈ s.axes, ∀ u, a.units = some u → Unit u
  scale : ∀ a ∈ s.axes, env.sub (env.add a.offset a.scale) a.offset = a.scale
  signal : ∀ e ∈ s.signal, e.1 ≠ "emd_group_type".toList
  original : ∀ n ∈ ["microscope".toList, "sample".toList, "user".toList, "comments".toList],
    getKw n s.original = none ∨ ∃ d, getKw n s.original = some (.dict d) ∧ Stored d

/-- The group of a signal. -/
def signalGroup (s : In) : Text := inside "signals".toList (if s.title = [] then "__unnamed__".toList else s.title)

/-- The chunks of the dataset: those asked for, in reverse order, as the axes are; else those of the dask array; else some that fit. -/
def ChunksFit (s : In) (arg : ChunkArg) (c : SignalChunks.Chunks) : Prop :=
  (arg = .auto → c = .auto) ∧ (∀ l, arg = .given l → c = .shape l.reverse) ∧
  (arg = .none → ∀ l, s.dask = some l → c = .shape (l.reverse.map fun b => b.headD 0)) ∧
  (arg = .none → s.dask = none → ∃ l : List Nat, c = .shape l ∧ l.length = s.arr.shape.length ∧
    ∀ (i a n : Nat), l[i]? = some a → s.arr.shape.reverse[i]? = some n → 1 ≤ a ∧ a ≤ n)

/-- The file holds the signal: version, data with the axes in reverse order, and attributes of the signal. -/
def Stores (s : In) (arg : ChunkArg) (f : File) : Prop :=
  getKw "version_major".toList f.attrs = some (.str "0".toList) ∧ getKw "version_minor".toList f.attrs = some (.str "2".toList) ∧
  (∃ d, getKw (inside (signalGroup s) "data".toList) f.entries = some (.dset d) ∧ d.arr.shape = s.arr.shape.reverse ∧
    d.arr.data.length = size s.arr.shape ∧
    (∀ idx v, InBounds s.arr.shape idx → s.arr.data[flatIndex s.arr.shape idx]? = some v →
      d.arr.data[flatIndex d.arr.shape idx.reverse]? = some v) ∧ ChunksFit s arg d.chunks) ∧
  ∃ a, getKw (signalGroup s) f.entries = some (.group a) ∧ getKw "emd_group_type".toList a = some (.num 1) ∧
    ∀ k v, k ≠ "emd_group_type".toList → (getKw k a = some v ↔ ∃ d₁ d₂, s.signal = d₁ ++ (k, some v) :: d₂ ∧ ∀ w, (k, some w) ∉ d₂)

/-- An axis came back: name and units are texts. -/
def AxisBack (env : Env) (i n : Nat) (x : InAxis) (a : Axis) : Prop :=
  a.index = i ∧ a.size = n ∧ a.offset = x.offset ∧ a.scale = some x.scale ∧
  (∀ t, x.name = some t → a.name = some t) ∧ (x.name = none → a.name = some []) ∧
  ∃ w, a.units = some w ∧ (∀ u, x.units = some u → Canon env u w) ∧ (x.units = none → Canon env [] w)

/-- The signal came back. -/
def Back (env : Env) (s : In) (r : Sig) : Prop :=
  r.arr = s.arr ∧ r.axes.length = s.axes.length ∧
  (∀ i x, s.axes[i]? = some x → ∃ a n, r.axes[i]? = some a ∧ s.arr.shape[i]? = some n ∧ AxisBack env i n x a) ∧
  (s.title ≠ [] → ¬ Has "_depth".toList s.title → r.title = s.title) ∧ (s.title = [] → r.title = "__unnamed__".toList) ∧
  r.original.version = some "0.2".toList ∧
  ∀ n ∈ ["microscope".toList, "sample".toList, "user".toList, "comments".toList], ∃ a, (n, a) ∈ r.original.groups ∧
    ∀ k v, getKw k a = some v ↔ ∃ d, getKw n s.original = some (.dict d) ∧
      ∃ d₁ d₂, d = d₁ ++ (k, some v) :: d₂ ∧ k ∉ d₂.map Prod.fst

end Verif.Spec.EmdNcem
