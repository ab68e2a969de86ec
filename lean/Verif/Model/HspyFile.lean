import Verif.Model.HierDict
/-!
Model of whole hspy/zspy files: `HierarchicalReader` of `rsciio/_hierarchical.py`
(`get_format_version` 189-206, `read` 208-278, `group2signaldict` 311-411), `HierarchicalWriter`
(`overwrite_dataset` 714-816 for plain arrays, `write_signal` 821-876) and `file_writer` of
`rsciio/hspy/_api.py` (lines 209-307) and `rsciio/zspy/_api.py` (lines 163-275). What files of
versions before 3.0 need is in `Model/HspyOld.lean`.

Groups, attributes, datasets and `dict2group`/`_group2dict` are those of `Model/HierDict.lean`. An
array is a token; its shape is `FileEnv.shape`. External: names are used literally (titles like
`.` that HDF5 treats as paths are left out); a dataset carries no attributes; text in a version
number is limited to digits and dots; files are opened and closed as the libraries say; the h5py
function that creates a dataset refuses the keyword `mode` (`TypeError`). Left out: ragged data
(`Model/Ragged.lean`), chunk shapes (`Model/SignalChunks.lean`), signals inside metadata, zarr
stores other than a folder.
-/
namespace Verif.HspyFile
open Verif.HierDict

abbrev Dict := List (Text × Val)

/-- External behaviour: that of `HierDict`, the shape of an array, the order in which the names
in a group are visited, and `str(round(version, 2))` for a version stored as a float. -/
structure FileEnv extends Env where
  shape : Nat → List Nat
  visit : List Text → List Text
  version : Nat → Text

/-- What `file_writer` receives. `attributes` holds `_lazy`. -/
structure Signal where
  package : List (Text × Text)
  axes : List Dict
  metadata : Dict
  originalMetadata : Dict
  learningResults : Dict
  attributes : Dict
  models : Dict
  data : Nat

/-! The names used in the files. -/

/-- "axis-" -/
def nAxis : Text := ['a', 'x', 'i', 's', '-']
/-- "metadata" -/
def nMetadata : Text := ['m', 'e', 't', 'a', 'd', 'a', 't', 'a']
/-- "original_metadata" -/
def nOriginal : Text := ['o', 'r', 'i', 'g', 'i', 'n', 'a', 'l', '_'] ++ nMetadata
/-- "learning_results" -/
def nLearning : Text :=
  ['l', 'e', 'a', 'r', 'n', 'i', 'n', 'g', '_', 'r', 'e', 's', 'u', 'l', 't', 's']
/-- "peak_learning_results" -/
def nPeakLearning : Text := ['p', 'e', 'a', 'k', '_'] ++ nLearning
/-- "attributes" -/
def nAttributes : Text := ['a', 't', 't', 'r', 'i', 'b', 'u', 't', 'e', 's']
/-- "data" -/
def nData : Text := ['d', 'a', 't', 'a']
/-- "_lazy" -/
def nLazy : Text := ['_', 'l', 'a', 'z', 'y']
/-- "navigate" -/
def nNavigate : Text := ['n', 'a', 'v', 'i', 'g', 'a', 't', 'e']
/-- "package" -/
def nPackage : Text := ['p', 'a', 'c', 'k', 'a', 'g', 'e']
/-- "package_version" -/
def nPackageVersion : Text := nPackage ++ ['_', 'v', 'e', 'r', 's', 'i', 'o', 'n']
/-- "Experiments" -/
def nExperiments : Text := ['E', 'x', 'p', 'e', 'r', 'i', 'm', 'e', 'n', 't', 's']
/-- "Analysis" -/
def nAnalysis : Text := ['A', 'n', 'a', 'l', 'y', 's', 'i', 's']
/-- "models" -/
def nModels : Text := ['m', 'o', 'd', 'e', 'l', 's']
/-- "_signal" -/
def nSignal : Text := ['_', 's', 'i', 'g', 'n', 'a', 'l']
/-- "file_format" -/
def nFormat : Text := ['f', 'i', 'l', 'e', '_', 'f', 'o', 'r', 'm', 'a', 't']
/-- "file_format_version" -/
def nFormatVersion : Text := nFormat ++ ['_', 'v', 'e', 'r', 's', 'i', 'o', 'n']
/-- "General" -/
def nGeneral : Text := ['G', 'e', 'n', 'e', 'r', 'a', 'l']
/-- "title" -/
def nTitle : Text := ['t', 'i', 't', 'l', 'e']
/-- "__unnamed__" -/
def nUnnamed : Text := ['_', '_', 'u', 'n', 'n', 'a', 'm', 'e', 'd', '_', '_']
/-- "ragged_shapes" -/
def nRagged : Text := ['r', 'a', 'g', 'g', 'e', 'd', '_', 's', 'h', 'a', 'p', 'e', 's']
/-- "3.3", the version written, line 32 -/
def nVersion : Text := ['3', '.', '3']

/-- `del mapping[key]`. -/
def delKey {β : Type} (k : Text) (l : List (Text × β)) : List (Text × β) :=
  l.filter fun x => decide (x.1 ≠ k)

/-- `key in mapping`. -/
def hasKey {β : Type} (k : Text) (l : List (Text × β)) : Bool := (lookup k l).isSome

/-! ### Writing -/

/-- Whether storing a value creates a dataset. -/
def needsDset (env : Env) : Val → Bool
  | .arr _ => true
  | .list l => if l.isEmpty then false else match castList env l with
    | .object => needsList env l
    | _ => true
  | .tuple l => if l.isEmpty then false else match castList env l with
    | .object => needsList env l
    | _ => true
  | .dict d => needsDict env d
  | _ => false
where
  needsList (env : Env) : List Val → Bool
    | [] => false
    | v :: vs => needsDset env v || needsList env vs
  needsDict (env : Env) : List (Text × Val) → Bool
    | [] => false
    | (_, v) :: rest => needsDset env v || needsDict env rest

/-- `dict2group(dictionary, group, **kwds)`. `mode`: the keywords contain `mode` (see
`fileWriter`), with which no dataset can be created; only dictionaries without datasets are then
modelled. -/
def storeDict (env : Env) (mode : Bool) (d : Dict) (g : Group) : Py Group :=
  if mode && needsDset.needsDict env d then .error .notImplemented else dict2group env d g

/-- `dict2group(dictionary, group.require_group(name))`. -/
def storeUnder (env : Env) (mode : Bool) (name : Text) (d : Dict) (g : Group) : Py Group :=
  match requireGroup g name with
  | .error e => .error e
  | .ok sub =>
    match storeDict env mode d sub with
    | .error e => .error e
    | .ok sub' => .ok (putItem g name (.group sub'.attrs sub'.items))

/-- Lines 833-842, one axis: the group is deleted if it exists, created and filled. -/
def writeAxis (env : Env) (mode : Bool) (i : Nat) (d : Dict) (g : Group) : Py Group :=
  storeUnder env mode (nAxis ++ decChars i) d
    { g with items := delKey (nAxis ++ decChars i) g.items }

/-- Lines 833-842. -/
def writeAxes (env : Env) (mode : Bool) : Nat → List Dict → Group → Py Group
  | _, [], g => .ok g
  | i, d :: ds, g =>
    match writeAxis env mode i d g with
    | .ok g' => writeAxes env mode (i + 1) ds g'
    | .error e => .error e

/-- Lines 851-855: the signal axes; an axis without `navigate` is a `KeyError`. -/
def checkNavigate : List Dict → Py Unit
  | [] => .ok ()
  | d :: ds => if hasKey nNavigate d then checkNavigate ds else .error .keyError

/-- `overwrite_dataset`, lines 749-816, for an array that is not ragged. A dataset that does not
match is deleted and created again. With `mode` among the keywords the creation is a `TypeError`,
after which the deletion of line 784 is a `KeyError`; only a dataset that matches is then found.
`same`: the existing dataset has the shape and type of the new one. -/
def overwriteData (mode : Bool) (same : Nat → Nat → Bool) (t : Nat) (g : Group) : Py Group :=
  if mode then
    match lookup nData g.items with
    | some (.dset (.arr t')) =>
      if same t' t then .ok (putItem g nData (.dset (.arr t))) else .error .keyError
    | _ => .error .keyError
  else .ok (putItem g nData (.dset (.arr t)))

/-- Lines 846-859: the data, unless `write_dataset` is false. -/
def writeData (mode write : Bool) (same : Nat → Nat → Bool) (s : Signal) (g : Group) : Py Group :=
  if write then
    match checkNavigate s.axes with
    | .error e => .error e
    | .ok () => overwriteData mode same s.data g
  else .ok g

/-- `group.attrs.update(signal["package_info"])`, line 831. -/
def putPackage : List (Text × Text) → Group → Group
  | [], g => g
  | (k, v) :: rest, g => putPackage rest (putAttr g k (.text v))

/-- `write_signal`, lines 831-870: everything inside the group of the signal. -/
def writeGroup (env : FileEnv) (mode write : Bool) (same : Nat → Nat → Bool) (s : Signal)
    (g : Group) : Py Group := do
  let g ← writeAxes env.toEnv mode 0 s.axes (putPackage s.package g)
  let m ← requireGroup g nMetadata                                             -- 843
  let g := putItem g nMetadata (.group m.attrs m.items)
  let g ← writeData mode write same s g                                        -- 846-859
  let g ← storeUnder env.toEnv mode nMetadata s.metadata g                     -- 864
  let g ← storeUnder env.toEnv mode nOriginal s.originalMetadata g             -- 865-866
  let g ← storeUnder env.toEnv mode nLearning s.learningResults g              -- 867-868
  storeUnder env.toEnv mode nAttributes s.attributes g                         -- 869-870

/-- `model.attrs["_signal"] = group.name` for every model in the file, lines 875-876. -/
def linkModels (name : Text) : List (Text × Node) → List (Text × Node)
  | [] => []
  | (k, .group a i) :: rest =>
    (k, .group (putKey nSignal (.text name) a) i) :: linkModels name rest
  | (k, .dset d) :: rest => (k, .dset d) :: linkModels name rest

/-- Lines 872-876: the models of the signal. -/
def writeModels (env : FileEnv) (mode : Bool) (name : Text) (models : Dict) (f : Group) :
    Py Group :=
  if models.isEmpty then .ok f
  else do
    let a ← requireGroup f nAnalysis
    let m ← requireGroup a nModels
    let m' ← storeDict env.toEnv mode models m
    let a' := putItem a nModels (.group m'.attrs (linkModels name m'.items))
    .ok (putItem f nAnalysis (.group a'.attrs a'.items))

/-- `group.name` of an experiment. -/
def expName (name : Text) : Text := ['/'] ++ nExperiments ++ ['/'] ++ name

/-- The title as the name of a group, `hspy/_api.py` lines 283-287 (`zspy/_api.py` the same). -/
def groupName (title : Text) : Text :=
  (if title.isEmpty then nUnnamed else title).map fun c => if c = '/' then '-' else c

/-- `signal["metadata"]["General"]["title"]`. -/
def titleOf (metadata : Dict) : Py Text :=
  match lookup nGeneral metadata with
  | some (.dict d) =>
    match lookup nTitle d with
    | some (.text t) => .ok t
    | some _ => .error .notImplemented
    | none => .error .keyError
  | some _ => .error .notImplemented
  | none => .error .keyError

/-- Lines 280-303 of `hspy/_api.py`: the attributes of the file, the group, the signal. `format`
is `HyperSpy` or `ZSpy`. -/
def writeFile (env : FileEnv) (format : Text) (mode write : Bool) (same : Nat → Nat → Bool)
    (s : Signal) (f : Group) : Py Group := do
  let f := putAttr (putAttr f nFormat (.text format)) nFormatVersion (.text nVersion)
  let exps ← requireGroup f nExperiments
  let title ← titleOf s.metadata
  let expg ← requireGroup exps (groupName title)
  let expg' ← writeGroup env mode write same s expg
  let exps' := putItem exps (groupName title) (.group expg'.attrs expg'.items)
  let f := putItem f nExperiments (.group exps'.attrs exps'.items)
  writeModels env mode (expName (groupName title)) s.models f

/-- The modes of `h5py.File`. -/
inductive Mode where
  | r | rplus | w | wminus | a
  deriving Repr, DecidableEq

/-- The content of the file after `h5py.File(filename, mode=mode)`; `prev` is what the file held
(`none`: no file). A file opened for reading cannot be written (`ioError` stands for the error of
the first attribute). -/
def openFile (mode : Mode) (prev : Option Group) : Py Group :=
  match mode, prev with
  | .r, _ => .error .ioError
  | .rplus, none => .error .ioError
  | .rplus, some f => .ok f
  | .w, _ => .ok ⟨[], []⟩
  | .wminus, none => .ok ⟨[], []⟩
  | .wminus, some _ => .error .ioError
  | .a, none => .ok ⟨[], []⟩
  | .a, some f => .ok f

/-- `original_path`, `hspy/_api.py` lines 251-257 (`/` joins the folder and the name). -/
def originalPath (folder fname ext : Text) : Text :=
  let ext := if ext.isEmpty || ext.head? == some '.' then ext else '.' :: ext
  if folder.isEmpty then fname ++ ext
  else if (fname ++ ext).isEmpty then folder else folder ++ ['/'] ++ fname ++ ext

/-- Lines 259-278: the handle of the lazy data is used when it belongs to the same file. `handle`
is its mode, if there is one. Result: the mode in which the content is taken (`rplus` for the
handle), and whether tracked handles are closed. -/
def chooseMode (write : Bool) (given : Option Mode) (lazy samePath : Bool)
    (handle : Option Mode) : Py (Mode × Bool) :=
  match (if lazy && samePath then handle else none) with
  | some .r => .error .ioError
  | some _ => .ok (.rplus, false)
  | none =>
    let mode := given.getD (if write then .w else .a)
    if mode ≠ .a ∧ !write then .error .valueError
    else .ok (mode, mode == .w || mode == .wminus)

/-- `file_writer` of hspy, lines 244-303. A mode given by the user stays among the keywords. -/
def fileWriter (env : FileEnv) (write : Bool) (given : Option Mode) (lazy samePath : Bool)
    (handle : Option Mode) (same : Nat → Nat → Bool) (s : Signal) (prev : Option Group) :
    Py Group := do
  let m ← chooseMode write given lazy samePath handle
  let f ← openFile m.1 prev
  writeFile env ['H', 'y', 'p', 'e', 'r', 'S', 'p', 'y'] given.isSome write same s f

/-- `file_writer` of zspy, lines 243-269. -/
def fileWriterZspy (env : FileEnv) (write : Bool) (s : Signal) (prev : Option Group) :
    Py Group := do
  let f ← openFile (if write then .w else .a) prev
  writeFile env ['Z', 'S', 'p', 'y'] false write (fun _ _ => false) s f

/-! ### Reading -/

/-- One signal as returned. -/
structure Exp where
  metadata : Dict
  originalMetadata : Dict
  attributes : Dict
  package : Text
  packageVersion : Text
  data : Nat
  axes : List Dict
  models : Dict

/-- `Version(text)` for digits and dots: the release numbers. -/
def splitDots : Text → List Text
  | [] => [[]]
  | c :: cs =>
    if c = '.' then [] :: splitDots cs
    else match splitDots cs with
      | p :: ps => (c :: p) :: ps
      | [] => [[c]]

def digitsVal (l : Text) : Nat := l.foldl (fun n c => n * 10 + (c.toNat - '0'.toNat)) 0

def parseVersion (t : Text) : Py (List Nat) :=
  if (splitDots t).all fun p => !p.isEmpty && p.all fun c => '0' ≤ c && c ≤ '9' then
    .ok ((splitDots t).map digitsVal)
  else .error .notImplemented

/-- `<` of versions: release numbers, missing ones are 0. -/
def ltVersion : List Nat → List Nat → Bool
  | [], bs => bs.any fun b => decide (b ≠ 0)
  | a :: as, bs =>
    if a < bs.headD 0 then true else if a = bs.headD 0 then ltVersion as bs.tail else false

/-- `get_format_version`, lines 189-206. -/
def formatVersion (env : FileEnv) (f : Group) : Py (List Nat) :=
  match lookup nFormatVersion f.attrs with
  | some (.text t) => parseVersion t
  | some (.scalar (.float q)) => parseVersion (env.version q)
  | some _ => .error .typeError
  | none =>
    if hasKey nExperiments f.items then .ok [1, 0]
    else if hasKey nAnalysis f.items then .ok [2, 0]
    else .error .ioError

/-- `_group2dict(group[name])`; `KeyError` without the item. A dataset has no attributes here. -/
def readUnder (env : FileEnv) (name : Text) (g : Group) : Py Dict :=
  match lookup name g.items with
  | none => .error .keyError
  | some (.dset _) => .ok []
  | some (.group a i) => group2dict env.toEnv ⟨a, i⟩

/-- The names of the groups of metadata, lines 329-334. -/
def metadataNames (version : List Nat) : Text × Text :=
  if ltVersion version [1, 2] then
    (['m', 'a', 'p', 'p', 'e', 'd', '_', 'p', 'a', 'r', 'a', 'm', 'e', 't', 'e', 'r', 's'],
     ['o', 'r', 'i', 'g', 'i', 'n', 'a', 'l', '_', 'p', 'a', 'r', 'a', 'm', 'e', 't', 'e', 'r', 's'])
  else (nMetadata, nOriginal)

/-- Lines 345-354. The attribute is used as it is. -/
def readPackage (g : Group) : Py (Text × Text) :=
  match lookup nPackage g.attrs with
  | none => .ok ([], [])
  | some (.text p) =>
    match lookup nPackageVersion g.attrs with
    | some (.text v) => .ok (p, v)
    | some _ => .error .notImplemented
    | none => .error .keyError
  | some _ => .error .notImplemented

/-- `_read_array(group, "data")`, lines 280-309; ragged data are in `Model/Ragged.lean`. -/
def readData (g : Group) : Py Nat :=
  if hasKey nRagged g.items || hasKey (pRagged ++ nData) g.items then .error .notImplemented
  else match lookup nData g.items with
    | some (.dset (.arr t)) => .ok t
    | some _ => .error .notImplemented
    | none => .error .keyError

/-- Lines 370-379: the axes `axis-i` as far as they exist. -/
def readAxes (env : FileEnv) (g : Group) : Nat → Nat → Py (List Dict)
  | _, 0 => .ok []
  | i, n + 1 =>
    match readUnder env (nAxis ++ decChars i) g with
    | .error .keyError => .ok []
    | .error e => .error e
    | .ok d =>
      match readAxes env g (i + 1) n with
      | .ok ds => .ok (d :: ds)
      | .error e => .error e

/-- A dictionary stored as an axis of old files. -/
def asDict : Val → Py Dict
  | .dict d => .ok d
  | _ => .error .notImplemented

def allDicts : List Val → Py (List Dict)
  | [] => .ok []
  | v :: vs =>
    match asDict v, allDicts vs with
    | .ok d, .ok ds => .ok (d :: ds)
    | .error e, _ => .error e
    | _, .error e => .error e

/-- Lines 369-396: the axes, or the old list of axes, sorted by their keys. -/
def axesOf (env : FileEnv) (g : Group) (ndim : Nat) : Py (List Dict) := do
  let axes ← readAxes env g 0 ndim
  if axes.length = ndim then .ok axes
  else match readUnder env (pList ++ decChars ndim ++ ['_', 'a', 'x', 'e', 's']) g with
    | .error .keyError => .error .ioError
    | .error e => .error e
    | .ok d => allDicts ((sortItems d).map Prod.snd)

/-- Lines 397-404: results under their own name in the attributes. -/
def addResults (env : FileEnv) (g : Group) (name as_ : Text) (attributes : Dict) : Py Dict :=
  if hasKey name g.items then
    match readUnder env name g with
    | .ok d => .ok (putKey as_ (.dict d) attributes)
    | .error e => .error e
  else .ok attributes

/-- Lines 406-411: the title of a signal without a title. Only a section `General` that is a
dictionary is modelled. -/
def fixTitle (md : Dict) : Py Dict :=
  match lookup nGeneral md with
  | none => .ok md
  | some (.dict d) =>
    match lookup nTitle d with
    | some (.text t) =>
      if t = nUnnamed then .ok (putKey nGeneral (.dict (putKey nTitle (.text []) d)) md)
      else .ok md
    | _ => .ok md
  | some _ => .error .notImplemented

/-- Lines 340-344. -/
def readAttributes (env : FileEnv) (g : Group) : Py Dict :=
  if hasKey nAttributes g.items then readUnder env nAttributes g else .ok []

/-- `group2signaldict`, lines 329-411, and the translation of old files (`upgrade`, applied to
the group, the metadata and the attributes). -/
def readSignal (env : FileEnv) (lazy : Bool) (version : List Nat)
    (upgrade : List Nat → Group → Dict → Dict → Py (Dict × Dict)) (g : Group) : Py Exp := do
  let md ← readUnder env (metadataNames version).1 g
  let om ← readUnder env (metadataNames version).2 g
  let att ← readAttributes env g
  let pk ← readPackage g
  let data ← readData g
  let att := putKey nLazy (.scalar (.bool lazy)) att                           -- 357-367
  let axes ← axesOf env g (env.shape data).length
  let att ← addResults env g nLearning nLearning att
  let att ← addResults env g nPeakLearning nPeakLearning att
  let md ← fixTitle md
  let r ← upgrade version g md att
  .ok ⟨r.1, om, r.2, pk.1, pk.2, data, axes, []⟩

/-- Lines 232-244: one model: its dictionary, and the name of its signal if it has one. -/
def readModel (env : FileEnv) (n : Node) : Py (Option Text × Dict) :=
  match n with
  | .dset _ => .ok (none, [])
  | .group a i =>
    match group2dict env.toEnv ⟨a, i⟩ with
    | .error e => .error e
    | .ok d =>
      match lookup nSignal a with
      | some (.text key) => .ok (some key, delKey nSignal d)
      | some _ => .error .notImplemented
      | none => .ok (none, d)

/-- Lines 231-244, all models in the order of the names. -/
def readModels (env : FileEnv) (items : List (Text × Node)) :
    List Text → Py (List (Text × Option Text × Dict))
  | [] => .ok []
  | name :: names =>
    match lookup name items with
    | none => .error .keyError
    | some n =>
      match readModel env n, readModels env items names with
      | .ok m, .ok ms => .ok ((name, m.1, m.2) :: ms)
      | .error e, _ => .error e
      | _, .error e => .error e

/-- `"Analysis/models" in self.file` and its models; a dataset in place of the group of models is
an `IOError` (lines 245-246). -/
def modelsOf (env : FileEnv) (f : Group) : Py (List (Text × Option Text × Dict)) :=
  match lookup nAnalysis f.items with
  | some (.group _ i) =>
    match lookup nModels i with
    | some (.group _ ms) => readModels env ms (env.visit (ms.map Prod.fst))
    | some (.dset _) => .error .ioError
    | none => .ok []
  | _ => .ok []

/-- Lines 251-255: the groups of the experiments that hold `data`. -/
def experimentNames (items : List (Text × Node)) : List Text → List Text
  | [] => []
  | name :: names =>
    match lookup name items with
    | some (.group _ i) =>
      if hasKey nData i then name :: experimentNames items names
      else experimentNames items names
    | _ => experimentNames items names

/-- Lines 260-265: the models of one experiment, taken from the end of the list. -/
def takeModels (name : Text) : List (Text × Text × Dict) → Dict × List (Text × Text × Dict)
  | [] => ([], [])
  | (m, key, d) :: rest =>
    let r := takeModels name rest
    if key = name then (putKey m (.dict d) r.1, r.2) else (r.1, (m, key, d) :: r.2)

/-- Lines 256-267. -/
def readExps (env : FileEnv) (lazy : Bool) (version : List Nat)
    (upgrade : List Nat → Group → Dict → Dict → Py (Dict × Dict)) (items : List (Text × Node)) :
    List Text → List (Text × Text × Dict) → Py (List Exp × List (Text × Text × Dict))
  | [], ms => .ok ([], ms)
  | name :: names, ms =>
    match lookup name items with
    | some (.group a i) =>
      match readSignal env lazy version upgrade ⟨a, i⟩ with
      | .error e => .error e
      | .ok exp =>
        match readExps env lazy version upgrade items names (takeModels (expName name) ms).2 with
        | .error e => .error e
        | .ok r => .ok ({ exp with models := (takeModels (expName name) ms).1 } :: r.1, r.2)
    | _ => .error .keyError

/-- The models with and without a signal, lines 231-244. -/
def withSignal : List (Text × Option Text × Dict) → List (Text × Text × Dict)
  | [] => []
  | (m, some key, d) :: rest => (m, key, d) :: withSignal rest
  | (_, none, _) :: rest => withSignal rest

def withoutSignal : List (Text × Option Text × Dict) → List (Text × Dict)
  | [] => []
  | (m, none, d) :: rest => (m, d) :: withoutSignal rest
  | (_, some _, _) :: rest => withoutSignal rest

/-- What is returned: the signals and the models on their own. -/
structure Loaded where
  exps : List Exp
  standalone : List (Text × Dict)

/-- Lines 251-267: the experiments of the file. -/
def readExperiments (env : FileEnv) (lazy : Bool) (version : List Nat)
    (upgrade : List Nat → Group → Dict → Dict → Py (Dict × Dict)) (f : Group)
    (ms : List (Text × Text × Dict)) : Py (List Exp × List (Text × Text × Dict)) :=
  match lookup nExperiments f.items with
  | some (.group _ i) =>
    readExps env lazy version upgrade i (experimentNames i (env.visit (i.map Prod.fst))) ms
  | some (.dset _) => .error .notImplemented
  | none => .ok ([], ms)

/-- `HierarchicalReader(file).read(lazy)`, lines 208-278. -/
def readFile (env : FileEnv) (lazy : Bool)
    (upgrade : List Nat → Group → Dict → Dict → Py (Dict × Dict)) (f : Group) : Py Loaded := do
  let version ← formatVersion env f
  let ms ← modelsOf env f
  let r ← readExperiments env lazy version upgrade f (withSignal ms)
  let standalone := withoutSignal ms ++ r.2.map fun m => (m.1, m.2.2)
  if r.1.isEmpty && standalone.isEmpty then .error .ioError
  else .ok ⟨r.1, standalone⟩

end Verif.HspyFile
