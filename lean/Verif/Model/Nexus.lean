import Verif.Py.Assoc
import Verif.Py.Lines
import Verif.Py.IntLit
import Mathlib.Algebra.Order.Ring.Rat
import Mathlib.Data.List.Infix
/-!
Model of `rsciio/nexus/_api.py` (NeXus files, reading and writing) and of `list_datasets_in_file` and
`read_metadata_from_file` in `rsciio/utils/hdf5.py`.

A file is the tree of its groups, with the target below every link; links in circles and links without a
target are not modelled. The children of a group are in the order in which HDF5 gives them, by name.
Byte strings are the texts that they are decoded to. Names have no slash and are not a dot; the object at a path is
the one that was found there. Numbers are rationals and arithmetic on them is exact. `set` gives its
elements in an order that is external. Not modelled: chunks and lazy arrays, compression, axes with values
in more than one dimension, lists of dictionaries in a dictionary with `attrs` and `value`, signals within
the metadata together with `metadata_key`, log messages.
-/
namespace Verif.Nexus
open Verif

/-- Contents of datasets and attributes: scalars (numbers, byte strings, texts of variable length) and arrays of them. -/
inductive Leaf
  | num (q : ℚ) | bytes (t : Text) | str (t : Text)
  | nums (shape : List Nat) (l : List ℚ) | texts (shape : List Nat) (l : List Text) | objs (shape : List Nat) (l : List Text)
  deriving DecidableEq

def Leaf.shape : Leaf → List Nat
  | .nums s _ => s
  | .texts s _ => s
  | .objs s _ => s
  | _ => []

def Leaf.size (v : Leaf) : Nat := v.shape.prod

abbrev Attrs := List (Text × Leaf)

/-- Objects of the file. -/
inductive Node
  | ds (attrs : Attrs) (v : Leaf)
  | grp (attrs : Attrs) (kids : List (Text × Node))
  | soft (path : Text) (n : Node)
  | ext (n : Node)

abbrev Kids := List (Text × Node)

/-- Values in Python. -/
inductive R
  | num (q : ℚ) | str (t : Text)
  | nums (shape : List Nat) (l : List ℚ) | texts (shape : List Nat) (l : List Text) | objs (shape : List Nat) (l : List Text)
  | dict (d : List (Text × R)) | list (l : List R)

abbrev Dict := List (Text × R)

/-! ### Values -/

/-- `_byte_to_string`, lines 43-60. -/
def clean (t : Text) : Text := rstripBy isSpace (t.filter (· ≠ '\x00'))

/-- `_parse_from_file` of an attribute, lines 63-106. -/
def parseAttr : Leaf → R
  | .num q => .num q
  | .bytes t => .str (clean t)
  | .str t => .str t
  | .nums s l => if s = [1] then (match l with | [q] => .num q | _ => .nums s l) else .nums s l
  | .texts s l => if s = [1] then (match l with | [t] => .str (clean t) | _ => .texts s l) else .texts s l
  | .objs s l => if s = [1] then (match l with | [t] => .str t | _ => .objs s l) else .objs s l

/-- `value[...].item()` and the decoding, lines 85-103. -/
def item : Leaf → Py R
  | .num q => .ok (.num q)
  | .bytes t => .ok (.str (clean t))
  | .str t => .ok (.str (clean t))
  | .nums _ [q] => .ok (.num q)
  | .texts _ [t] => .ok (.str (clean t))
  | .objs _ [t] => .ok (.str (clean t))
  | _ => .error .valueError

/-- An array as it is. -/
def whole : Leaf → R
  | .num q => .num q
  | .bytes t => .str t
  | .str t => .str t
  | .nums s l => .nums s l
  | .texts s l => .texts s l
  | .objs s l => .objs s l

/-- `_parse_from_file` of a dataset, lines 63-106. -/
def parseDs (v : Leaf) : Py R := if v.size < 2 then item v else .ok (whole v)

/-- `sub in t`. -/
def contains (sub t : Text) : Bool := decide (sub <:+: t)

/-- `t.startswith(s)`. -/
def starts (s : String) (t : Text) : Bool := s.toList.isPrefixOf t

/-- `_text_split`, lines 140-162; only the first empty piece is removed. -/
def textSplit (seps : List Char) (t : Text) : List Text :=
  (seps.foldl (fun stack c => stack.flatMap (splitChar c)) [t]).erase []

/-- `a["NX_class"] in [b"NXdata", "NXdata"]`, false without the attribute. -/
def isData (a : Attrs) : Bool :=
  match getKw "NX_class".toList a with
  | some (.bytes t) => t = "NXdata".toList
  | some (.str t) => t = "NXdata".toList
  | _ => false

/-! ### Search for datasets -/

/-- `_getlink`, lines 165-191; `soft`: the path of the soft link, `a`: the attributes of the group with the link. -/
def getlink (soft : Option Text) (a : Attrs) (rootkey : Text) : Py (Option Text) :=
  match getKw "target".toList a with
  | none => .ok soft
  | some v => match parseAttr v with
    | .str t =>
      let t := if starts "/" t then t else '/' :: t
      .ok (if t = rootkey then none else some t)
    | _ => .error .attributeError

/-- What was found: NXdata or a dataset, its path, the object, the group with it, and whether it is no link. -/
structure Found where
  nx : Bool
  path : Text
  attrs : Attrs
  kids : Kids
  value : Leaf
  parentAttrs : Attrs
  parentKids : Kids
  direct : Bool

/-- A group that is NXdata with a signal, lines 766-773. -/
def foundGroup (path : Text) (a : Attrs) (kids : Kids) (pa : Attrs) (pk : Kids) (target : Option Text) : List Found :=
  if isData a && (getKw "signal".toList a).isSome then [⟨true, path, a, kids, .num 0, pa, pk, target.isNone⟩] else []

/-- A dataset, lines 780-786. The type of the elements is never `str` or `object`, but a type of numpy, so that all are found. -/
def foundDs (soft : Option Text) (path : Text) (a : Attrs) (v : Leaf) (pa : Attrs) (pk : Kids) : Py (List Found) :=
  if v.size ≥ 2 then do
    let target ← getlink soft pa path
    return [⟨false, path, a, [], v, pa, pk, target.isNone⟩]
  else return []

mutual
/-- `find_data_in_tree`, lines 758-786. -/
def findKids (hard : Bool) (pa : Attrs) (pk : Kids) (root : Text) : List (Text × Node) → Py (List Found)
  | [] => .ok []
  | (k, n) :: l =>
    match findKid hard pa pk none (root ++ '/' :: k) n, findKids hard pa pk root l with
    | .ok a, .ok b => .ok (a ++ b)
    | .error e, _ => .error e
    | .ok _, .error e => .error e
/-- One object. -/
def findKid (hard : Bool) (pa : Attrs) (pk : Kids) (soft : Option Text) (path : Text) : Node → Py (List Found)
  | .ds a v => foundDs soft path a v pa pk
  | .grp a kids =>
    match getlink soft pa path with
    | .error e => .error e
    | .ok target =>
      if hard && target.isSome then .ok (foundGroup path a kids pa pk target)
      else match findKids hard a kids path kids with
        | .ok l => .ok (foundGroup path a kids pa pk target ++ l)
        | .error e => .error e
  | .soft p n => findKid hard pa pk (some p) path n
  | .ext n => findKid hard pa pk soft path n
end

/-- Attributes and children of the file. -/
def rootOf : Node → Attrs × Kids
  | .grp a k => (a, k)
  | _ => ([], [])

/-- Arguments that are search keys. -/
inductive Arg | none | one (t : Text) | many (l : List Text) | other

/-- `_check_search_keys`, lines 703-714. -/
def checkKeys : Arg → Py (Option (List Text))
  | .none => .ok Option.none
  | .one t => .ok (some [t])
  | .many l => .ok (some l)
  | .other => .error .valueError

/-- What a search finds: paths that are asked for, and paths with a key, lines 809-826. -/
def matching (keys paths : Option (List Text)) (f : Found) : Bool :=
  (paths.getD []).any (· = f.path) || (keys.getD []).any (contains · f.path)

/-- `_find_data`, lines 717-831: NXdata and datasets. `order`: the order of the elements of a set. -/
def findData (order : List Found → List Found) (f : Node) (keys : Option (List Text)) (hard : Bool) (paths : Option (List Text)) :
    Py (List Found × List Found) := do
  let l ← findKids hard (rootOf f).1 (rootOf f).2 [] (rootOf f).2
  let l := if hard then l.filter (·.direct) else l
  let nx := l.filter (·.nx)
  let hdf := l.filter fun x => !x.nx
  if keys = none ∧ paths = none then return (nx, hdf)
  else return (order (nx.filter (matching keys paths)), order (hdf.filter (matching keys paths)))

/-! ### Axes -/

/-- A dictionary for an axis. -/
structure Ax where
  size : Nat
  index : Nat
  name : Option Text
  scale : ℚ
  offset : ℚ
  units : Option R
  navigate : Bool

/-- `np.diff`. -/
def diffs : List ℚ → List ℚ
  | a :: b :: l => (b - a) :: diffs (b :: l)
  | _ => []

/-- `_is_linear_axis`, lines 645-660: `allclose` with the absolute tolerance 1e-8. -/
def isLinear (l : List ℚ) : Bool :=
  match diffs l with
  | [] => true
  | d :: ds => (d :: ds).all fun s => decide (|d - s| ≤ 1 / 100000000 + 1 / 100000 * |s|)

/-- `int` of a number. -/
def truncate (q : ℚ) : Int := if 0 ≤ q then q.floor else -(-q).floor

/-- The names of the axes, lines 215-224. -/
def axesNames (ndim : Nat) : Leaf → Py (List Text)
  | .texts _ l => .ok ((l.take ndim).map clean ++ List.replicate (ndim - l.length) ['.'])
  | .objs _ l => .ok (l.take ndim ++ List.replicate (ndim - l.length) ['.'])
  | .bytes t => .ok ((splitChar ',' (clean t)).take ndim)
  | .str t => .ok ((splitChar ',' t).take ndim)
  | .num _ => .error .typeError
  | .nums _ _ => .error .typeError

/-- The position of an axis in the array, lines 229-237. -/
def indexOf (a : Attrs) (ax : Text) (i : Nat) : Py Int :=
  match getKw (ax ++ "_indices".toList) a with
  | none => .ok i
  | some (.num q) => .ok (truncate q)
  | some (.nums _ (q :: _)) => .ok (truncate q)
  | some (.nums _ []) => .error .indexError
  | some _ => .error .attributeError

/-- `named_axes.remove(i)`. -/
def remove (i : Int) (l : List Nat) : Py (List Nat) :=
  if 0 ≤ i ∧ i.toNat ∈ l then .ok (l.erase i.toNat) else .error .valueError

/-- The dataset at a name. -/
def dsOf : Node → Py (Attrs × Leaf)
  | .ds a v => .ok (a, v)
  | .grp _ _ => .error .attributeError
  | .soft _ n => dsOf n
  | .ext n => dsOf n

/-- `dataentry[name]`. -/
def kid (k : Text) (kids : Kids) : Py (Attrs × Leaf) :=
  match getKw k kids with
  | some n => dsOf n
  | none => .error .keyError

/-- The units, lines 239-242. -/
def unitsOf (a : Attrs) : R := match getKw "units".toList a with | some v => parseAttr v | none => .str []

/-- The axis with these values, lines 247-283. -/
def axisOf (shape : List Nat) (i : Nat) (name : Text) (units : R) : Leaf → Py Ax
  | .nums [_] (a :: b :: l) =>
    match shape[i]? with
    | none => .error .indexError
    | some n => .ok (if isLinear (a :: b :: l) then ⟨n, i, some name, |b - a|, min a ((b :: l).getLastD b), some units, true⟩
        else ⟨n, i, some name, 1, 0, none, true⟩)
  | .nums [_] [a] => .ok ⟨1, i, some name, 1, a, some units, true⟩
  | .nums [_] [] => .error .valueError
  | .nums [] _ => .error .valueError
  | .nums (_ :: _ :: _) _ => .error .notImplemented
  | .num _ => .error .valueError
  | _ => .error .typeError

/-- An axis without name, lines 285-296. -/
def dotAxis (shape : List Nat) (count : Nat) (named : List Nat) (detector : Nat) (l : List Ax) : Py (Nat × List Ax) :=
  if shape.length = count then
    match named[detector]? with
    | none => .error .indexError
    | some i => match shape[i]? with
      | none => .error .indexError
      | some n => .ok (detector + 1, l ++ [⟨n, i, none, 1, 0, some (.str []), false⟩])
  else .ok (detector, l)

/-- A named axis, lines 228-283. -/
def namedAxis (shape : List Nat) (a : Attrs) (kids : Kids) (i : Nat) (ax : Text) (named : List Nat) : Py (List Nat × Ax) := do
  let ind ← indexOf a ax i
  let (ua, v) ← kid ax kids
  let named ← remove ind named
  return (named, ← axisOf shape ind.toNat ax (unitsOf ua) v)

/-- The loop over the axes, lines 227-296. -/
def axesLoop (shape : List Nat) (a : Attrs) (kids : Kids) (count : Nat) : Nat → List Text → List Nat → Nat → List Ax → Py (List Ax)
  | _, [], _, _, l => .ok l
  | i, ax :: rest, named, detector, l =>
    if ax = ['.'] then
      match dotAxis shape count named detector l with
      | .ok (detector, l) => axesLoop shape a kids count (i + 1) rest named detector l
      | .error e => .error e
    else match namedAxis shape a kids i ax named with
      | .ok (named, x) => axesLoop shape a kids count (i + 1) rest named detector (l ++ [x])
      | .error e => .error e

/-- `_get_nav_list`, lines 194-298. -/
def navList (shape : List Nat) (a : Attrs) (kids : Kids) : Py (List Ax) :=
  match getKw "axes".toList a with
  | none => .ok []
  | some v => do
    let names ← axesNames shape.length v
    axesLoop shape a kids names.length 0 names (List.range names.length) 0 []

/-! ### Signals -/

/-- A signal that was read. -/
structure Sig where
  data : Leaf
  axes : List Ax
  metadata : Dict
  original : Dict
  learning : Option R

/-- The key of the data, lines 375-391. -/
def dataKey (a : Attrs) (kids : Kids) : Py Text :=
  match getKw "signal".toList a with
  | none => if (getKw "data".toList kids).isSome then .ok "data".toList else .error .valueError
  | some (.num _) => .ok "data".toList
  | some (.bytes t) => .ok (match intLit t with | .ok _ => "data".toList | .error _ => t)
  | some (.str t) => .ok (match intLit t with | .ok _ => "data".toList | .error _ => t)
  | some (.nums _ [_]) => .ok "data".toList
  | some _ => .error .typeError

/-- The axes when none are given, lines 411-422. -/
def plainAxes (shape : List Nat) : List Ax := (shape.zipIdx).map fun (n, i) => ⟨n, i, none, 1, 0, some (.str []), true⟩

/-- `l[-k]["navigate"] = False`. -/
def signalFromEnd (k : Nat) (l : List Ax) : Py (List Ax) :=
  if k ≤ l.length then .ok (l.modify (l.length - k) fun x => { x with navigate := false }) else .error .indexError

/-- The interpretation, lines 430-437. -/
def interpret (l : List Ax) : Option R → Py (List Ax)
  | none => .ok l
  | some (.str t) =>
    if t = [] then .ok l
    else
      let l := l.map fun x => { x with navigate := true }
      if t = "spectrum".toList then signalFromEnd 1 l
      else if t = "image".toList then do signalFromEnd 2 (← signalFromEnd 1 l)
      else .ok l
  | some (.num q) => .ok (if q = 0 then l else l.map fun x => { x with navigate := true })
  | some _ => .error .valueError

/-- The last piece of the path, line 423. -/
def titleOf (path : Text) : Text := (textSplit ['/'] path).getLastD []

/-- `_nexus_dataset_to_signal`, lines 355-440, without the title. -/
def nexusSignal (f : Found) : Py (Leaf × List Ax) := do
  let key ← dataKey f.attrs f.kids
  let (_, v) ← kid key f.kids
  let l ← navList v.shape f.attrs f.kids
  let l := if l.isEmpty then plainAxes v.shape else l
  return (v, ← interpret l ((getKw "interpretation".toList f.attrs).map parseAttr))

/-- Whether a dataset is the signal of its group, lines 324-329. -/
def isSignal (f : Found) : Bool :=
  match getKw "signal".toList f.parentAttrs with
  | some (.bytes t) => (splitChar '/' f.path).getLastD [] = t
  | some (.str t) => (splitChar '/' f.path).getLastD [] = t
  | _ => false

/-- `_extract_hdf_dataset`, lines 301-352. -/
def hdfSignal (f : Found) : Py (Option (Leaf × List Ax)) :=
  if isSignal f then .ok none
  else do
    let l ← navList f.value.shape f.parentAttrs f.parentKids
    return some (f.value, l)

/-! ### Metadata of the file -/

/-- `_fix_exclusion_keys`, lines 922-943. -/
def fixKey (k : Text) : Text := if starts "keys" k then "fix_".toList ++ k else k

/-- The attributes of a group, lines 861-865. -/
def attrsTree (a : Attrs) : Dict :=
  if a = [] then [] else [("attrs".toList, .dict (a.foldl (fun d p => setKw (fixKey p.1) (parseAttr p.2) d) []))]

/-- `tree[key]` for a dataset with attributes, lines 875-890; `old`: what is there. -/
def withAttrs (skip : Bool) (a : Attrs) (v : Leaf) (old : Option R) : Py R := do
  let base ← match old with | none => pure [] | some (.dict d) => pure d | some _ => .error .typeError
  let base ← if skip && !(v.shape == [] && decide (v.size < 2)) then pure base else do pure (setKw "value".toList (← parseDs v) base)
  let sub ← match getKw "attrs".toList base with | none => pure [] | some (.dict d) => pure d | some _ => .error .typeError
  return .dict (setKw "attrs".toList (.dict (a.foldl (fun d p => setKw p.1 (parseAttr p.2) d) sub)) base)

/-- A dataset, lines 873-898. -/
def loadDs (skip : Bool) (k : Text) (a : Attrs) (v : Leaf) (t : Dict) : Py Dict :=
  if a ≠ [] then do return setKw k (← withAttrs skip a v (getKw k t)) t
  else if skip && !(v.shape == [] && decide (v.size < 2)) then .ok t
  else do return setKw k (← parseDs v) t

mutual
/-- `find_meta_in_tree`, lines 859-914; `t`: the dictionary so far. -/
def loadKids (skip : Bool) : List (Text × Node) → Dict → Py Dict
  | [], t => .ok t
  | (k, n) :: l, t =>
    match loadKid skip (fixKey k) n t with
    | .ok t => loadKids skip l t
    | .error e => .error e
/-- One object, lines 867-912. -/
def loadKid (skip : Bool) (k : Text) : Node → Dict → Py Dict
  | .ds a v, t => loadDs skip k a v t
  | .grp a kids, t =>
    if isData a then .ok t
    else match loadKids skip kids (attrsTree a) with
      | .ok d => .ok (setKw k (.dict d) t)
      | .error e => .error e
  | .soft _ n, t => loadKid skip k n t
  | .ext n, t => loadKid skip k n t
end

/-- `_load_metadata`, lines 834-919. -/
def loadMeta (skip : Bool) (f : Node) : Py Dict := loadKids skip (rootOf f).2 (attrsTree (rootOf f).1)

/-- Setting a value at a path, with new dictionaries on the way, lines 983-986. -/
def setPath : List Text → R → Dict → Py Dict
  | [], _, _ => .error .indexError
  | [k], v, d => .ok (setKw k v d)
  | k :: ks, v, d =>
    match getKw k d with
    | none => do return setKw k (.dict (← setPath ks v [])) d
    | some (.dict s) => do return setKw k (.dict (← setPath ks v s)) d
    | some _ => .error .attributeError

/-- `rootname + "/" + key`, lines 974-977. -/
def below (root k : Text) : Text := if root = [] then k else root ++ '/' :: k

mutual
/-- `find_searchkeys_in_tree`, lines 972-988. -/
def searchDict (keys : List Text) (root : Text) : List (Text × R) → Dict → Py Dict
  | [], m => .ok m
  | (k, v) :: d, m =>
    match (if keys.any (contains · (below root k)) then setPath (textSplit ['.', '/'] (below root k)) v m else .ok m) with
    | .error e => .error e
    | .ok m => match searchVal keys (below root k) v m with
      | .error e => .error e
      | .ok m => searchDict keys root d m
/-- The dictionaries below. -/
def searchVal (keys : List Text) (root : Text) : R → Dict → Py Dict
  | .dict d, m => searchDict keys root d m
  | _, m => .ok m
end

/-- `_find_search_keys_in_dict`, lines 946-994. -/
def search (keys : Option (List Text)) (d : Dict) : Py Dict :=
  match keys with
  | none => .ok d
  | some keys => searchDict keys [] d []

/-- `read_metadata_from_file` in `utils/hdf5.py`, lines 78-94. -/
def readMetadata (f : Node) (key : Arg) (skip : Bool) : Py Dict := do
  let keys ← checkKeys key
  search keys (← loadMeta skip f)

/-- `list_datasets_in_file` in `utils/hdf5.py`, lines 136-158. -/
def listDatasets (order : List Found → List Found) (f : Node) (key : Arg) (hard : Bool) : Py (List Text × List Text) := do
  let keys ← checkKeys key
  let (nx, hdf) ← findData order f keys hard none
  return (nx.map (·.path), hdf.map (·.path))

/-! ### Reading -/

/-- `v in d`, `d[v]` for a value that is a dictionary. -/
def R.sub (k : String) : R → Option R
  | .dict d => getKw k.toList d
  | _ => none

/-- A text, or nothing. -/
def R.text? : R → Option Text
  | .str t => some t
  | _ => none

/-- The default entry, lines 541-548; the branch for a single entry compares instead of setting. -/
def defaultEntry (om : Dict) : Option Text := do (← (R.dict om).sub "attrs" >>= R.sub "default").text?

/-- The default dataset, lines 549-553. -/
def defaultPath (om : Dict) : Py (Option Text) :=
  match defaultEntry om with
  | none => .ok none
  | some [] => .ok none
  | some e => match getKw e om with
    | none => .error .keyError
    | some r => match r.sub "attrs" with
      | none => .error .keyError
      | some a => match (a.sub "default") >>= R.text? with
        | none => .ok none
        | some [] => .ok none
        | some d => .ok (some ('/' :: e ++ '/' :: d))

/-- The datasets to read, lines 532-567. -/
def selected (order : List Found → List Found) (f : Node) (om : Dict) (keys paths : Option (List Text)) (hard useDefault : Bool) :
    Py (List Found × List Found) := do
  let first ← if useDefault then do
      let (nx, hdf) ← findData order f none false none
      match ← defaultPath om with
      | some p => pure (nx.filter fun x => contains p x.path, [])
      | none => pure (nx, hdf)
    else pure ([], [])
  if first.1.isEmpty && first.2.isEmpty then findData order f keys hard paths else return first

/-- The axes of signals within the metadata, lines 608-615. -/
def withAxes (om : Dict) : Dict :=
  om.map fun p => match p with
    | (k, .dict v) => if starts "_sig_" k then
        (k, .dict (setKw "axes".toList (.list ((v.filter fun e => starts "_axes" e.1).map (·.2))) v)) else (k, .dict v)
    | p => p

/-- The metadata for a signal without title. -/
structure Extra where
  original : Dict
  learning : Option R
  metadata : Option Dict

/-- The original metadata of HyperSpy, lines 595-615. -/
def hyperOriginal (keys : Option (List Text)) (oma : R) (old : Dict) : Py Dict :=
  match oma.sub "original_metadata" with
  | some (.dict d) => match keys with
    | none => .ok (withAxes d)
    | some _ => search keys d
  | some _ => .error .attributeError
  | none => .ok old

/-- The parts of files of HyperSpy, lines 588-619. -/
def hyperParts (keys : Option (List Text)) (entry : R) (old : Dict) : Py Extra :=
  match entry.sub "auxiliary" with
  | none => .ok ⟨old, none, none⟩
  | some oma => do
    let o ← hyperOriginal keys oma old
    let m ← match oma.sub "hyperspy_metadata" with
      | some (.dict d) => pure (some d)
      | some _ => .error .attributeError
      | none => pure none
    return ⟨o, oma.sub "learning_results", m⟩

/-- Whether a file was written by this module, lines 583-587. -/
def fromHyperspy (om : Dict) : Bool :=
  match (R.dict om).sub "attrs" >>= R.sub "file_writer" with
  | some (.str t) => t = "hyperspy_nexus_v3".toList
  | _ => false

/-- The metadata for NXdata, lines 571-621. -/
def extraOf (om : Dict) (keys : Option (List Text)) (path : Text) : Py Extra :=
  match getKw ((textSplit ['/'] path).headD []) om with
  | none => .ok ⟨[], none, none⟩
  | some e => do
    let o ← match keys, e with
      | none, .dict d => pure d
      | none, _ => pure []
      | some _, _ => search keys om
    if fromHyperspy om then hyperParts keys e o else return ⟨o, none, none⟩

/-- `{"General": {"title": title}}`, lines 423-424. -/
def titleMeta (t : Text) : Dict := [("General".toList, .dict [("title".toList, .str t)])]

/-- `d.update(e)`. -/
def update (d e : Dict) : Dict := e.foldl (fun d p => setKw p.1 p.2 d) d

/-- NXdata as a signal, lines 569-623. -/
def readNexus (om : Dict) (keys : Option (List Text)) (f : Found) : Py Sig := do
  let (v, l) ← nexusSignal f
  let x ← extraOf om keys f.path
  return ⟨v, l, update (x.metadata.getD []) (titleMeta (titleOf f.path)), x.original, x.learning⟩

/-- `data_path[1:].replace("/", "_")`. -/
def hdfTitle (path : Text) : Text := (path.drop 1).map fun c => if c = '/' then '_' else c

/-- A dataset as a signal, lines 625-637. -/
def readHdf (filename : Text) (f : Found) : Py (List Sig) := do
  match ← hdfSignal f with
  | none => return []
  | some (v, l) => return [⟨v, l, [("General".toList, .dict [("original_filename".toList, .str filename), ("title".toList, .str (hdfTitle f.path))])], [], none⟩]

/-- The arguments of `file_reader`. -/
structure Opts where
  datasetKey : Arg := .none
  datasetPath : Arg := .none
  metadataKey : Arg := .none
  skipArrays : Bool := false
  nxdataOnly : Bool := false
  hardlinksOnly : Bool := false
  useDefault : Bool := false

/-- `file_reader`, lines 443-639. -/
def fileReader (order : List Found → List Found) (filename : Text) (o : Opts) (f : Node) : Py (List Sig) := do
  let dk ← checkKeys o.datasetKey
  let dp ← checkKeys o.datasetPath
  let mk ← checkKeys o.metadataKey
  let om ← loadMeta o.skipArrays f
  let (nx, hdf) ← selected order f om dk dp o.hardlinksOnly o.useDefault
  let a ← nx.mapM (readNexus om mk)
  if o.nxdataOnly then return a
  else do
    let b ← hdf.mapM (readHdf filename)
    return a ++ b.flatten

/-! ### Writing -/

/-- Values of metadata to write; `npnum`: numbers of numpy that are neither `int` nor `float`. -/
inductive M
  | none | num (q : ℚ) | npnum (q : ℚ) | str (t : Text) | bytes (t : Text)
  | nums (shape : List Nat) (l : List ℚ) | texts (l : List Text)
  | dict (d : List (Text × M)) | list (l : List (List (Text × M)))

abbrev MDict := List (Text × M)

/-- Names in the order of HDF5. -/
def before : Text → Text → Bool
  | [], [] => false
  | [], _ :: _ => true
  | _ :: _, [] => false
  | a :: s, b :: t => if a = b then before s t else decide (a.toNat < b.toNat)

/-- A child is created or replaced. -/
def put (k : Text) (n : Node) : Kids → Kids
  | [] => [(k, n)]
  | (k', n') :: l => if k' = k then (k, n) :: l else if before k k' then (k, n) :: (k', n') :: l else (k', n') :: put k n l

/-- `group.require_group(k)`: its attributes and children. -/
def requireGroup (k : Text) (g : Kids) : Py (Attrs × Kids) :=
  match getKw k g with
  | none => .ok ([], [])
  | some (.grp a l) => .ok (a, l)
  | some _ => .error .typeError

def ascii (t : Text) : Bool := t.all (·.toNat < 128)

/-- Lists as arrays, lines 128-133: texts need seven bits. -/
def arrayLeaf : M → Py Leaf
  | .nums s l => .ok (.nums s l)
  | .texts l => if l.all ascii then .ok (.texts [l.length] l) else .error .unicodeError
  | _ => .error .typeError

/-- `_parse_to_file` and `attrs[k] = v`, lines 1081-1082. -/
def attrLeaf : M → Py Leaf
  | .num q => .ok (.num q)
  | .npnum q => .ok (.num q)
  | .str t => .ok (.bytes t)
  | .bytes t => .ok (.bytes t)
  | .nums s l => .ok (.nums s l)
  | .texts l => arrayLeaf (.texts l)
  | _ => .error .typeError

/-- `value["attrs"]["NX_class"] == "NXdata"`, lines 1022-1027. -/
def isDataDict (d : MDict) : Py Bool :=
  match getKw "attrs".toList d with
  | none => .ok false
  | some (.dict a) => match getKw "NX_class".toList a with
    | some (.str t) => .ok (decide (t = "NXdata".toList))
    | _ => .ok false
  | some .none => .error .typeError
  | some (.num _) => .error .typeError
  | some (.npnum _) => .error .typeError
  | some _ => .ok false

/-- The value of a dictionary with nothing but `value` and `attrs`, lines 1028-1033. -/
def valueOf (d : MDict) : Option M :=
  match getKw "value".toList d with
  | none => .none
  | some (.dict _) => .none
  | some v => if d.all fun p => p.1 = "attrs".toList ∨ p.1 = "value".toList then some v else .none

/-- `group.create_dataset(k)`. -/
def createDs (k : Text) (v : Leaf) (g : Kids) : Py Kids :=
  match getKw k g with
  | none => .ok (put k (.ds [] v) g)
  | some _ => .error .valueError

/-- Values that are no dictionaries and no lists of them, lines 1038-1058. -/
def writeLeaf (k : Text) (v : M) (g : Kids) : Py Kids :=
  match v with
  | .none => .ok g
  | .num q => createDs k (.num q) g
  | .str t => createDs k (.bytes t) g
  | .bytes t => createDs k (.bytes t) g
  | .npnum _ => if (getKw k g).isSome then .ok g else .error .attributeError
  | .nums s l => if s = [] then .error .typeError else if s.head? = some 0 then .ok g else .ok (put k (.ds [] (.nums s l)) g)
  | .texts l => if l = [] then .ok g else do return put k (.ds [] (← arrayLeaf (.texts l))) g
  | .dict _ => .error .notImplemented
  | .list _ => .error .notImplemented

/-- `"_axes_" + str(i)`. -/
def axesKey (i : Nat) : Text := "_axes_".toList ++ (toString i).toList

mutual
/-- `_write_nexus_groups`, lines 997-1058. -/
def writeGroups (skip : List Text) : List (Text × M) → Kids → Py Kids
  | [], g => .ok g
  | (k, v) :: d, g =>
    if k = "attrs".toList ∨ k ∈ skip then writeGroups skip d g
    else match writeItem skip k v g with
      | .ok g => writeGroups skip d g
      | .error e => .error e
/-- One entry, lines 1021-1058. -/
def writeItem (skip : List Text) (k : Text) : M → Kids → Py Kids
  | .dict d, g =>
    match isDataDict d with
    | .error e => .error e
    | .ok true => .ok g
    | .ok false => match valueOf d with
      | some v => writeLeaf k v g
      | Option.none => match requireGroup k g with
        | .error e => .error e
        | .ok (a, l) => match writeGroups skip d l with
          | .error e => .error e
          | .ok l => .ok (put k (.grp a l) g)
  | .list l, g => writeAxes skip 0 l g
  | v, g => writeLeaf k v g
/-- A list of dictionaries, lines 1039-1048. -/
def writeAxes (skip : List Text) : Nat → List (List (Text × M)) → Kids → Py Kids
  | _, [], g => .ok g
  | i, d :: l, g =>
    match requireGroup (axesKey i) g with
    | .error e => .error e
    | .ok (a, s) => match writeGroups skip d s with
      | .error e => .error e
      | .ok s => writeAxes skip (i + 1) l (put (axesKey i) (.grp a s) g)
end

/-- Setting attributes. -/
def setAttrs (d : MDict) (a : Attrs) : Py Attrs :=
  d.foldlM (fun a p => do return setKw p.1 (← attrLeaf p.2) a) a

/-- `node.attrs`, changed. -/
def Node.mapAttrs (f : Attrs → Py Attrs) : Node → Py Node
  | .ds a v => do return .ds (← f a) v
  | .grp a l => do return .grp (← f a) l
  | n => .ok n

/-- `group[key]` for writing attributes. -/
def child (k : Text) : Node → Py Node
  | .grp _ l => match getKw k l with | some n => .ok n | none => .error .keyError
  | _ => .error .valueError

/-- The changed child. -/
def setChild (k : Text) (c : Node) : Node → Node
  | .grp a l => .grp a (put k c l)
  | n => n

mutual
/-- `_write_nexus_attr`, lines 1061-1092. -/
def writeAttr (skip : List Text) : List (Text × M) → Node → Py Node
  | [], n => .ok n
  | (k, v) :: d, n =>
    match writeAttrItem skip k v n with
    | .ok n => writeAttr skip d n
    | .error e => .error e
/-- One entry. -/
def writeAttrItem (skip : List Text) (k : Text) : M → Node → Py Node
  | .dict d, n =>
    if k = "attrs".toList then n.mapAttrs (setAttrs d)
    else match isDataDict d with
      | .error e => .error e
      | .ok true => .ok n
      | .ok false =>
        if k ∈ skip then .ok n
        else match child k n with
          | .error e => .error e
          | .ok c => match writeAttr skip d c with
            | .error e => .error e
            | .ok c => .ok (setChild k c n)
  | _, n => if k = "attrs".toList then .error .attributeError else .ok n
end

/-- Kinds of axes with their values. -/
inductive Kind | uniform (scale offset : ℚ) (size : Nat) | data (l : List ℚ) | functional | other
  deriving DecidableEq

/-- An axis of a signal to write. -/
structure WAxis where
  name : Option Text
  units : Option Text
  navigate : Bool
  kind : Kind
  deriving DecidableEq

/-- The values of an axis, lines 1135-1142. -/
def axisValues : Kind → Py (List ℚ)
  | .data l => .ok l
  | .uniform s o n => .ok ((List.range n).map fun i : Nat => o + s * (i : ℚ))
  | .functional => .error .valueError
  | .other => .error .runtimeError

/-- `nxdata.require_dataset(name, ...)`, lines 1143-1145: a dataset that is there stays. -/
def requireDs (k : Text) (l : List ℚ) (g : Kids) : Py (Attrs × Leaf) :=
  match getKw k g with
  | none => .ok ([], .nums [l.length] l)
  | some (.ds a v) => if v.shape = [l.length] then .ok (a, v) else .error .typeError
  | some _ => .error .typeError

/-- One named axis, lines 1131-1148: attributes, children and names. -/
def writeAxis (axes : List WAxis) (ax : WAxis) (name : Text) (s : Attrs × Kids × List Text) : Py (Attrs × Kids × List Text) := do
  let i := axes.findIdx (· = ax)
  let l ← axisValues ax.kind
  let (a, v) ← requireDs name l s.2.1
  let a := match ax.units with | none => a | some u => setKw "units".toList (.str u) a
  if i < s.2.2.length then
    return (setKw (name ++ "_indices".toList) (.num i) s.1, put name (.ds a v) s.2.1, s.2.2.set i name)
  else .error .indexError

/-- The loop over the axes, lines 1130-1148. -/
def writeAxesLoop (axes : List WAxis) : List WAxis → Attrs × Kids × List Text → Py (Attrs × Kids × List Text)
  | [], s => .ok s
  | ax :: l, s =>
    match ax.name with
    | none => writeAxesLoop axes l s
    | some name => match writeAxis axes ax name s with
      | .ok s => writeAxesLoop axes l s
      | .error e => .error e

/-- `record_by`, lines 1107-1114. -/
def recordBy (axes : List WAxis) : Option Text :=
  match (axes.filter fun a => !a.navigate).length with
  | 1 => some "spectrum".toList
  | 2 => some "image".toList
  | _ => none

/-- The attribute `axes`, line 1150; names need seven bits. -/
def namesLeaf (names : List Text) : Py Leaf :=
  if names.all ascii then .ok (.texts [names.length] names) else .error .unicodeError

/-- The attributes of NXdata without those of the axes, lines 1117-1120. -/
def signalAttrs (axes : List WAxis) (a : Attrs) : Attrs :=
  let a := setKw "signal".toList (.bytes "data".toList) (setKw "NX_class".toList (.bytes "NXdata".toList) a)
  match recordBy axes with
  | none => a
  | some t => setKw "interpretation".toList (.bytes t) a

/-- `_write_signal`, lines 1095-1151: the group from the one that is there. -/
def writeSignal (data : Leaf) (axes : List WAxis) (a : Attrs) (kids : Kids) : Py (Attrs × Kids) := do
  let (a, kids, names) ← writeAxesLoop axes axes (signalAttrs axes a, put "data".toList (.ds [] data) kids, List.replicate data.shape.length ['.'])
  return (setKw "axes".toList (← namesLeaf names) a, kids)

/-- A signal to write. -/
structure WSig where
  data : Leaf
  axes : List WAxis
  metadata : MDict
  original : MDict
  learning : MDict

/-- `md.get("General.title")`. -/
def titleIn (md : MDict) : Py Text :=
  match getKw "General".toList md with
  | some (.dict g) => match getKw "title".toList g with
    | some (.str t) => .ok t
    | some .none => .ok []
    | Option.none => .ok []
    | some _ => .error .typeError
  | _ => .ok []

/-- The name of the signal, lines 1216-1221. -/
def signalName (i : Nat) (title : Text) : Text :=
  let t := if title = [] then "unnamed__".toList ++ (toString i).toList else title
  let t := t.map fun c => if c = '/' then '_' else c
  if starts "__" t then t.drop 2 else t

/-- A group of metadata within `auxiliary`, lines 1230-1256; nothing is written if there is nothing. -/
def writePart (skip : List Text) (key : String) (d : MDict) (aux : Kids) : Py Kids :=
  if d = [] then .ok aux
  else match getKw key.toList aux with
    | some _ => .error .valueError
    | none => match writeGroups skip d [] with
      | .error e => .error e
      | .ok l => match writeAttr skip d (.grp [("NX_class".toList, .bytes "NXcollection".toList)] l) with
        | .error e => .error e
        | .ok n => .ok (put key.toList n aux)

/-- The arguments of `file_writer`. -/
structure WOpts where
  saveOriginal : Bool := true
  skip : List Text := []
  useDefault : Bool := false

/-- The metadata within `auxiliary`, lines 1230-1256. -/
def writeParts (o : WOpts) (s : WSig) (aux : Kids) : Py Kids := do
  let aux ← writePart [] "learning_results" s.learning aux
  let aux ← if o.saveOriginal then writePart o.skip "original_metadata" s.original aux else pure aux
  writePart [] "hyperspy_metadata" s.metadata aux

/-- A part of an entry. -/
def groupIn (k : Text) (g : Kids) : Attrs × Kids :=
  match getKw k g with
  | some (.grp a l) => (a, l)
  | _ => ([], [])

/-- One entry, lines 1211-1256. -/
def writeEntry (o : WOpts) (i : Nat) (s : WSig) : Py Node := do
  let name := signalName i (← titleIn s.metadata)
  if name = [] then .error .valueError
  else do
    let a : Attrs := [("NX_class".toList, .bytes "NXentry".toList)]
    let a := if i = 0 ∧ o.useDefault then setKw "default".toList (.str name) a else a
    let kids : Kids := [("auxiliary".toList, .grp [("NX_class".toList, .bytes "NXentry".toList)] [])]
    let (ga, gk) := groupIn name kids
    let (ga, gk) ← writeSignal s.data s.axes ga gk
    let kids := put name (.grp ga gk) kids
    let (xa, xk) := groupIn "auxiliary".toList kids
    let xk ← writeParts o s xk
    return .grp a (put "auxiliary".toList (.grp xa xk) kids)

/-- `"entry" + str(i + 1)`. -/
def entryName (i : Nat) : Text := "entry".toList ++ (toString (i + 1)).toList

/-- The entries, lines 1210-1256. -/
def writeEntries (o : WOpts) : Nat → List WSig → Kids → Py Kids
  | _, [], g => .ok g
  | i, s :: l, g =>
    match writeEntry o i s with
    | .error e => .error e
    | .ok n => writeEntries o (i + 1) l (put (entryName i) n g)

/-- `file_writer`, lines 1154-1256. -/
def fileWriter (o : WOpts) (l : List WSig) : Py Node := do
  let a : Attrs := [("file_format".toList, .str "nexus".toList), ("file_writer".toList, .str "hyperspy_nexus_v3".toList)]
  let a := if o.useDefault then setKw "default".toList (.str "entry1".toList) a else a
  return .grp a (← writeEntries o 0 l [])

end Verif.Nexus
