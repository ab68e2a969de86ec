import Verif.Py.Dec
/-!
Model of the dictionary storage of `rsciio/_hierarchical.py`: `HierarchicalWriter.dict2group`
(lines 878-921), `parse_structure` (923-951) and `HierarchicalReader._group2dict` (561-663).

A text is the list of its characters. External (h5py/zarr): a group is a mapping from names to
attributes and a mapping from names to datasets and groups; names are used literally (the model
does not split names at "/"); iteration order is arbitrary (`Env.order`). Lazy reading, signals
stored inside metadata (`_sig_…`) and ragged arrays (`Model/Ragged.lean`) are left out.
-/
namespace Verif.HierDict

abbrev Text := List Char

/-- Scalars other than text: `bool`, `int`, `float` (by its bit pattern). -/
inductive Scalar where
  | bool (b : Bool)
  | int (i : Int)
  | float (bits : Nat)
  deriving Repr, DecidableEq

/-- The values of a metadata dictionary. `arr` is a numeric NumPy array of at least one
dimension, given by a token. -/
inductive Val where
  | none
  | text (s : Text)
  | scalar (s : Scalar)
  | bytes (b : List UInt8)
  | arr (token : Nat)
  | list (l : List Val)
  | tuple (l : List Val)
  | dict (d : List (Text × Val))

/-- Attribute values: text, scalar or `np.void`. -/
inductive Attr where
  | text (s : Text)
  | scalar (s : Scalar)
  | void (b : List UInt8)
  deriving Repr, DecidableEq

/-- Datasets: texts, scalars of one type, or an array. -/
inductive Dset where
  | texts (l : List Text)
  | scalars (l : List Scalar)
  | arr (token : Nat)
  deriving Repr, DecidableEq

/-- Items of a group: datasets and groups (attributes and items). -/
inductive Node where
  | dset (d : Dset)
  | group (attrs : List (Text × Attr)) (items : List (Text × Node))

/-- A group. -/
structure Group where
  attrs : List (Text × Attr)
  items : List (Text × Node)

/-- External behaviour: NumPy's conversion of a scalar to text and of an integer to float,
`bytes.decode()` (`none`: `UnicodeDecodeError`), and the order in which the items of a group
are visited. -/
structure Env where
  fmt : Scalar → Text
  toFloat : Int → Nat
  decode : List UInt8 → Option Text
  order : List (Text × Val) → List (Text × Val)

/-- `mapping[key] = value`: replace or append. -/
def putKey {β : Type} (k : Text) (v : β) : List (Text × β) → List (Text × β)
  | [] => [(k, v)]
  | (k', v') :: rest => if k' = k then (k, v) :: rest else (k', v') :: putKey k v rest

def lookup {β : Type} (k : Text) : List (Text × β) → Option β
  | [] => none
  | (k', v) :: rest => if k' = k then some v else lookup k rest

/-- `group.require_group(name)`: the existing group, a new one, or `TypeError` for a dataset. -/
def requireGroup (g : Group) (name : Text) : Py Group :=
  match lookup name g.items with
  | none => .ok ⟨[], []⟩
  | some (.group a i) => .ok ⟨a, i⟩
  | some (.dset _) => .error .typeError

def putAttr (g : Group) (name : Text) (a : Attr) : Group :=
  { g with attrs := putKey name a g.attrs }

def putItem (g : Group) (name : Text) (n : Node) : Group :=
  { g with items := putKey name n g.items }

/-! The texts with a meaning in the file format. -/

/-- "_None_" -/
def sNone : Text := ['_', 'N', 'o', 'n', 'e', '_']
/-- "_list_" -/
def pList : Text := ['_', 'l', 'i', 's', 't', '_']
/-- "_tuple_" -/
def pTuple : Text := ['_', 't', 'u', 'p', 'l', 'e', '_']
/-- "_list_empty_" -/
def pListEmpty : Text := ['_', 'l', 'i', 's', 't', '_', 'e', 'm', 'p', 't', 'y', '_']
/-- "_tuple_empty_" -/
def pTupleEmpty : Text := ['_', 't', 'u', 'p', 'l', 'e', '_', 'e', 'm', 'p', 't', 'y', '_']
/-- "_bs_" -/
def pBs : Text := ['_', 'b', 's', '_']
/-- "_sig_" -/
def pSig : Text := ['_', 's', 'i', 'g', '_']
/-- "_datetime_date" -/
def pDate : Text := ['_', 'd', 'a', 't', 'e', 't', 'i', 'm', 'e', '_', 'd', 'a', 't', 'e']
/-- "_datetime_time" -/
def pTime : Text := ['_', 'd', 'a', 't', 'e', 't', 'i', 'm', 'e', '_', 't', 'i', 'm', 'e']
/-- "_ragged_shapes_" -/
def pRagged : Text := ['_', 'r', 'a', 'g', 'g', 'e', 'd', '_', 's', 'h', 'a', 'p', 'e', 's', '_']
/-- "_hspy_AxesManager_" -/
def pAxes : Text := ['_', 'h', 's', 'p', 'y', '_', 'A', 'x', 'e', 's', 'M', 'a', 'n', 'a', 'g', 'e', 'r', '_']

/-- What `np.array(value)` makes of a list (lines 924-933): a one-dimensional array of texts or
of scalars, or anything else (`object`: object dtype, more than one dimension or `ValueError`).
`unsupported`: byte strings among texts and scalars (not modelled). -/
inductive Cast where
  | texts (l : List Text)
  | scalars (l : List Scalar)
  | object
  | unsupported

/-- Atoms of a list. -/
def asText : Val → Option Text
  | .text s => some s
  | _ => none

def asScalar : Val → Option Scalar
  | .scalar s => some s
  | _ => none

def isAtom : Val → Bool
  | .text _ => true
  | .scalar _ => true
  | .bytes _ => true
  | _ => false

def isBytes : Val → Bool
  | .bytes _ => true
  | _ => false

def allSome {β γ : Type} (f : β → Option γ) : List β → Option (List γ)
  | [] => some []
  | x :: xs =>
    match f x, allSome f xs with
    | some y, some ys => some (y :: ys)
    | _, _ => none

def inInt64 (i : Int) : Bool := decide (-(2 : Int) ^ 63 ≤ i ∧ i < (2 : Int) ^ 63)

/-- Type promotion of NumPy: 0 bool, 1 int, 2 float. -/
def rank : Scalar → Nat
  | .bool _ => 0
  | .int _ => 1
  | .float _ => 2

def maxRank : List Scalar → Nat
  | [] => 0
  | s :: ss => max (rank s) (maxRank ss)

def promote (env : Env) (r : Nat) : Scalar → Scalar
  | .bool b => if r = 0 then .bool b else if r = 1 then .int b.toNat else .float (env.toFloat b.toNat)
  | .int i => if r = 1 then .int i else .float (env.toFloat i)
  | .float q => .float q

def okInt : Scalar → Bool
  | .int i => inInt64 i
  | _ => true

/-- Remove trailing NUL characters, as NumPy's fixed-width text types do. -/
def stripNul (s : Text) : Text := (s.reverse.dropWhile (· = '\x00')).reverse

/-- `np.array(value)` for a non-empty list, lines 928-933. Integers outside the 64-bit range are
taken as objects (NumPy uses `uint64` or `float64` for some of these). -/
def castList (env : Env) (l : List Val) : Cast :=
  match allSome asText l, allSome asScalar l with
  | some ts, _ => .texts (ts.map stripNul)
  | none, some ss =>
    if ss.all okInt then .scalars (ss.map (promote env (maxRank ss))) else .object
  | none, none =>
    if l.all isAtom then
      if l.any isBytes then .unsupported
      else .texts (l.map fun v => match v with
        | .text s => stripNul s
        | .scalar s => env.fmt s
        | _ => [])
    else .object

/-- Variable-length texts with embedded NUL characters are refused (`ValueError`). -/
def hasNul (s : Text) : Bool := s.any (· = '\x00')

/-- An `int` attribute must fit 64 bits, signed or unsigned. -/
def attrFits : Scalar → Bool
  | .int i => decide (-(2 : Int) ^ 63 ≤ i ∧ i < (2 : Int) ^ 64)
  | _ => true

/-- `parse_structure`, lines 923-951; `elems` is the recursive call of lines 936-939 on the group
created for the elements. -/
def writeStructure (env : Env) (k : Text) (type_ : Text) (l : List Val) (elems : Group → Py Group)
    (g : Group) : Py Group :=
  match castList env l with
  | .object =>                                                               -- 935-940
    match requireGroup g (type_ ++ decChars l.length ++ ['_'] ++ k) with
    | .error e => .error e
    | .ok sub =>
      match elems sub with
      | .error e => .error e
      | .ok sub' =>
        .ok (putItem g (type_ ++ decChars l.length ++ ['_'] ++ k) (.group sub'.attrs sub'.items))
  | .texts ts =>                                                             -- 941-947
    if ts.any hasNul then .error .valueError
    else .ok (putItem g (type_ ++ k) (.dset (.texts ts)))
  | .scalars ss => .ok (putItem g (type_ ++ k) (.dset (.scalars ss)))        -- 948-951
  | .unsupported => .error .notImplemented

mutual
/-- `dict2group`, lines 878-921. -/
def dict2group (env : Env) : List (Text × Val) → Group → Py Group
  | [], g => .ok g
  | (k, v) :: rest, g =>
    match writeItem env k v g with
    | .ok g' => dict2group env rest g'
    | .error e => .error e

/-- One iteration of the loop, lines 882-921. -/
def writeItem (env : Env) (k : Text) : Val → Group → Py Group
  | .dict d, g =>                                                            -- 882-883
    match requireGroup g k with
    | .error e => .error e
    | .ok sub =>
      match dict2group env d sub with
      | .error e => .error e
      | .ok sub' => .ok (putItem g k (.group sub'.attrs sub'.items))
  | .arr t, g => .ok (putItem g k (.dset (.arr t)))                          -- 884-885
  | .none, g => .ok (putAttr g k (.text sNone))                              -- 887-888
  | .bytes b, g =>                                                           -- 890-897
    if b.contains 0 then .ok (putAttr g (pBs ++ k) (.void b))
    else match env.decode b with
      | some s => .ok (putAttr g k (.text s))
      | none => .error .unicodeError
  | .text s, g =>                                                            -- 899-900
    if hasNul s then .error .valueError else .ok (putAttr g k (.text s))
  | .list l, g =>                                                            -- 902-906
    if l.isEmpty then .ok (putAttr g (pListEmpty ++ k) (.text sNone))
    else writeStructure env k pList l (fun sub => writeElems env 0 l sub) g
  | .tuple l, g =>                                                           -- 908-912
    if l.isEmpty then .ok (putAttr g (pTupleEmpty ++ k) (.text sNone))
    else writeStructure env k pTuple l (fun sub => writeElems env 0 l sub) g
  | .scalar s, g =>                                                          -- 914-921
    if attrFits s then .ok (putAttr g k (.scalar s)) else .ok g  -- logged, not stored

/-- `dict2group(dict(zip([str(i) ...], value)), ...)`, lines 936-937. -/
def writeElems (env : Env) (i : Nat) : List Val → Group → Py Group
  | [], g => .ok g
  | v :: vs, g =>
    match writeItem env (decChars i) v g with
    | .ok g' => writeElems env (i + 1) vs g'
    | .error e => .error e
end

/-! ### Reading -/

/-- `key.startswith(prefix)` and the remainder. -/
def stripPrefix : Text → Text → Option Text
  | [], k => some k
  | _ :: _, [] => none
  | p :: ps, c :: k => if p = c then stripPrefix ps k else none

/-- Lines 565-576: the value of an attribute. -/
def attrVal : Attr → Val
  | .text s => if s = sNone then .none else .text s
  | .scalar s => .scalar s
  | .void b => .bytes b

/-- Lines 577-599: what one attribute puts in the dictionary. `_sig_` attributes are skipped;
dates of old files (`_datetime_…`) are not modelled. `.tobytes()` of something that is not
`np.void` is an `AttributeError`. -/
def readAttr (k : Text) (a : Attr) : Py (List (Text × Val)) :=
  if (stripPrefix pSig k).isSome then .ok []
  else match stripPrefix pListEmpty k with
    | some k' => .ok [(k', .list [])]
    | none =>
      match stripPrefix pTupleEmpty k with
      | some k' => .ok [(k', .tuple [])]
      | none =>
        match stripPrefix pBs k with
        | some k' =>
          match a with
          | .void b => .ok [(k', .bytes b)]
          | _ => .error .attributeError
        | none =>
          if (stripPrefix pDate k).isSome || (stripPrefix pTime k).isSome then
            .error .notImplemented
          else .ok [(k, attrVal a)]

def readAttrs : List (Text × Attr) → Py (List (Text × Val))
  | [] => .ok []
  | (k, a) :: rest =>
    match readAttr k a, readAttrs rest with
    | .ok x, .ok y => .ok (x ++ y)
    | .error e, _ => .error e
    | _, .error e => .error e

/-- `_parse_iterable(data_).tolist()`, lines 613-614 and 617-618. `none`: an array, whose elements
the model does not know. -/
def dsetVals : Dset → Option (List Val)
  | .texts ts => some (ts.map .text)
  | .scalars ss => some (ss.map .scalar)
  | .arr _ => none

/-- Lines 609-635: the entry for a dataset. A list dataset read without the prefix would be an
array of its values; its token is not known to the model (`notImplemented`). -/
def readDset (k : Text) (d : Dset) : Py (Text × Val) :=
  match stripPrefix pList k with
  | some k' =>
    match dsetVals d with
    | some vs => .ok (k', .list vs)
    | none => .error .notImplemented
  | none =>
    match stripPrefix pTuple k with
    | some k' =>
      match dsetVals d with
      | some vs => .ok (k', .tuple vs)
      | none => .error .notImplemented
    | none =>
      match d with
      | .arr t => .ok (k, .arr t)
      | _ => .error .notImplemented

/-- `key[7 + key[6:].find("_"):]` (line 644), after the prefix: what follows the first
underscore, or everything if there is none (`find` is -1). -/
def afterUnderscore (k : Text) : Text :=
  match k.dropWhile (· ≠ '_') with
  | [] => k
  | _ :: rest => rest

/-- Comparison of texts by code point. -/
def leText : Text → Text → Bool
  | [], _ => true
  | _ :: _, [] => false
  | a :: as, b :: bs => if a.toNat < b.toNat then true else if a = b then leText as bs else false

/-- `sorted(dict.items())` by key (keys are different); insertion sort. -/
def insertItem (x : Text × Val) : List (Text × Val) → List (Text × Val)
  | [] => [x]
  | y :: ys => if leText x.1 y.1 then x :: y :: ys else y :: insertItem x ys

def sortItems : List (Text × Val) → List (Text × Val)
  | [] => []
  | x :: xs => insertItem x (sortItems xs)

/-- A sequence of assignments `dictionary[key] = value`. -/
def assign : List (Text × Val) → List (Text × Val) → List (Text × Val)
  | [], d => d
  | (k, v) :: rest, d => assign rest (putKey k v d)

/-- The dictionary built from the entries of the attributes and of the items, lines 563-663: the
attributes are assigned first, then the items, each in iteration order. -/
def collect (env : Env) (a b : List (Text × Val)) : List (Text × Val) :=
  assign (env.order b) (assign (env.order a) [])

/-- Lines 636-661: the entry for a group whose own dictionary is `sub`. -/
def groupEntry (k : Text) (sub : List (Text × Val)) : Text × Val :=
  if (stripPrefix pAxes k).isSome then (k, .list ((sortItems sub).map Prod.snd))
  else match stripPrefix pList k with
    | some k' => (afterUnderscore k', .list ((sortItems sub).map Prod.snd))
    | none =>
      match stripPrefix pTuple k with
      | some k' => (afterUnderscore k', .tuple ((sortItems sub).map Prod.snd))
      | none => (k, .dict sub)

mutual
/-- Lines 601-661: one item of a group. -/
def readNode (env : Env) (k : Text) : Node → Py (List (Text × Val))
  | .dset d =>
    if (stripPrefix pRagged k).isSome then .ok []                           -- 602-606
    else if (stripPrefix pSig k).isSome then .error .notImplemented         -- 607-608
    else match readDset k d with
      | .ok e => .ok [e]
      | .error e => .error e
  | .group a i =>
    if (stripPrefix pRagged k).isSome then .ok []
    else if (stripPrefix pSig k).isSome then .error .notImplemented
    else match readAttrs a, readNodes env i with
      | .ok x, .ok y => .ok [groupEntry k (collect env x y)]
      | .error e, _ => .error e
      | _, .error e => .error e

def readNodes (env : Env) : List (Text × Node) → Py (List (Text × Val))
  | [] => .ok []
  | (k, n) :: rest =>
    match readNode env k n, readNodes env rest with
    | .ok x, .ok y => .ok (x ++ y)
    | .error e, _ => .error e
    | _, .error e => .error e
end

/-- `_group2dict`, lines 561-663. -/
def group2dict (env : Env) (g : Group) : Py (List (Text × Val)) :=
  match readAttrs g.attrs, readNodes env g.items with
  | .ok x, .ok y => .ok (collect env x y)
  | .error e, _ => .error e
  | _, .error e => .error e

end Verif.HierDict
