import Verif.Py.Assoc
import Verif.Py.Lines
import Verif.Py.Ravel
import Mathlib.Algebra.Order.Ring.Rat
/-!
Model of `rsciio/usid/_api.py` (USID files in HDF5, reading and writing).

External is `pyUSID` with `sidpy`: a file is the list of its main datasets in the order of
`get_all_main`, each with the labels, units and values of its dimensions, and its N-dimensional form
(`reshape_to_n_dims`) with the labels of that form. `get_slope` is a parameter. What the library writes:
a main dataset with the given dimensions, in an order of its own in the tables of the file (parameter
`arrange`) and in the given order in the N-dimensional form; the new groups carry attributes of the
library (`stamp`); sizes that do not match are a `ValueError` (`validate_dims_against_main`). Values are
rationals and the values of the dimensions are computed exactly. Lazy reading gives the same values.
Not modelled: warnings and log messages, arguments that are no text, the keywords of the writer, the
types of the elements, HDF5 errors.
-/
namespace Verif.Usid
open Verif

/-- Values of attributes. -/
inductive V | str (t : Text) | num (q : ℚ)
  deriving DecidableEq

abbrev Attrs := List (Text × V)

/-- Nested metadata. -/
inductive Tree | leaf (v : V) | node (l : List (Text × Tree))

/-- The elements of a main dataset in the C order of its N-dimensional form; a compound type has named parts. -/
inductive Data | plain (l : List ℚ) | compound (l : List (Text × List ℚ))
  deriving DecidableEq

/-- The dimensions of the positions or of the spectra: labels, the attribute `units`, and the values by label. -/
structure Dims where
  labels : List Text
  units : List Text
  values : List (Text × List ℚ)
  deriving DecidableEq

/-- A main dataset. -/
structure Main where
  path : Text
  parent : Attrs
  above : Attrs
  pos : Dims
  spec : Dims
  reshaped : Bool
  labels : List Text
  shape : List Nat
  data : Data
  descriptor : Text
  deriving DecidableEq

structure File where
  name : Text
  mains : List Main
  others : List Text
  deriving DecidableEq

/-- An axis that was read. -/
structure Axis where
  size : Nat
  name : Text
  units : Text
  scale : ℚ
  offset : ℚ
  deriving DecidableEq

/-- A signal that was read. -/
structure Sig where
  shape : List Nat
  data : List ℚ
  axes : List Axis
  signalType : Text
  filename : Text
  title : Text
  quantity : Text
  units : Text
  path : Text
  parameters : Attrs
  deriving DecidableEq

/-- A `Dimension` of `pyUSID`. -/
structure Dim where
  name : Text
  units : Text
  values : List ℚ
  deriving DecidableEq

/-- What is not modelled. -/
structure Env where
  slope : List ℚ → Py ℚ
  arrange : List Dim → List Dim
  stamp : Attrs

/-! ### Reading -/

/-- `h5_main.get_pos_values(dim_name)`. -/
def getValues (d : Dims) (name : Text) : Py (List ℚ) :=
  match getKw name d.values with | some v => .ok v | none => .error .keyError

/-- Scale and offset, lines 83-101. -/
def stepOf (env : Env) (ignore : Bool) (vals : List ℚ) : Py (ℚ × ℚ) :=
  match env.slope vals, vals with
  | .ok s, v :: _ => .ok (s, v)
  | .ok _, [] => .error .indexError
  | .error .valueError, [] => if ignore then .error .indexError else .error .valueError
  | .error .valueError, _ :: _ => if ignore then .ok (1, 0) else .error .valueError
  | .error e, _ => .error e

/-- `_get_dim_dict`, lines 44-110: the loop. -/
def dimDict (env : Env) (ignore : Bool) (d : Dims) : List (Text × Text) → List (Text × Axis) → Py (List (Text × Axis))
  | [], acc => .ok acc
  | (name, units) :: l, acc => do
    let vals ← getValues d name
    if vals.length = 1 then dimDict env ignore d l acc
    else do
      let (scale, offset) ← stepOf env ignore vals
      dimDict env ignore d l (setKw name ⟨vals.length, name, units, scale, offset⟩ acc)

/-- `_get_dim_dict`, lines 44-110. -/
def getDimDict (env : Env) (ignore : Bool) (d : Dims) : Py (List (Text × Axis)) :=
  dimDict env ignore d (d.labels.zip d.units) []

/-- `_assemble_dim_list`, lines 113-137. -/
def assemble (dict : List (Text × Axis)) (names : List Text) : List Axis :=
  names.filterMap fun n => getKw n dict

/-- `desc.rfind(c)`: the text before the last `c` and the text from it on. -/
def rfindSplit (c : Char) (t : Text) : Option (Text × Text) :=
  if c ∈ t then
    let tail := (t.reverse.takeWhile (· ≠ c)).reverse
    some (t.take (t.length - tail.length - 1), c :: tail)
  else none

/-- `_split_descriptor`, lines 140-170. -/
def splitDescriptor (desc : Text) : Text × Text :=
  let t := stripBy isSpace desc
  match (rfindSplit '(' t).or (rfindSplit '[' t) with
  | none => (t, [])
  | some (q, u) => (stripBy isSpace q, u.filter fun c => c ∉ ['(', ')', '[', ']'])

/-- `name.split("/")[-1]`. -/
def lastPart (t : Text) : Text := (splitChar '/' t).getLastD []

/-- `h5_main.parent.name.split("/")[-1]`. -/
def parentPart (t : Text) : Text := (splitChar '/' t).dropLast.getLastD []

/-- `a in b` for texts. -/
def inText (a : Text) : Text → Bool
  | [] => a = []
  | c :: t => a.isPrefixOf (c :: t) || inText a t

/-- `d.update(e)`. -/
def update {α : Type} (d e : List (Text × α)) : List (Text × α) := e.foldl (fun d p => setKw p.1 p.2 d) d

/-- Lines 285-295. The second group is the same as the first: `h5_main.parent`. -/
def groupAttrs (m : Main) : Attrs :=
  if inText "Channel".toList (parentPart m.path) then
    if inText "Measurement".toList (parentPart m.path) then update m.parent m.parent else m.parent
  else []

/-- `_convert_to_signal_dict`, lines 173-230. -/
def toSignal (f : File) (m : Main) (axes : List Axis) (data : List ℚ) (quantity units sigType : Text) : Sig :=
  ⟨m.shape.filter (· ≠ 1), data, axes, sigType, f.name, lastPart m.path, quantity, units, m.path, groupAttrs m⟩

/-- `_usidataset_to_signal_dict`, lines 233-334. -/
def mainToSignals (env : Env) (ignore : Bool) (f : File) (m : Main) : Py (List Sig) := do
  let pos ← getDimDict env ignore m.pos
  let spec ← getDimDict env ignore m.spec
  if !m.reshaped then .error .valueError else
  let n := m.pos.labels.length
  let axes := assemble pos (m.labels.take n) ++ assemble spec (m.labels.drop n)
  let (quant, units) := splitDescriptor m.descriptor
  match m.data with
  | .compound parts => .ok (parts.map fun p =>
      let (q, u) := splitDescriptor p.1
      toSignal f m axes p.2 q u quant)
  | .plain l => .ok [toSignal f m axes l quant units []]

/-- `file_reader`, lines 415-472, for an existing file. -/
def fileReader (env : Env) (ignore : Bool) (path : Option Text) (f : File) : Py (List Sig) :=
  match path with
  | none => do return (← f.mains.mapM (mainToSignals env ignore f)).flatten
  | some p => match f.mains.find? (·.path = p) with
    | some m => mainToSignals env ignore f m
    | none => if p ∈ f.others then .error .typeError else .error .keyError

/-! ### Writing -/

/-- An axis of the signal to write; `none` for a name or units that are no text. -/
structure WAxis where
  name : Option Text
  units : Option Text
  scale : ℚ
  offset : ℚ
  navigate : Bool

/-- A signal to write; the data in C order. -/
structure WSig where
  shape : List Nat
  data : List ℚ
  axes : List WAxis
  metadata : List (Text × Tree)
  original : List (Text × Tree)

/-- `parent_key + sep + k if parent_key else k`, line 368. -/
def joinKey (parent k : Text) : Text := if parent = [] then k else parent ++ '-' :: k

/-- `dict(items)`. -/
def ofItems {α : Type} (l : List (Text × α)) : List (Text × α) := update [] l

mutual
/-- The items that `_flatten_dict` appends for an entry, lines 367-372. -/
def flattenTree (key : Text) : Tree → Attrs
  | .leaf v => [(key, v)]
  | .node l => ofItems (flattenItems key l)
/-- The loop of `_flatten_dict`. -/
def flattenItems (parent : Text) : List (Text × Tree) → Attrs
  | [] => []
  | (k, t) :: l => flattenTree (joinKey parent k) t ++ flattenItems parent l
end

/-- `_flatten_dict`, lines 343-373. -/
def flattenDict (d : List (Text × Tree)) (parent : Text) : Attrs := ofItems (flattenItems parent d)

/-- The text without surrounding blanks, or another one if nothing is left or it is no text. -/
def textOr (d : Text) : Option Text → Text
  | none => d
  | some t => if stripBy isSpace t = [] then d else stripBy isSpace t

/-- `l[i]` for an integer `i`. -/
def pyIndex (l : List Nat) (i : Int) : Py Nat :=
  let j := if i < 0 then i + l.length else i
  if j < 0 then .error .indexError
  else match l[j.toNat]? with | some v => .ok v | none => .error .indexError

/-- Decimal digits of a number, `str(dim_ind)`. -/
def digits (n : Nat) : Text := (toString n).toList

/-- The loop of `_axes_list_to_dimensions`, lines 384-402. -/
def toDims (kind : Text) (shape : List Nat) : Nat → List WAxis → Py (List Dim)
  | _, [] => .ok []
  | i, a :: l => do
    let n ← pyIndex shape ((shape.length : Int) - 1 - i)
    let d : Dim := ⟨textOr (kind ++ "_Dim_".toList ++ digits i) a.name, textOr "a. u.".toList a.units,
      (List.range n).map fun k : Nat => (k : ℚ) * a.scale + a.offset⟩
    return d :: (← toDims kind shape (i + 1) l)

/-- `_axes_list_to_dimensions`, lines 376-405. -/
def axesToDims (kind : Text) (axes : List WAxis) (shape : List Nat) : Py (List Dim) := do
  let l ← toDims kind shape 0 axes
  match l with
  | [] => return [⟨"Arb".toList, "a. u.".toList, [0]⟩]
  | l => return l.reverse

/-- What the library stores about dimensions. -/
def store (env : Env) (l : List Dim) : Dims :=
  let s := env.arrange l
  ⟨s.map (·.name), s.map (·.units), s.map fun d => (d.name, d.values)⟩

/-- Number of rows or columns of dimensions. -/
def total (l : List Dim) : Nat := size (l.map fun d => d.values.length)

/-- The two-dimensional data: number of rows and columns, and the dimensions, lines 500-520. -/
def layout (s : WSig) : Py (Nat × Nat × List Dim × List Dim) :=
  let nav := (s.axes.filter (·.navigate)).reverse
  let sig := (s.axes.filter fun a => !a.navigate).reverse
  let n := nav.length
  if n > 0 ∧ sig.length > 0 then do
    let pos ← axesToDims "Pos".toList nav (s.shape.take n)
    let spec ← axesToDims "Spec".toList sig (s.shape.drop n)
    return (size (s.shape.take n), size (s.shape.drop n), pos, spec)
  else if n = 0 then do
    let pos ← axesToDims "Pos".toList nav []
    let spec ← axesToDims "Spec".toList sig s.shape
    return (1, size s.shape, pos, spec)
  else do
    let pos ← axesToDims "Pos".toList nav s.shape
    let spec ← axesToDims "Spec".toList sig []
    return (size s.shape, 1, pos, spec)

/-- The attributes of the measurement, lines 490-492. -/
def parameters (s : WSig) : Attrs :=
  update (flattenDict s.metadata []) (flattenDict s.original "Original".toList)

/-- Three digits. -/
def pad3 (n : Nat) : Text := List.replicate (3 - (digits n).length) '0' ++ digits n

/-- The path of the new dataset in a file with `n` measurements. -/
def newPath (n : Nat) : Text := "/Measurement_".toList ++ pad3 n ++ "/Channel_000/Raw_Data".toList

/-- `file_writer`, lines 475-543, to a file that does not exist (`none`) or that has `n` measurements. -/
def fileWriter (env : Env) (name : Text) (old : Option File) (s : WSig) : Py File := do
  let (rows, cols, pos, spec) ← layout s
  if total pos ≠ rows ∨ total spec ≠ cols then .error .valueError else
  let f := old.getD ⟨name, [], []⟩
  let m : Main := ⟨newPath f.mains.length, env.stamp, parameters s, store env pos, store env spec, true,
    (pos ++ spec).map (·.name), (pos ++ spec).map (·.values.length), .plain s.data,
    "Unknown Quantity (Unknown Units)".toList⟩
  return { f with mains := f.mains ++ [m] }

end Verif.Usid
