import Verif.Py.Basic
/-!
Model of the ragged-array storage of `rsciio/_hierarchical.py` (`flatten_data`,
`unflatten_data`) and of the object datasets of `rsciio/hspy/_api.py` and `rsciio/zspy/_api.py`
(`_get_object_dset`, `_store_data`).

A cell of a ragged array is a NumPy array: shape, element type and C-order elements. The
navigation array is its shape and its cells in `np.ndindex` order. External: h5py and numcodecs
store, for one object dataset, variable-length lists of *one* element type; elements of another
numeric type are cast to it on writing (`cast`).
-/
namespace Verif.Ragged

/-- Element type and elements of a cell. `δ` are the numeric types, `α` the numeric values. -/
inductive Elems (δ α : Type) where
  | nums (dtype : δ) (vals : List α)
  | texts (vals : List String)
  deriving Repr, DecidableEq

/-- One cell, `np.array(x[i])`. -/
structure Cell (δ α : Type) where
  shape : List Nat
  elems : Elems δ α
  deriving Repr, DecidableEq

/-- A ragged (object) array. -/
structure RaggedArr (δ α : Type) where
  navShape : List Nat
  cells : List (Cell δ α)
  deriving Repr, DecidableEq

/-- What `flatten_data` puts in `new_data[i]`: a 1-d numeric array, an array of h5py strings
(line 53) or a Python list of strings (line 56). -/
inductive Flat (δ α : Type) where
  | arr (dtype : δ) (vals : List α)
  | h5str (vals : List String)
  | pyList (vals : List String)
  deriving Repr, DecidableEq

variable {δ α : Type}

/-- `flatten_data`, body of the loop, lines 48-59. -/
def flattenCell (isHdf5 : Bool) (c : Cell δ α) : Flat δ α × List Nat :=
  match c.elems with
  | .texts vs => (if isHdf5 then .h5str vs else .pyList vs, c.shape)
  | .nums d vs => (.arr d vs, c.shape)

/-- `flatten_data`, lines 44-60: `new_data` and `shapes`, cell by cell. -/
def flatten (isHdf5 : Bool) (x : RaggedArr δ α) : List Nat × List (Flat δ α × List Nat) :=
  (x.navShape, x.cells.map (flattenCell isHdf5))

def elemsLength : Elems δ α → Nat
  | .nums _ vs => vs.length
  | .texts vs => vs.length

/-- `np.reshape(a, shape)` of a 1-d array: `ValueError` unless the sizes agree. -/
def reshape (e : Elems δ α) (shape : List Nat) : Py (Cell δ α) :=
  if elemsLength e = shape.prod then .ok ⟨shape, e⟩ else .error .valueError

/-- `np.array(data_)` (line 84) of what is stored: `np.array([])` of an empty Python list is a
float array. Reading an h5py string cell without `astype("U")` (line 83, `convert = false`)
leaves an object array; the model does not distinguish it from a unicode one. -/
def toArray (float : δ) : Flat δ α → Elems δ α
  | .arr d vs => .nums d vs
  | .h5str vs => .texts vs
  | .pyList [] => .nums float []
  | .pyList (v :: vs) => .texts (v :: vs)

def unflattenAll (float : δ) : List (Flat δ α × List Nat) → Py (List (Cell δ α))
  | [] => .ok []
  | (d, s) :: rest =>
    match reshape (toArray float d) s, unflattenAll float rest with
    | .ok c, .ok cs => .ok (c :: cs)
    | .error e, _ => .error e
    | _, .error e => .error e

/-- `unflatten_data`, lines 63-85. -/
def unflatten (float : δ) (nav : List Nat) (cells : List (Flat δ α × List Nat)) :
    Py (RaggedArr δ α) :=
  match unflattenAll float cells with
  | .ok cs => .ok ⟨nav, cs⟩
  | .error e => .error e

/-! ### The stored dataset -/

/-- Element type of the stored dataset, taken from the first cell (`hspy/_api.py` lines 151-159,
`zspy/_api.py` lines 101-120). `IndexError` if there is no cell. -/
inductive DsetType (δ : Type) where
  | num (dtype : δ)
  | text

def datasetType : List (Flat δ α × List Nat) → Py (DsetType δ)
  | [] => .error .indexError
  | (.arr d _, _) :: _ => .ok (.num d)
  | (.h5str _, _) :: _ => .ok .text
  | (.pyList _, _) :: _ => .ok .text

/-- Writing one cell to a dataset of that type: numeric values are cast to the type of the
dataset; text in a numeric dataset or numbers in a text dataset fail (`TypeError`). -/
def storeCell (cast : δ → δ → α → α) (t : DsetType δ) (c : Flat δ α) : Py (Flat δ α) :=
  match t, c with
  | .num d, .arr d' vs => .ok (.arr d (vs.map (cast d' d)))
  | .text, .h5str vs => .ok (.h5str vs)
  | .text, .pyList vs => .ok (.pyList vs)
  | _, _ => .error .typeError

def storeAll (cast : δ → δ → α → α) (t : DsetType δ) :
    List (Flat δ α × List Nat) → Py (List (Flat δ α × List Nat))
  | [] => .ok []
  | (c, s) :: rest =>
    match storeCell cast t c, storeAll cast t rest with
    | .ok c', .ok cs => .ok ((c', s) :: cs)
    | .error e, _ => .error e
    | _, .error e => .error e

/-- `overwrite_dataset` for object arrays, lines 787-814, followed by `_read_array`, lines
285-309: save a ragged array in a file and read it back. -/
def saveLoad (cast : δ → δ → α → α) (float : δ) (isHdf5 : Bool) (x : RaggedArr δ α) :
    Py (RaggedArr δ α) :=
  let flat := flatten isHdf5 x
  match datasetType flat.2 with
  | .error e => .error e
  | .ok t =>
    match storeAll cast t flat.2 with
    | .error e => .error e
    | .ok stored => unflatten float flat.1 stored

end Verif.Ragged
