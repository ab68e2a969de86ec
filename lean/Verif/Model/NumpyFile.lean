import Verif.Model.Distributed
import Verif.Py.Ravel
/-!
Model of `rsciio/numpy/_api.py` (reading and writing `.npy` files).

A file is what its header says and its elements in the order of the file. External code and its
assumed behaviour: `numpy.save` writes an array in Fortran order, and says so in the header, when it
is contiguous in Fortran order and not in C order, otherwise in C order; `numpy.load` gives back the
array in the order named in the header; both fail when there are not enough elements. The header
itself and the position of the data are in `Model/Npy`; splitting into chunks is in
`Model/Distributed`. Chunks are those `normalize_chunks` gave. Not modelled: keyword arguments of
`numpy.load`, `numpy.save` and `memmap_distributed`, structured and object dtypes.
-/
namespace Verif.NumpyFile
open Verif.Distributed

/-- A `.npy` file: the entries `fortran_order` and `shape` of the header, and the elements. -/
structure File (α : Type) where
  fortran : Bool
  shape : List Nat
  flat : List α
  deriving DecidableEq

/-- How the elements of an array lie in memory. -/
inductive Layout | c | fortran | strided
  deriving DecidableEq

/-- An array to be saved: lazy or not, its memory layout, shape and values. -/
structure Source (α : Type) where
  dask : Bool
  layout : Layout
  arr : Arr α

/-- `numpy.save`. -/
def npSave {α : Type} (l : Layout) (a : Arr α) : File α :=
  match l with
  | .fortran => ⟨true, a.shape, ravel a.shape.reverse fun idx => a.val idx.reverse⟩
  | _ => ⟨false, a.shape, ravel a.shape a.val⟩

/-- `file_writer`, lines 75-79. -/
def write {α : Type} (s : Source α) : Py (File α) :=
  if s.dask then .error .typeError else .ok (npSave s.layout s.arr)

/-- `numpy.load`: the element at `idx`. -/
def npLoad {α : Type} (f : File α) : Py (Arr (Option α)) :=
  if f.flat.length < size f.shape then .error .valueError
  else if f.fortran then
    .ok ⟨f.shape, fun idx => f.flat[flatIndex f.shape.reverse idx.reverse]?⟩
  else .ok ⟨f.shape, fun idx => f.flat[flatIndex f.shape idx]?⟩

/-- `inspect_npy_file` returns offset, shape and dtype but not the order of the elements
(`utils/_tools.py` lines 186-190); the memory map of `slice_memmap` is in C order. -/
def memmap {α : Type} (f : File α) : Py (Arr (Option α)) :=
  if f.flat.length < size f.shape then .error .valueError
  else .ok ⟨f.shape, fun idx => f.flat[flatIndex f.shape idx]?⟩

/-- The computed dask array: every element comes from its block. -/
def lazyLoad {α : Type} (f : File α) (chunks : List (List Nat)) : Py (Arr (Option α)) :=
  (memmap f).map fun m => ⟨m.shape, fun idx =>
    match loadElem m chunks idx with
    | .ok v => v
    | .error _ => none⟩

/-- The fields of an axis that depend on the data (lines 138-146); name and units are empty, the
scale is 1 and the offset 0. -/
structure Axis where
  size : Nat
  index : Nat
  navigate : Bool
  deriving DecidableEq

/-- Lines 135-148, from axis number `axis` on with `index_in_array = i`. `axis in navigation_axes`
compares with the numbers as given. -/
def axesFrom (nav : List Int) : List Nat → Nat → Nat → List Axis
  | [], _, _ => []
  | length :: rest, axis, i =>
    if length > 1 then
      ⟨length, i, nav.contains (axis : Int)⟩ :: axesFrom nav rest (axis + 1) (i + 1)
    else axesFrom nav rest (axis + 1) i

/-- What `file_reader` returns. -/
structure Result (α : Type) where
  data : Arr (Option α)
  axes : List Axis

/-- Lines 118-129; `chunks` is given when loading lazily. -/
def load {α : Type} (f : File α) (chunks : Option (List (List Nat))) : Py (Arr (Option α)) :=
  match chunks with
  | some ch => lazyLoad f ch                                    -- lines 119-127
  | none => npLoad f                                            -- line 129

/-- `file_reader`, lines 118-157. -/
def read {α : Type} (f : File α) (chunks : Option (List (List Nat)))
    (navigationAxes : Option (List Int)) : Py (Result α) :=
  (load f chunks).map fun d =>
    ⟨squeeze d, axesFrom (navigationAxes.getD []) d.shape 0 0⟩

end Verif.NumpyFile
