import Verif.Py.Text
import Verif.Py.Bytes
import Verif.Py.Ravel
import Mathlib.Data.Rat.Defs
import Mathlib.Algebra.Order.Ring.Rat
/-!
Model of `rsciio/tia/_api.py`: `.ser` files as bytes (`load_ser_file`), the axes and data made of them (`ser_reader`,
`load_only_data`), and the matching of `.ser` files and metadata of `.emi` files.

Simplifications: a file that ends too early for a field is a `structError` (the code fails in several ways);
the value of a 64-bit float is a parameter `f8` (a function of its bit pattern, no NaN). Elements of data are byte strings. The
content of the XML is in `TiaMeta`; `get_axes_from_position` is left out: it is only reached for files without
dimensions, and its first statement raises, because it looks for a field with a byte string as a name.
-/
namespace Verif.Tia

abbrev Bytes := List UInt8

/-! ### `.ser` files -/

/-- Bytes `o` to `o + n`. -/
def chunk (f : Bytes) (o n : Nat) : Bytes := (f.drop o).take n

/-- `readLEShort`, `readLELong`, `readLELongLong`, lines 53-68, at a position. -/
def readLE (f : Bytes) (o w : Nat) : Py Nat :=
  if (chunk f o w).length < w then .error .structError else .ok (leVal (chunk f o w))

/-- One entry of the dimension array, lines 71-82. `offset` and `delta` are bit patterns. -/
structure Dim where
  size : Nat
  offset : Nat
  delta : Nat
  element : Nat
  units : Bytes
  deriving DecidableEq

/-- Fields of type `S` lose null bytes at the end. -/
def stripNull (b : Bytes) : Bytes := (b.reverse.dropWhile (· = 0)).reverse

/-- Lines 85-91, 124-127: the dimension array, entry by entry from position `p` on. -/
def dimsAt (f : Bytes) : Nat → Nat → Py (List Dim)
  | 0, _ => .ok []
  | n + 1, p => do
    let size ← readLE f p 4
    let offset ← readLE f (p + 4) 8
    let delta ← readLE f (p + 12) 8
    let element ← readLE f (p + 20) 4
    let dl ← readLE f (p + 24) 4
    let ul ← readLE f (p + 28 + dl) 4
    if (chunk f (p + 32 + dl) ul).length < ul then .error .structError
    let ds ← dimsAt f n (p + 32 + dl + ul)
    .ok (⟨size, offset, delta, element, stripNull (chunk f (p + 32 + dl) ul)⟩ :: ds)

structure Header where
  version : Nat
  dataType : Nat
  tagType : Nat
  total : Nat
  valid : Nat
  arrayOffset : Nat
  dims : List Dim
  deriving DecidableEq

/-- Width of offsets, lines 107-112, 336-345. -/
def offsetWidth (version : Nat) : Nat := if version ≤ 528 then 4 else 8

/-- `get_header_dtype_list`, lines 94-129, and line 320. -/
def header (f : Bytes) : Py Header := do
  let version ← readLE f 4 2
  let dataType ← readLE f 6 4
  let tagType ← readLE f 10 4
  let total ← readLE f 14 4
  let valid ← readLE f 18 4
  let w := offsetWidth version
  let arrayOffset ← readLE f 22 w
  let ndim ← readLE f (22 + w) 4
  let dims ← dimsAt f ndim (26 + w)
  .ok ⟨version, dataType, tagType, total, valid, arrayOffset, dims⟩

inductive Kind | spectrum | image
  deriving DecidableEq

/-- `guess_record_by`, lines 197-201. -/
def kindOf (id : Nat) : Kind := if id = 16672 then .spectrum else .image

/-- `data_types`, lines 37-48: bytes of one value. -/
def itemSize : Nat → Option Nat
  | 1 => some 1
  | 2 => some 2
  | 3 => some 4
  | 4 => some 1
  | 5 => some 2
  | 6 => some 4
  | 7 => some 4
  | 8 => some 8
  | 9 => some 8
  | 10 => some 16
  | _ => none

/-- The layout of the elements: bytes before the array, number of values (`y` is one for spectra), bytes of
a value and bytes of the tag. -/
structure Layout where
  kind : Kind
  front : Nat
  x : Nat
  y : Nat
  item : Nat
  tag : Nat
  deriving DecidableEq

def Layout.count (L : Layout) : Nat := L.x * L.y
def Layout.size (L : Layout) : Nat := L.front + L.count * L.item + L.tag

/-- `get_data_tag_dtype_list`, lines 167-183. -/
def tagSize (tagType : Nat) : Nat := if tagType = 16706 then 24 else 8

/-- `get_data_dtype_list`, lines 132-164. -/
def layout (f : Bytes) (offset : Nat) (kind : Kind) (tagType : Nat) : Py Layout :=
  match kind with
  | .spectrum => do
    let ty ← readLE f (offset + 20) 2
    let n ← readLE f (offset + 22) 4
    match itemSize ty with
    | none => .error .keyError
    | some s => .ok ⟨kind, 26, n, 1, s, tagSize tagType⟩
  | .image => do
    let ty ← readLE f (offset + 40) 2
    let nx ← readLE f (offset + 42) 4
    let ny ← readLE f (offset + 46) 4
    match itemSize ty with
    | none => .error .keyError
    | some s => .ok ⟨kind, 50, nx, ny, s, tagSize tagType⟩

/-- `np.fromfile(f, dtype, count=n)` for integers of `w` bytes: as many as there are. -/
def intsAt (f : Bytes) (w : Nat) : Nat → Nat → List Nat
  | 0, _ => []
  | n + 1, o => if (chunk f o w).length < w then [] else leVal (chunk f o w) :: intsAt f w n (o + w)

/-- Lines 355-359: an element is read, then the position of the next one is taken. -/
def elements (f : Bytes) (size : Nat) : Nat → List Nat → Py (List Bytes)
  | _, [] => .ok []
  | pos, o :: os =>
    if (chunk f pos size).length < size then .error .valueError
    else match elements f size o os with
      | .error e => .error e
      | .ok r => .ok (chunk f pos size :: r)

/-- `load_ser_file`, lines 317-362. `none` is what `np.empty` leaves. -/
def load (f : Bytes) : Py (Header × Layout × List (Option Bytes)) := do
  let h ← header f
  if h.valid = 0 then .error .ioError
  else
    let w := offsetWidth h.version
    let first ← readLE f h.arrayOffset w
    let next := intsAt f w h.valid (h.arrayOffset + w)
    let L ← layout f first (kindOf h.dataType) h.tagType
    let r ← elements f L.size first next
    .ok (h, L, r.map some ++ List.replicate (h.valid - r.length) none)

/-! ### Axes and data -/

/-- Fields of an element. -/
def floatAt (f8 : Nat → Rat) (r : Bytes) (o : Nat) : Rat := f8 (leVal (chunk r o 8))
def intAt (r : Bytes) (o : Nat) : Nat := leVal (chunk r o 4)

/-- The values of the array of an element. -/
def valuesAux (s : Nat) : Nat → Bytes → List Bytes
  | 0, _ => []
  | n + 1, b => b.take s :: valuesAux s n (b.drop s)

def values (L : Layout) (r : Bytes) : List Bytes := valuesAux L.item L.count (r.drop L.front)

structure Axis where
  name : Option Text
  offset : Rat
  scale : Rat
  size : Nat
  units : Option Text
  navigate : Bool
  deriving DecidableEq

def tMeters : Text := ['m', 'e', 't', 'e', 'r', 's']
def tPerMeter : Text := ['1', '/', 'm', 'e', 't', 'e', 'r', 's']
def tNm : Text := ['n', 'm']
def tPerNm : Text := ['1', ' ', '/', ' ', 'n', 'm']
def tEV : Text := ['e', 'V']
def tEnergy : Text := ['E', 'n', 'e', 'r', 'g', 'y']

inductive Order | c | f
  deriving DecidableEq

/-- Lines 524-533: the order of the spatial dimensions, from the y positions, if there are any. -/
def orderOf (ys : List Rat) : Order :=
  match ys with
  | a :: b :: _ => if a = b then .f else .c
  | _ => .c

/-- Line 545: the dimension used for axis `i`. -/
def dimFor (order : Order) (ndim i : Nat) : Nat := match order with
  | .c => i
  | .f => ndim - 1 - i

/-- Units of a dimension, lines 550-554, as text (bytes above 127 are not modelled; units of null bytes count as none). -/
def unitsOf (d : Dim) : Option Text :=
  if d.units = [] then none else some (d.units.map fun b => Char.ofNat b.toNat)

/-- Lines 543-569: the axes of the dimensions, `none` for those that are left out. `names` is `spatial_axes`. -/
def navAxes (f8 : Nat → Rat) (kind : Kind) (order : Order) (dims : List Dim) : List Nat → List Text →
    Py (List (Option Axis))
  | [], _ => .ok []
  | i :: is, names =>
    match dims[i]?, dims[dimFor order dims.length i]? with
    | some d, some e =>
      if kind = .spectrum ∨ d.size ≠ 1 then
        if unitsOf e = some tMeters then
          match names.getLast? with
          | none => .error .indexError
          | some n => (navAxes f8 kind order dims is names.dropLast).map
              (some ⟨some n, f8 e.offset, f8 e.delta, e.size, unitsOf e, true⟩ :: ·)
        else (navAxes f8 kind order dims is names).map
          (some ⟨none, f8 e.offset, f8 e.delta, e.size, unitsOf e, true⟩ :: ·)
      else (navAxes f8 kind order dims is names).map (none :: ·)
    | _, _ => .error .keyError

/-- Lines 571-584: series that were stopped. -/
def stopped (h : Header) (onlyValid : Bool) (axes : List (Option Axis)) : Py (List (Option Axis)) :=
  if h.dims.length = 1 ∧ h.total ≠ h.valid ∧ onlyValid then
    if h.valid = 1 then .ok []
    else match axes with
      | some a :: as => .ok (some { a with size := h.valid } :: as)
      | _ => .error .indexError
  else .ok axes

/-- Lines 586-636: the axes of the signal, from the first element. -/
def signalAxes (f8 : Nat → Rat) (kind : Kind) (units : Text) (r : Bytes) : List Axis :=
  match kind with
  | .spectrum => [⟨some tEnergy, floatAt f8 r 0, floatAt f8 r 8, intAt r 22, some tEV, false⟩]
  | .image =>
    [⟨some ['y'], floatAt f8 r 20 - (intAt r 36 : Rat) * floatAt f8 r 28, floatAt f8 r 28, intAt r 46, some units, false⟩,
     ⟨some ['x'], floatAt f8 r 0 - (intAt r 16 : Rat) * floatAt f8 r 8, floatAt f8 r 8, intAt r 42, some units, false⟩]

/-- Lines 638-645. -/
def convert (a : Axis) : Axis :=
  if a.units = some tMeters then { a with units := some tNm, scale := a.scale * 1000000000 }
  else if a.units = some tPerMeter then { a with units := some tPerNm, scale := a.scale / 1000000000 }
  else a

/-- `load_only_data`, lines 697-735, before the rows are flipped: shape and values. `count` is the number of values
of an element, `flat` are the values of all elements. -/
def fillData {V : Type} (fill : V) (shape : List Nat) (ndim valid count : Nat) (flat : List V) (onlyValid : Bool) :
    Py (List Nat × List V) :=
  let r : Py (List Nat × List V) :=
    if size shape ≠ valid * count then
      if ndim = 1 ∧ onlyValid then
        match shape with
        | [] => .error .indexError
        | _ :: s => .ok (valid :: s, flat)
      else if size shape < flat.length then .error .valueError
      else .ok (shape, flat ++ List.replicate (size shape - flat.length) fill)
    else .ok (shape, flat)
  match r with
  | .error e => .error e
  | .ok (s, d) => if size s = d.length then .ok (s, d) else .error .valueError

/-- `dc[..., ::-1, :]`: the index in the file of an index of the result. -/
def flipRows : List Nat → List Nat → List Nat
  | [n, _], [i, j] => [n - 1 - i, j]
  | n :: m :: k :: ns, i :: is => i :: flipRows (m :: k :: ns) is
  | _, is => is

structure Result (V : Type) where
  axes : List Axis
  shape : List Nat
  flat : List V
  flipped : Bool

/-- The value at an index of the result. -/
def Result.value {V : Type} (r : Result V) (idx : List Nat) : Option V :=
  r.flat[flatIndex r.shape (if r.flipped then flipRows r.shape idx else idx)]?

/-- `ser_reader`, lines 505-665, from the header, the first element and the values of all elements. `imageUnits` is the result of
`_guess_units_from_mode` (or `meters`). A list of dimensions that is empty raises, see above. -/
def interpret {V : Type} (f8 : Nat → Rat) (fill : V) (imageUnits : Text) (onlyValid : Bool) (h : Header) (L : Layout)
    (first : Bytes) (ys : List Rat) (arrays : List (List V)) : Py (Result V) :=
  if h.dims.length = 0 then .error .indexError
  else
    match navAxes f8 L.kind (orderOf ys) h.dims (List.range h.dims.length) ([['x'], ['y']].take h.dims.length) with
    | .error e => .error e
    | .ok nav => match stopped h onlyValid nav with
      | .error e => .error e
      | .ok nav =>
        let axes := nav.filterMap id ++ signalAxes f8 L.kind imageUnits first
        match fillData fill (axes.map Axis.size) h.dims.length h.valid L.count arrays.flatten onlyValid with
        | .error e => .error e
        | .ok (s, d) =>
          if s.length = axes.length then .ok ⟨axes.map convert, s, d, decide (L.kind = .image)⟩
          else .error .ioError

/-! ### `.emi` files -/

/-- `tx.find(pat, i)` for `i` that is not negative. -/
def findFrom (pat tx : Bytes) (i : Nat) : Option Nat :=
  (List.range' i (tx.length + 1 - i)).find? fun j => pat.isPrefixOf (tx.drop j)

def tOpen : Bytes := [60, 79, 98, 106, 101, 99, 116, 73, 110, 102, 111, 62]
def tClose : Bytes := [60, 47, 79, 98, 106, 101, 99, 116, 73, 110, 102, 111, 62]

/-- `get_xml_info_from_emi`, lines 365-375: the objects after position `i`. The last entry, which the code
removes, is not made. -/
def objectsAux (tx : Bytes) : Nat → Nat → List Bytes
  | 0, _ => []
  | fuel + 1, i => match findFrom tOpen tx (i + 1) with
    | none => []
    | some s =>
      let stop := match findFrom tClose tx s with
        | none => 12
        | some e => e + 13
      ((tx.take stop).drop s) :: objectsAux tx fuel s

def objects (tx : Bytes) : List Bytes := objectsAux tx (tx.length + 1) 0

def tSer : Text := ['.', 's', 'e', 'r']

/-- `glob(stem + "_[0-9].ser")`, line 260, for stems without special characters: the number of the file. -/
def serNumber (stem name : Text) : Option Nat :=
  ((List.range 10).find? fun d => name = stem ++ ['_'] ++ [Char.ofNat (48 + d)] ++ tSer)

/-- `l[i]`. -/
def pyItem {α : Type} (l : List α) (i : Int) : Option α :=
  if 0 ≤ i then l[i.toNat]? else if (-i).toNat ≤ l.length then l[l.length - (-i).toNat]? else none

/-- Lines 260-282: for each file (in the order of the numbers) the object of its metadata and the object that gives date and
units (lines 515, 607). No object at all: `objects[0]` raises. -/
def emi (stem : Text) (names : List Text) (objs : List Bytes) : Py (List (Nat × Option Bytes × Bytes)) :=
  let ks := (List.range 10).filter fun d => names.any fun n => serNumber stem n = some d
  match objs with
  | [] => if ks = [] then .ok [] else .error .indexError
  | o :: _ => .ok (ks.map fun (k : Nat) =>
      (k, if (k : Int) - 1 < objs.length then pyItem objs ((k : Int) - 1) else none, o))

end Verif.Tia
