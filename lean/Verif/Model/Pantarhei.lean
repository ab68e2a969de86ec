import Verif.Py.Text
import Verif.Model.Npy
/-!
Model of `rsciio/pantarhei/_api.py`: the axes of `.prz` files, and lazy loading.

Simplifications: numbers are rational (the code uses floating point). Metadata is reduced to the entries that
axes depend on. A calibration dictionary without any of the four entries below counts as empty.
-/
namespace Verif.Pantarhei

/-- An array: its shape, and its value at an index. -/
structure Arr (α : Type) where
  shape : List Nat
  val : List Nat → α

/-- `data.ndim`. -/
def Arr.ndim {α : Type} (a : Arr α) : Nat := a.shape.length

/-- A calibration of Panta Rhei; entries may be missing. -/
structure Calib where
  value : Option Rat
  offset : Option Rat
  unit : Option Text
  pixelFactor : Option Rat
  deriving DecidableEq

def Calib.isEmpty (c : Calib) : Bool :=
  c.value.isNone && c.offset.isNone && c.unit.isNone && c.pixelFactor.isNone

/-- The metadata of a file. `eels` is `filter.mode == "EELS"`. -/
structure Meta where
  type : Option Text := none
  contentTypes : Option (List (Option Text)) := none
  userCalib : Option (List (Option Calib)) := none
  inheritedCalib : Option (List (Option Calib)) := none
  deviceCalib : Option (List (Option Calib)) := none
  size : Option (List Nat) := none
  refSize : Option (List Nat) := none
  eels : Bool := false

/-- An axis of the result. -/
structure Axis where
  navigate : Bool
  name : Text
  size : Nat
  units : Option Text
  offset : Option Rat
  scale : Option Rat
  deriving DecidableEq

def tIndex : Text := ['I', 'n', 'd', 'e', 'x']
def tPlotIndex : Text := ['P', 'l', 'o', 't', 'I', 'n', 'd', 'e', 'x']
def tScanX : Text := ['S', 'c', 'a', 'n', 'X']
def tScanY : Text := ['S', 'c', 'a', 'n', 'Y']
def tCameraX : Text := ['C', 'a', 'm', 'e', 'r', 'a', 'X']
def tCameraY : Text := ['C', 'a', 'm', 'e', 'r', 'a', 'Y']
def tPixel : Text := ['P', 'i', 'x', 'e', 'l']
def tEnergy : Text := ['E', 'n', 'e', 'r', 'g', 'y']
def tEnergyLoss : Text := ['E', 'n', 'e', 'r', 'g', 'y', ' ', 'l', 'o', 's', 's']
def t1D : Text := ['1', 'D']
def t3D : Text := ['3', 'D']
def tStack : Text := ['S', 't', 'a', 'c', 'k']

/-! ### Reading -/

/-- Lines 199-222: the content types. -/
def contentTypes (m : Meta) (dims : Nat) : Py (List (Option Text)) :=
  match m.contentTypes with
  | none =>
    .ok (if m.type = some tStack ∨ m.type = some t3D then [none, none, some tIndex]
      else if m.type = some t1D ∧ dims = 3 then [none, some tPlotIndex, some tIndex]
      else if m.type = some t1D then [none, some tPlotIndex]
      else if 3 ≤ dims then none :: none :: List.replicate (dims - 2) (some tIndex)
      else List.replicate dims none)
  | some ct =>
    if m.type = some t1D then
      if ct.length = 1 ∧ dims = 2 then .ok [none, some tPlotIndex]
      else if ct.length = 2 ∧ dims = 3 then .ok [none, some tPlotIndex, some tIndex]
      else if ct.length ≠ dims then .error .runtimeError
      else .ok ct
    else .ok ct

/-- `"Index" in t`. -/
def hasIndex : Text → Bool
  | [] => false
  | c :: t => tIndex.isPrefixOf (c :: t) || hasIndex t

/-- Lines 224-225. -/
def navigationDims : List Text := [tScanY, tScanX, tIndex, tPlotIndex]
def signalDims : List Text := [tCameraY, tCameraX, tPixel, tEnergy, ['*']]

/-- Line 238; `"Index" in None` is a `TypeError`. -/
def isTrivial (n : Nat) (c : Option Text) : Py Bool :=
  if n = 1 then match c with
    | none => .error .typeError
    | some t => .ok (hasIndex t)
  else .ok false

/-- `trivial_indices`, lines 235-239: dimensions `i`, `i + 1`, ... of the sizes and content types. -/
def trivialDims : Nat → List Nat → List (Option Text) → Py (List Nat)
  | i, n :: ns, c :: cs =>
    match isTrivial n c with
    | .error e => .error e
    | .ok b => match trivialDims (i + 1) ns cs with
      | .error e => .error e
      | .ok is => .ok (if b then i :: is else is)
  | _, [], _ => .ok []
  | _, _ :: _, [] => .ok []

/-- `[c for i, c in enumerate(l) if i not in trivial_indices]`: the kept indices. -/
def kept (n : Nat) (triv : List Nat) : List Nat := (List.range n).filter fun i => i ∉ triv

/-- `np.squeeze(data, axis=triv)`. -/
def squeeze {α : Type} (triv : List Nat) (a : Arr α) : Arr α :=
  let ks := kept a.shape.length triv
  ⟨ks.map fun k => a.shape[k]?.getD 0,
    fun idx => a.val ((List.range a.shape.length).map fun k => if k ∈ triv then 0 else idx[ks.idxOf k]?.getD 0)⟩

/-- `_navigation_first`, lines 250-255. -/
def rank (c : Option Text) : Nat :=
  match c with
  | none => (navigationDims ++ signalDims).length
  | some t => (navigationDims ++ signalDims).idxOf t

/-- Stable sorting, `sorted(l, key=key)`. -/
def insertBy (key : Nat → Nat) (x : Nat) : List Nat → List Nat
  | [] => [x]
  | y :: l => if key x ≤ key y then x :: y :: l else y :: insertBy key x l

def sortBy (key : Nat → Nat) : List Nat → List Nat
  | [] => []
  | x :: l => insertBy key x (sortBy key l)

/-- `data_labels`, lines 260-267: the default labels are used up one by one. -/
def labels : List Text → List (Option Text) → Py (List Text)
  | _, [] => .ok []
  | ds, some t :: cs => match labels ds cs with
    | .error e => .error e
    | .ok ls => .ok (t :: ls)
  | d :: ds, none :: cs => match labels ds cs with
    | .error e => .error e
    | .ok ls => .ok (d :: ls)
  | [], none :: _ => .error .stopIteration

/-- Line 258. -/
def defaultLabels (cs : List (Option Text)) : List Text := ([['X'], ['Y'], ['Z']].take (cs.count none)).reverse

/-- `np.moveaxis(data, order, range(n))`. -/
def moveAxes {α : Type} (order : List Nat) (a : Arr α) : Arr α :=
  ⟨order.map fun k => a.shape[k]?.getD 0,
    fun idx => a.val ((List.range order.length).map fun k => idx[order.idxOf k]?.getD 0)⟩

/-- `np.flip(data, axes)`. -/
def flip {α : Type} (axes : List Nat) (a : Arr α) : Arr α :=
  ⟨a.shape, fun idx => a.val (idx.mapIdx fun i v => if i ∈ axes then a.shape[i]?.getD 0 - 1 - v else v)⟩

/-- Lines 301-306. -/
def look {β : Type} (item : List β) (k : Nat) : Py β :=
  match item[k]? with
  | none => .error .runtimeError
  | some v => .ok v

/-- Lines 287-306: lists of the metadata in the order of the result. -/
def reorder {β : Type} (ndim : Nat) (order : List Nat) (old : List β) : Py (List β) :=
  let item := if old.length = ndim + 1 then old.dropLast.reverse else old.reverse
  order.mapM (look item)

def reorder? {β : Type} (ndim : Nat) (order : List Nat) : Option (List β) → Py (Option (List β))
  | none => .ok none
  | some l => match reorder ndim order l with
    | .error e => .error e
    | .ok l => .ok (some l)

/-- Lines 308-331: an axis. -/
def axis (label : Text) (size : Nat) (calib : Option Calib) (flipped : Bool) : Py Axis :=
  let nav := navigationDims.contains label
  match calib with
  | none => .ok ⟨nav, label, size, none, none, none⟩
  | some c =>
    if c.isEmpty then .ok ⟨nav, label, size, none, none, none⟩
    else match c.offset, c.value with
      | some o, some v =>
        let offset := o * v
        let scale := match c.pixelFactor with
          | some p => v * p
          | none => v
        let offset := if flipped then -(offset + ((size : Rat) - 1) * scale) else offset
        .ok ⟨nav, label, size, c.unit, some offset, some scale⟩
      | _, _ => .error .keyError

/-- The axes from axis `i` on. -/
def axes (flipped : List Nat) : Nat → List Text → List Nat → List (Option Calib) → Py (List Axis)
  | i, l :: ls, n :: ns, c :: cs =>
    match axis l n c (decide (i ∈ flipped)) with
    | .error e => .error e
    | .ok a => match axes flipped (i + 1) ls ns cs with
      | .error e => .error e
      | .ok xs => .ok (a :: xs)
  | _, [], _, _ => .ok []
  | _, _ :: _, [], _ => .ok []
  | _, _ :: _, _ :: _, [] => .ok []

/-- `calibrations`, lines 191-197. -/
def calibrations (m : Meta) (dims : Nat) : List (Option Calib) :=
  (List.range dims).map fun k => match m.deviceCalib with
    | none => none
    | some l => l[k]?.getD none

/-- The axes that are flipped, lines 272-277. -/
def flipAxes (eels : Bool) (ls : List Text) : List Nat :=
  if eels then (List.range ls.length).filter fun i => ls[i]? = some tEnergy else []

/-- `import_pr`, lines 168-340: data, axes, and the metadata lists in the order of the result. -/
def importPr {α : Type} (data : Arr α) (m : Meta) : Py (Arr α × List Axis × Meta) :=
  let dims := data.ndim
  match contentTypes m dims with
  | .error e => .error e
  | .ok ct =>
    let ct := ct.reverse
    let calibs := (calibrations m dims).reverse
    if ct.length ≠ dims then .error .runtimeError
    else match trivialDims 0 data.shape ct with
      | .error e => .error e
      | .ok triv =>
        let ks := kept dims triv
        let ct := ks.map fun k => ct[k]?.getD none
        let calibs := ks.map fun k => calibs[k]?.getD none
        let data := squeeze triv data
        let order := sortBy (fun i => rank (ct[i]?.getD none)) (List.range ct.length)
        match labels (defaultLabels ct) (order.map fun i => ct[i]?.getD none) with
        | .error e => .error e
        | .ok ls =>
          let calibs := order.map fun i => calibs[i]?.getD none
          let data := moveAxes order data
          let fl := flipAxes m.eels ls
          let data := flip fl data
          match reorder? data.ndim order m.contentTypes, reorder? data.ndim order m.userCalib,
            reorder? data.ndim order m.inheritedCalib, reorder? data.ndim order m.deviceCalib,
            reorder? data.ndim order m.size, reorder? data.ndim order m.refSize with
          | .ok ct', .ok uc, .ok ic, .ok dc, .ok sz, .ok rs =>
            match axes fl 0 ls data.shape calibs with
            | .error e => .error e
            | .ok xs => .ok (data, xs, { m with
                contentTypes := ct', userCalib := uc, inheritedCalib := ic,
                deviceCalib := dc, size := sz, refSize := rs })
          | _, _, _, _, _, _ => .error .runtimeError

/-- Lines 80-97: the metadata that is used. Files of `file_writer` contain no `meta_data_json`. -/
def loaded (json allowPickle : Bool) (m : Meta) : Meta := if json || allowPickle then m else {}

/-! ### Writing -/

/-- An axis of a signal; entries may be missing. -/
structure AxisIn where
  name : Option Text
  scale : Option Rat
  offset : Option Rat
  units : Option Text
  navigate : Option Bool

/-- `axis_name_to_content_type`, lines 554-559. -/
def contentOf (name : Option Text) : Option Text :=
  if name = some tEnergyLoss then some tEnergy
  else if name = some tEnergy then some tEnergy
  else if name = some tScanX then some tScanY
  else if name = some tScanY then some tScanX
  else none

/-- Lines 658, 604. -/
def prefixFactor (c : Char) : Option Rat :=
  if c = 'm' then some (1 / 1000)
  else if c = 'u' then some (1 / 1000000)
  else if c = 'µ' then some (1 / 1000000)
  else if c = 'n' then some (1 / 1000000000)
  else if c = 'p' then some (1 / 1000000000000)
  else none

def baseUnits : List Text := [['m'], ['A'], ['V'], ['r', 'a', 'd'], ['s'], ['e', 'V']]

/-- `_guess_from_unit`, lines 637-664. -/
def guessFromUnit (scale : Rat) (unit : Text) : Rat × Text :=
  match unit with
  | c :: d :: t => match prefixFactor c with
    | some f => if (d :: t) ∈ baseUnits then (scale * f, d :: t) else (scale, unit)
    | none => (scale, unit)
  | _ => (scale, unit)

/-- `any([v for ...])`, line 586. -/
def AxisIn.calibrated (a : AxisIn) : Bool :=
  (match a.scale with | some s => s != 0 | none => false) ||
  (match a.offset with | some s => s != 0 | none => false) ||
  (match a.units with | some u => !u.isEmpty | none => false)

/-- Lines 579-612: the calibration of an axis. -/
def calibOf (a : AxisIn) (factor : Rat) : Py (Option Calib) :=
  if a.calibrated then
    let value := a.scale.map (· / factor)
    match (match a.offset with
      | none => .ok none
      | some o => match value with
        | none => .error .keyError
        | some v => if v = 0 then .error .zeroDivision else .ok (some (o / v)) : Py (Option Rat)) with
    | .error e => .error e
    | .ok offset => match a.units with
      | none => .ok (some ⟨value, offset, none, none⟩)
      | some u => match value with
        | none => .error .keyError
        | some v => .ok (some ⟨some (guessFromUnit v u).1, offset, some (guessFromUnit v u).2, none⟩)
  else .ok none

/-- The calibrations of axes with the given sizes and reference sizes (numpy order). -/
def calibsOf : List AxisIn → List Nat → List Nat → Py (List (Option Calib))
  | a :: xs, n :: ns, r :: rs =>
    match calibOf a ((r : Rat) / n) with
    | .error e => .error e
    | .ok c => match calibsOf xs ns rs with
      | .error e => .error e
      | .ok cs => .ok (c :: cs)
  | [], _, _ => .ok []
  | _, _, _ => .error .indexError

/-- `get_metadata_from_axes_info` and the rest of `export_pr`, lines 364-371, 539-634. `base`: the metadata
from `_metadata_converter_out`, without `type` for new signals. -/
def exportPr (shape : List Nat) (xs : List AxisIn) (base : Meta) : Py Meta :=
  let refSize := base.refSize.getD shape.reverse
  match calibsOf xs shape refSize.reverse with
  | .error e => .error e
  | .ok cs =>
    let m : Meta := { base with refSize := some refSize }
    let m : Meta := if cs.any Option.isSome then { m with inheritedCalib := some cs.reverse } else m
    let ts := xs.map fun a => contentOf a.name
    .ok (if ts.any Option.isSome then { m with contentTypes := some ts.reverse }
      else if (xs.filter fun a => a.navigate ≠ some true).length = 1 then { m with type := some t1D }
      else m)

/-- `_metadata_converter_out`, lines 451-473, for signals that do not come from a `.prz` file. -/
def newMeta (eels : Bool) : Meta := { eels := eels }

/-- `_metadata_converter_out`, lines 459-471, for signals loaded from a `.prz` file. -/
def oldMeta (m : Meta) : Meta :=
  { m with refSize := m.refSize.map List.reverse, contentTypes := m.contentTypes.map List.reverse,
           userCalib := m.userCalib.map List.reverse, inheritedCalib := m.inheritedCalib.map List.reverse,
           deviceCalib := m.deviceCalib.map List.reverse }

/-! ### Lazy loading -/

/-- Lines 102-128: the bytes that are mapped. `header` is the offset of the local header of the member
`data.npy`, `npy` the content of the member (decompressed by `zipfile`); `parse` returns the shape, the size
of the elements and the rest of the header. -/
def lazyBytes {β : Type} (parse : Npy.Enc → List UInt8 → Py (List Nat × Nat × β)) (file : List UInt8)
    (header : Nat) (npy : List UInt8) : Py (List Nat × List UInt8) :=
  match Npy.inspectNpy parse npy with
  | .error e => .error e
  | .ok (off, (shape, item, _), _) =>
    let h := (file.drop header).take 30
    if h.length < 30 then .error .structError
    else
      let nameLen := leVal ((h.drop 26).take 2)
      let extraLen := leVal ((h.drop 28).take 2)
      let offset := header + 30 + nameLen + extraLen + off
      let n := shape.prod * item
      -- `np.memmap` in read mode: the file must be long enough
      if file.length < offset + n then .error .valueError
      else .ok (shape, (file.drop offset).take n)

/-- `prz_file["data"]`: the bytes of the array, in the order they are stored in. -/
def eagerBytes {β : Type} (parse : Npy.Enc → List UInt8 → Py (List Nat × Nat × β)) (npy : List UInt8) :
    Py (List Nat × List UInt8) :=
  match Npy.inspectNpy parse npy with
  | .error e => .error e
  | .ok (_, (shape, item, _), rest) =>
    let n := shape.prod * item
    if rest.length < n then .error .valueError else .ok (shape, rest.take n)

/-- Position of an element among the stored elements in C order. -/
def cOrder (shape idx : List Nat) : Nat := (shape.zip idx).foldl (fun acc p => acc * p.1 + p.2) 0

/-- The element at `idx` of the lazy array. `inspect_npy_bytes` does not return `fortran_order` and
`memmap_distributed` maps in C order. -/
def lazyElem (parse : Npy.Enc → List UInt8 → Py (List Nat × Nat × Bool)) (file : List UInt8) (header : Nat)
    (npy : List UInt8) (item : Nat) (idx : List Nat) : Py (List UInt8) :=
  match lazyBytes parse file header npy with
  | .error e => .error e
  | .ok (shape, bs) => .ok ((bs.drop (cOrder shape idx * item)).take item)

/-- The element at `idx` of `prz_file["data"]`; numpy follows `fortran_order` (last entry of the header). -/
def eagerElem (parse : Npy.Enc → List UInt8 → Py (List Nat × Nat × Bool)) (npy : List UInt8) (idx : List Nat) :
    Py (List UInt8) :=
  match Npy.inspectNpy parse npy with
  | .error e => .error e
  | .ok (_, (shape, item, fortran), rest) =>
    if rest.length < shape.prod * item then .error .valueError
    else
      let k := if fortran then cOrder shape.reverse idx.reverse else cOrder shape idx
      .ok ((rest.drop (k * item)).take item)

end Verif.Pantarhei
