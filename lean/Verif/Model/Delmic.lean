import Verif.Py.Assoc
import Verif.Py.Basic
import Verif.Py.Ravel
import Mathlib.Data.Rat.Defs
import Mathlib.Algebra.Order.Ring.Rat
import Mathlib.Algebra.Order.Group.Unbundled.Abs
import Mathlib.Data.List.Sort
/-!
Model of `rsciio/delmic/_api.py` (HDF5 files of Delmic, written by Odemis).

A file is the list of the objects at its root, as `h5py` delivers them. Simplified: numbers in the
file are exact rationals without NaN, a dataset of `ImageData` is the list of its values, the data is a
list in C order. What `datetime.fromtimestamp` makes of a number is external. Exceptions in parts that the code guards are
the values of the guard. Not modelled: log messages.
-/
namespace Verif.Delmic

/-- `AcquisitionType`, lines 69-85. -/
inductive Kind | pmt | ar | ek1 | tempSpec | temporal | spectrum | se | anchor | unknown | survey
  deriving DecidableEq

/-- `tuple(AcquisitionType)`. -/
def kinds : List Kind := [.pmt, .ar, .ek1, .tempSpec, .temporal, .spectrum, .se, .anchor, .unknown, .survey]

/-- `CL_ACQ_TYPES`, lines 89-96. -/
def clKinds : List Kind := [.pmt, .ar, .ek1, .tempSpec, .temporal, .spectrum]

/-- Values of metadata. -/
inductive V | str (t : Text) | num (q : ℚ) | list (l : List V) | dict (d : List (Text × V))

/-- The attribute `State`: absent, one number, or a list. -/
inductive State | absent | scalar (n : Nat) | list (l : List Nat)
  deriving DecidableEq

/-- An entry of `PhysicalData`: is it a dataset, its state, and its value as a Python object (none: the conversion fails). -/
structure Item where
  dataset : Bool
  state : State
  value : Option V

/-- A group with `SVIData`, `PhysicalData` and `ImageData/Image`. -/
structure Acq where
  name : Text
  isDataset : Bool
  labels : List Text
  shape : List Nat
  data : List Nat
  image : List (Text × List ℚ)
  physical : List (Text × Item)
  /-- The dataset `Title`: absent, or its text, if it is one. -/
  title : Option (Option Text)
  svi : List (Text × Text)

/-- An object at the root: a group or not, and the acquisition, if its parts are there. -/
structure Obj where
  name : Text
  group : Bool
  acq : Option Acq

/-- What `datetime.fromtimestamp` makes of a number: date and time. -/
abbrev Utc := ℚ → Option (Text × Text)

/-- Calibration of an axis: none, a list of positions, or a straight line. -/
inductive Cal
  | none
  | values (l : List ℚ) (units : Text)
  | line (size : Nat) (offset scale : ℚ) (units : Text)
  deriving DecidableEq

/-- An axis. The keys `navigate` are in `Cal`: false for a list of positions, true for a line. -/
structure Axis where
  name : Text
  cal : Cal
  deriving DecidableEq

/-- `metadata`. -/
structure Meta where
  title : Text
  signalType : Text
  polarization : Option V
  date : Option (Text × Text)

/-- A signal. -/
structure Sig where
  kind : Kind
  shape : List Nat
  data : List Nat
  axes : List Axis
  metadata : Meta
  original : List (Text × V)

/-- `load_image`, lines 133-149. -/
def loadImage (a : Acq) : Py (List Nat × List Nat) :=
  if !a.isDataset then .error .typeError
  else if a.shape.length ≠ 5 then .error .valueError
  else .ok (a.shape, a.data)

/-- `get_unit_prefix`, lines 152-166. -/
def prefixOf (q : ℚ) : Text :=
  if 1 / 1000000000000000 ≤ |q| ∧ |q| < 1 / 1000000000000 then ['f']
  else if 1 / 1000000000000 ≤ |q| ∧ |q| < 1 / 1000000000 then ['p']
  else if 1 / 1000000000 ≤ |q| ∧ |q| < 1 / 1000000 then ['n']
  else if 1 / 1000000 ≤ |q| ∧ |q| < 1 / 1000 then ['µ']
  else if 1 / 1000 ≤ |q| ∧ |q| < 1 then ['m']
  else []

/-- `unit_factor`, lines 169-173. -/
def factorOf (p : Text) : ℚ :=
  if p = ['f'] then 1000000000000000
  else if p = ['p'] then 1000000000000
  else if p = ['n'] then 1000000000
  else if p = ['µ'] then 1000000
  else if p = ['m'] then 1000
  else 1

/-- `np.mean`. -/
def mean (l : List ℚ) : ℚ := l.sum / l.length

/-- `AXIS_INFO`, lines 183-195: name of the axis, of the scale, and of the offset. -/
def axisInfo (label : Text) : Option (Text × Text × Text) :=
  if label = ['C'] then some ("Wavelength".toList, "DimensionScaleC".toList, [])
  else if label = ['T'] then some ("Time".toList, "DimensionScaleT".toList, [])
  else if label = ['A'] then some ("Angle".toList, "DimensionScaleA".toList, [])
  else if label = ['Z'] then some ("Z".toList, "DimensionScaleZ".toList, "ZOffset".toList)
  else if label = ['Y'] then some ("Y".toList, "DimensionScaleY".toList, "YOffset".toList)
  else if label = ['X'] then some ("X".toList, "DimensionScaleX".toList, "XOffset".toList)
  else none

/-- Lines 225-235 and 236-245: positions in a unit that fits. -/
def valuesCal (scale : List ℚ) (unit : Char) : Cal :=
  .values (scale.map fun x => x * factorOf (prefixOf (mean scale))) (prefixOf (mean scale) ++ [unit])

/-- Lines 258-285: one pixel size, and the centre of the image; none: an exception, caught in line 286. -/
def lineCal (flip : Bool) (size : Nat) (scale : List ℚ) (center : Option (List ℚ)) : Cal :=
  match scale, center with
  | [s], some [c] =>
    let p := prefixOf s
    let s' := if flip then -s else s
    .line size ((c - ((size : ℚ) - 1) / 2 * s') * factorOf p) (s' * factorOf p) (p ++ ['m'])
  | _, _ => .none

/-- `make_axes`, lines 199-287: one axis. -/
def makeAxis (img : List (Text × List ℚ)) (label : Text) (size : Nat) : Axis :=
  match axisInfo label with
  | none => ⟨label, .none⟩
  | some (name, scaleKey, offsetKey) =>
    match getKw scaleKey img with
    | none => ⟨name, .none⟩
    | some scale =>
      if name = "Wavelength".toList then ⟨name, valuesCal scale 'm'⟩
      else if name = "Time".toList then ⟨name, valuesCal scale 's'⟩
      else if name = "Angle".toList then ⟨name, .values ((List.range size).map fun i : Nat => (i : ℚ)) []⟩
      else ⟨name, lineCal (name = "Y".toList) size scale (getKw offsetKey img)⟩

/-- `make_axes`, lines 176-289. -/
def makeAxes (a : Acq) : List Axis := (a.labels.zip a.shape).map fun d => makeAxis a.image d.1 d.2

/-- `_h5svi_get_state`, lines 98-112, and lines 367-369: is the entry kept? An absent state raises `KeyError`, which is not the exception that is caught. -/
def keepItem : State → Py Bool
  | .absent => .error .keyError
  | .scalar _ => .error .typeError
  | .list [] => .error .indexError
  | .list (n :: _) => .ok (n ≠ 111)

/-- `make_original_metadata`, lines 359-387: one entry. -/
def addItem (d : List (Text × V)) (e : Text × Item) : Py (List (Text × V)) :=
  if !e.2.dataset then .ok d
  else if e.1 = "Title".toList then .ok d
  else do
    let b ← keepItem e.2.state
    if b then
      match e.2.value with
      | some v => pure (setKw e.1 v d)
      | none => pure d
    else pure d

/-- Lines 398-405: the entries of `SVIData` that are there. -/
def sviEntries (svi : List (Text × Text)) : List (Text × V) :=
  ["Company".toList, "WriterVersion".toList].filterMap fun k => (getKw k svi).map fun t => (k, .str t)

/-- `make_original_metadata`, lines 349-407. -/
def originalMetadata (a : Acq) : Py (List (Text × V)) := do
  let d ← a.physical.foldlM addItem []
  match getKw "TOffset".toList a.image with
  | some [t] => pure (setKw "SVIData".toList (.dict (sviEntries a.svi)) (setKw "HDF5Group".toList (.str a.name) (setKw "AcquisitionDate".toList (.num t) d)))
  | some _ => .error .typeError
  | none => .error .keyError

/-- `get_axis_length`, lines 417-421. -/
def axisLength (name : String) : List Axis → List Nat → Nat
  | x :: axes, n :: shape => if x.name = name.toList then n else axisLength name axes shape
  | _, _ => 1

/-- Is a value a text? -/
def isText (v : V) (t : String) : Bool := match v with
  | .str s => s = t.toList
  | _ => false

/-- Is a value a list? -/
def isList : Option V → Bool
  | some (.list _) => true
  | _ => false

/-- `guess_signal_type`, lines 410-457. -/
def guessKind (shape : List Nat) (axes : List Axis) (om : List (Text × V)) : Py Kind :=
  match getKw "ChannelDescription".toList om with
  | none => .error .keyError
  | some title =>
    if isText title "Anchor region" then .ok .anchor
    else
      let c := axisLength "Wavelength" axes shape
      let a := axisLength "Angle" axes shape
      let t := axisLength "Time" axes shape
      if a > 1 then if c > 1 then .ok .ek1 else .ok .unknown
      else if t > 1 then if c = 1 then .ok .temporal else .ok .tempSpec
      else if c > 1 then .ok .spectrum
      else if isList (getKw "PolePosition".toList om) then .ok .ar
      else if isText title "Secondary electrons concurrent" then .ok .se
      else if isText title "Secondary electrons survey" then .ok .survey
      else if isText title "CL intensity" then .ok .pmt
      else .ok .unknown

/-- `ACQ_TO_SIGNAL_TYPE`, lines 311-316. -/
def signalType : Kind → Text
  | .tempSpec => "LumiTransientSpectrum".toList
  | .temporal => "LumiTransient".toList
  | .spectrum => "CL_SEM".toList
  | _ => []

/-- `make_metadata`, lines 292-346, with `read_image_title`, lines 115-130. -/
def makeMetadata (utc : Utc) (a : Acq) (k : Kind) (om : List (Text × V)) : Py Meta :=
  match a.title with
  | none => .error .keyError
  | some t => .ok { title := t.getD "__unnamed__".toList, signalType := signalType k, polarization := getKw "Polarization".toList om,
                    date := match getKw "AcquisitionDate".toList om with
                      | some (.num q) => utc q
                      | _ => none }

/-- `read_acquisition`, lines 460-477. -/
def readAcquisition (utc : Utc) (a : Acq) : Py Sig := do
  let d ← loadImage a
  let axes := makeAxes a
  let om ← originalMetadata a
  let k ← guessKind d.1 axes om
  let md ← makeMetadata utc a k om
  pure { kind := k, shape := d.1, data := d.2, axes := axes, metadata := md, original := om }

/-- The acquisition date. -/
def dateOf (s : Sig) : ℚ := match getKw "AcquisitionDate".toList s.original with
  | some (.num q) => q
  | _ => 0

/-- `sorted(l, key=key)`. -/
def sortBy {α β : Type} [LE β] [DecidableLE β] (key : α → β) (l : List α) : List α := l.insertionSort fun x y => key x ≤ key y

/-- The axis of pixels of the camera, lines 529-540. -/
def pixelAxis (name : String) (n : Nat) : Axis := ⟨name.toList, .values ((List.range n).map fun i : Nat => (i : ℚ)) []⟩

/-- `merge_ar_data`, lines 480-551; lists are not empty, arrays have five dimensions. -/
def mergeAr (ars : List Sig) (se : Sig) : Py Sig :=
  match se.shape.drop 3, se.axes.drop 3, sortBy dateOf ars with
  | [y, x], [ay, ax], ar0 :: rest =>
    if x * y ≠ ars.length then .error .valueError
    else match ar0.shape.drop 3 with
      | [b, a] =>
        if rest.any (fun s => s.shape ≠ ar0.shape) then .error .valueError
        else if size [y, x, b, a] ≠ ((ar0 :: rest).map fun s => s.data).flatten.length then .error .valueError
        else .ok { kind := ar0.kind, shape := [y, x, b, a], data := ((ar0 :: rest).map fun s => s.data).flatten,
                   axes := [ay, ax, pixelAxis "Angle B" b, pixelAxis "Angle A" a], metadata := ar0.metadata, original := ar0.original }
      | _ => .error .valueError
  | _, _, _ => .error .indexError

/-- `squeeze_dimensions`, lines 554-569: dimensions of length one are removed, with their axes. -/
def squeeze (s : Sig) : Sig :=
  { s with shape := s.shape.filter (· ≠ 1), axes := ((s.shape.zip s.axes).filter fun d => d.1 ≠ 1).map Prod.snd }

/-- `HS_AXES_ORDER`, line 572. -/
def axesOrder : List Text := ["Z".toList, "Y".toList, "X".toList, "Time".toList, "Angle".toList, "Wavelength".toList]

/-- `index_in_axes`, lines 587-591. -/
def axisRank (n : Text) : Nat := if n ∈ axesOrder then axesOrder.idxOf n else axesOrder.length + 1

/-- `np.transpose(data, order)`: all values in C order of the new shape. -/
def transpose (order shape data : List Nat) : List Nat :=
  ravel (order.map fun i => shape.getD i 0) fun idx =>
    data.getD (flatIndex shape ((List.range shape.length).map fun k => idx.getD (order.idxOf k) 0)) 0

/-- `reorder_dimensions`, lines 575-602; `np.moveaxis` rejects an axis that is there twice. -/
def reorder (s : Sig) : Py Sig :=
  let names := s.axes.map Axis.name
  let sorted := sortBy axisRank names
  if sorted = names then .ok s
  else
    let order := sorted.map fun n => names.idxOf n
    if !decide order.Nodup then .error .valueError
    else .ok { s with shape := order.map fun i => s.shape.getD i 0, data := transpose order s.shape s.data,
                      axes := order.filterMap fun i => s.axes[i]? }

/-- Lines 627-635: the types that are asked for. -/
def wanted (signal : Text) : Py (List Kind) :=
  if signal = "all".toList then .ok kinds
  else if signal = "cl".toList then .ok clKinds
  else if signal = "survey".toList then .ok [.survey]
  else if signal = "se".toList then .ok [.se]
  else if signal = "anchor".toList then .ok [.anchor]
  else .error .valueError

/-- Does a text start with "Acquisition"? -/
def isAcquisition (t : Text) : Bool := t.take 11 = "Acquisition".toList

/-- Lines 646-664: the acquisitions that can be read, in the order of the file. -/
def acquisitions (utc : Utc) (file : List Obj) : List Sig :=
  file.filterMap fun o =>
    if !o.group || !isAcquisition o.name then none
    else match o.acq with
      | none => none
      | some a => match readAcquisition utc a with
        | .ok s => some s
        | .error _ => none

/-- A key of the dictionary of polarizations; others cannot be hashed. -/
def polKey (s : Sig) : Py (Option Text ⊕ ℚ) :=
  match getKw "Polarization".toList s.original with
  | none => .ok (.inl none)
  | some (.str t) => .ok (.inl (if t = [] then none else some t))
  | some (.num q) => .ok (.inr q)
  | some _ => .error .typeError

/-- `ar_data[pol].append(data)`, lines 672-675. -/
def addGroup {κ : Type} [DecidableEq κ] (k : κ) (s : Sig) : List (κ × List Sig) → List (κ × List Sig)
  | [] => [(k, [s])]
  | (k', l) :: g => if k' = k then (k', l ++ [s]) :: g else (k', l) :: addGroup k s g

/-- Lines 667-675: groups of angle-resolved data with one polarization. -/
def groups (ars : List Sig) : Py (List ((Option Text ⊕ ℚ) × List Sig)) :=
  ars.foldlM (fun g s => do let k ← polKey s; pure (addGroup k s g)) []

/-- Lines 693-702: merged, or as they are. -/
def mergeGroup (se : Sig) (ars : List Sig) : List Sig := match mergeAr ars se with
  | .ok s => [s]
  | .error _ => ars

/-- Lines 686-702: angle-resolved data. Without concurrent SEM data the keys of the dictionary are passed on, which are no signals. -/
def mergeAll (se : Option Sig) (gs : List ((Option Text ⊕ ℚ) × List Sig)) : Py (List Sig) :=
  match gs, se with
  | [], _ => .ok []
  | _ :: _, none => .error .typeError
  | g :: gs, some se => .ok ((g :: gs).flatMap fun g => mergeGroup se g.2)

/-- Place of a type in the enumeration. -/
def kindRank (k : Kind) : Nat := kinds.idxOf k

/-- `file_reader`, lines 605-717. -/
def read (utc : Utc) (signal : Text) (lazy : Bool) (file : List Obj) : Py (List Sig) :=
  if lazy then .error .notImplemented
  else do
    let ws ← wanted signal
    let l := acquisitions utc file
    let gs ← groups (if Kind.ar ∈ ws then l.filter fun s => s.kind = .ar else [])
    let merged ← mergeAll (l.filter fun s => s.kind = .se).getLast? gs
    let found := (l.filter fun s => s.kind ∈ ws ∧ s.kind ≠ .ar) ++ merged
    if found = [] then .error .ioError
    else do
      let r ← found.mapM fun s => reorder (squeeze s)
      pure (sortBy (fun s => kindRank s.kind) r)

end Verif.Delmic
