import Verif.Model.Renishaw
import Verif.Py.Float32
import Verif.Py.Ravel
/-!
Model of `rsciio/renishaw/_api.py`, second part: header, axes and data of a `.wdf` file.

Simplifications: arithmetic of floating-point numbers is exact rational arithmetic; positions are finite numbers; counts in the header are less than
`2^63`; texts and dates of the header, the blocks `YLST` (but for what it raises) and `TEXT` and the pixels of the white light image (`WHTL`) are left out; `map_metadata` is in `RenishawMeta`. The intensities are bit
patterns of single-precision numbers, or means. The unit of a number that is not in `UnitType` is `0` (`str` of `DefaultEnum.Unknown`, Python 3.11).
-/
namespace Verif.Renishaw

/-- The absolute value of the double-precision number with these bits (finite). -/
def f64Abs (n : Nat) : Rat :=
  if n / 2 ^ 52 = 0 then (n : Rat) * (2 : Rat) ^ (-1074 : Int)
  else ((2 ^ 52 + n % 2 ^ 52 : Nat) : Rat) * (2 : Rat) ^ ((n / 2 ^ 52 : Nat) - 1075 : Int)

/-- The double-precision number with these bits (finite). -/
def f64Dec (n : Nat) : Rat := if n < 2 ^ 63 then f64Abs n else -f64Abs (n - 2 ^ 63)

/-- `np.fromfile` with a count of `n` numbers of `w` bytes at `o`: fewer at the end of the file. -/
def numbers (f : Bytes) (o w n : Nat) : List Nat :=
  (List.range (min n ((f.length - o) / w))).map fun k => leVal (chunk f (o + w * k) w)

/-- `MeasurementType`, lines 196-200 (`DefaultEnum` has the name `Unknown`). -/
inductive Kind where
  | unspecified
  | single
  | series
  | mapping
  | unknown
  deriving DecidableEq

/-- `MeasurementType(...)`. -/
def kindOf (n : Nat) : Kind :=
  if n = 0 then .unspecified else if n = 1 then .single else if n = 2 then .series else if n = 3 then .mapping else .unknown

/-- The part of the header that is used for axes and data. -/
structure Header where
  points : Nat
  capacity : Nat
  spectra : Nat
  ylst : Nat
  kind : Kind
  deriving DecidableEq

/-- `_unfinished_measurement`, line 812. -/
def Header.unfinished (h : Header) : Bool := h.spectra ≠ h.capacity

/-- `_parse_WDF1`, lines 761-822. The laser wavenumber is the last number that is read. -/
def readHeader (f : Bytes) (blocks : Blocks) : Py Header :=
  match getKw "WDF1_1".toList blocks with
  | none => .error .keyError
  | some (pos, _) => do
    let points ← number f (pos + 44) 4
    let capacity ← number f (pos + 48) 8
    let spectra ← number f (pos + 56) 8
    let ylst ← number f (pos + 68) 4
    let xlst ← number f (pos + 72) 4
    let kind ← number f (pos + 116) 4
    let _ ← number f (pos + 140) 4
    if points ≠ xlst then .error .runtimeError
    else .ok ⟨points, capacity, spectra, ylst, kindOf kind⟩

/-- `str(UnitType(...))`, lines 234-303. -/
def unitText (n : Nat) : Text :=
  (["", "1/cm", "nm", "nm", "eV", "µm", "counts", "electrons", "mm", "m", "K", "Pa", "s", "ms", "h", "d", "px", "", "", "°", "rad",
    "°C", "°F", "K/min", "ns", "µs"].getD n "0").toList

/-- `DataType(...).name`, lines 311-339. -/
def typeName (n : Nat) : Text :=
  (["Arbitrary", "Spectral", "Intensity", "X", "Y", "Z", "Spatial_R", "Spatial_Theta", "Spatial_Phi", "Temperature", "Pressure", "Time",
    "Derivative", "Polarization", "FocusTrack_Z", "TempRampRate", "SpectrumDataChecksum", "BitFlags", "ElapsedTimeIntervals",
    "Frequency", "Unknown", "Unknown", "Mp_Well_Spatial_X", "Mp_Well_Spatial_Y", "Mp_LocationIndex", "Mp_WellReference",
    "EndMarker", "ExposureTime"].getD n "Unknown").toList

/-- Calibration of an axis. `root s` stands for the scale `sqrt(s)` and the offset 0, `undefined` for a scale of NaN. -/
inductive Cal where
  | uniform (offset scale : Rat)
  | root (s : Rat)
  | points (bits : List Nat)
  | index
  | undefined (offset : Rat)
  deriving DecidableEq

/-- An axis. -/
structure Axis where
  name : Text
  units : Option Text
  size : Nat
  navigate : Bool
  cal : Cal
  deriving DecidableEq

/-- `_convert_signal_axis_name`, lines 843-853. -/
def signalName (unit : Nat) : Text :=
  (if unit = 1 then "Raman Shift" else if unit = 2 then "Wavenumber" else if unit = 3 ∨ unit = 5 then "Wavelength" else "Unknown").toList

/-- `_fit_axis`, lines 879-889: the straight line of least squares (offset, scale). -/
def fitAxis (d : List Rat) : Rat × Rat :=
  let n : Rat := d.length
  let xm := (n - 1) / 2
  let ym := d.sum / n
  let sxy := ((d.zipIdx).map fun e => ((e.2 : Rat) - xm) * e.1).sum
  let sxx := ((List.range d.length).map fun (k : Nat) => ((k : Rat) - xm) * ((k : Rat) - xm)).sum
  let scale := sxy / sxx
  (ym - scale * xm, scale)

/-- `_parse_XLST`, lines 824-877: the axis, and whether it was reversed. -/
def readXlst (f : Bytes) (blocks : Blocks) (points : Nat) (uniform : Bool) : Py (Axis × Bool) :=
  match getKw "XLST_0".toList blocks with
  | none => .error .runtimeError
  | some (pos, _) => do
    let _ ← number f pos 4
    let unit ← number f (pos + 4) 4
    let data := numbers f (pos + 8) 4 points
    match data with
    | a :: b :: _ =>
      let reversed : Bool := f32Dec a > f32Dec b
      let data := if reversed then data.reverse else data
      let cal := if uniform then
          let r := fitAxis (data.map f32Dec)
          Cal.uniform r.1 r.2
        else Cal.points data
      .ok (⟨signalName unit, some (unitText unit), if uniform then points else data.length, false, cal⟩, reversed)
    | _ => .error .indexError

/-- `_parse_YLST`, lines 891-904: what it raises. -/
def checkYlst (f : Bytes) (blocks : Blocks) (size : Nat) : Py Unit :=
  match getKw "YLST_0".toList blocks with
  | none => .ok ()
  | some (pos, _) => do
    let _ ← number f pos 4
    let _ ← number f (pos + 4) 4
    if size = 1 ∧ numbers f (pos + 8) 4 1 = [] then .error .indexError else .ok ()

/-- An entry of the block `ORGN`; its annotation is missing when it cannot be decoded (lines 931-933). -/
structure Origin where
  units : Text
  annotation : Bool
  data : List Rat
  deriving DecidableEq

/-- `_set_data_for_ORGN`, lines 963-973. -/
def originData (name : Text) (raw : List Nat) : Py (List Rat) :=
  if name = "Time".toList then match raw with
    | [] => .error .indexError
    | a :: _ => .ok (raw.map fun (v : Nat) => (v : Rat) - (a : Rat))
  else .ok (raw.map f64Dec)

/-- The loop of `_parse_ORGN`, lines 924-943: `n` entries from `pos` on. -/
def originLoop (f : Bytes) (spectra : Nat) : Nat → Nat → List (Text × Origin) → Py (List (Text × Origin))
  | 0, _, nav => .ok nav
  | n + 1, pos, nav => do
    let type ← number f pos 4
    let unit ← number f (pos + 4) 4
    let name := typeName (type % 2 ^ 31)
    let raw := numbers f (pos + 24) 8 spectra
    let data ← originData name raw
    let nav := if name = "SpectrumDataChecksum".toList ∨ name = "BitFlags".toList then nav
      else setKw name ⟨unitText unit, (decode (chunk f (pos + 8) 16)).isOk, data⟩ nav
    originLoop f spectra n (if raw.length < spectra then f.length else pos + 24 + 8 * spectra) nav

/-- `_parse_ORGN`, lines 906-949. -/
def readOrgn (f : Bytes) (blocks : Blocks) (h : Header) : Py (List (Text × Origin)) :=
  match getKw "ORGN_0".toList blocks with
  | none => .ok []
  | some (pos, _) => do
    let count ← number f pos 4
    let nav ← originLoop f h.spectra count (pos + 4) []
    if h.kind ≠ .series ∨ 1 < nav.length then .ok (delKw "Time".toList nav) else .ok nav

/-- The block `WMAP`. -/
structure WMap where
  flag : Nat
  offset : List Rat
  scale : List Rat
  size : List Nat
  deriving DecidableEq

/-- `_parse_WMAP`, lines 975-999. -/
def readWmap (f : Bytes) (blocks : Blocks) : Py (Option WMap) :=
  match getKw "WMAP_0".toList blocks with
  | none => .ok none
  | some (pos, _) => do
    let flag ← number f pos 4
    let ox ← number f (pos + 8) 4
    let oy ← number f (pos + 12) 4
    let sx ← number f (pos + 20) 4
    let sy ← number f (pos + 24) 4
    let nx ← number f (pos + 32) 4
    let ny ← number f (pos + 36) 4
    let _ ← number f (pos + 44) 4
    .ok (some ⟨flag, [f32Dec ox, f32Dec oy], [f32Dec sx, f32Dec sy], [nx, ny]⟩)

/-- `_set_nav_via_WMAP` and `_set_wmap_nav_linexy`, lines 1001-1034. -/
def navWmap (h : Header) (w : WMap) (units : Text) : List (Text × Axis) :=
  let x : Axis := ⟨"X".toList, some units, w.size.getD 0 0, true, .uniform (w.offset.getD 0 0) (w.scale.getD 0 0)⟩
  let y : Axis := ⟨"Y".toList, some units, w.size.getD 1 0, true, .uniform (w.offset.getD 1 0) (w.scale.getD 1 0)⟩
  let y := if h.unfinished then { y with size := h.spectra / x.size } else y
  if w.flag = 128 then
    [("Distance".toList, { x with
      name := "Abs. Distance".toList,
      cal := .root (w.scale.getD 0 0 * w.scale.getD 0 0 + w.scale.getD 1 0 * w.scale.getD 1 0) })]
  else [("X".toList, x), ("Y".toList, y)]

/-- `np.mean(np.diff(data))`; none stands for NaN. -/
def meanDiff (d : List Rat) : Option Rat :=
  if d.length < 2 then none else some ((d.zipWith (fun a b => b - a) d.tail).sum / ((d.length : Rat) - 1))

/-- One axis of `_set_nav_via_ORGN`, lines 1059-1083; `del nav_dict[axis]["annotation"]` raises if there is none. -/
def originAxis (name : Text) (o : Origin) : Py Axis :=
  if ¬ o.annotation then .error .keyError
  else match meanDiff o.data with
  | none =>
    if name = "FocusTrack_Z".toList then .ok ⟨name, none, o.data.length, true, .index⟩
    else match o.data with
      | [] => .error .indexError
      | a :: _ => .ok ⟨name, some o.units, o.data.length, true, .undefined a⟩
  | some scale =>
    if name = "FocusTrack_Z".toList ∨ scale = 0 then .ok ⟨name, none, o.data.length, true, .index⟩
    else .ok ⟨name, some o.units, o.data.length, true, .uniform (o.data.headD 0) scale⟩

/-- `_set_nav_axes`, lines 1036-1050, with what `_compare_measurement_type_to_ORGN_WMAP` raises (line 1092). -/
def navAxes (h : Header) (orgn : List (Text × Origin)) (wmap : Option WMap) : Py (List (Text × Axis)) :=
  match h.kind with
  | .unknown => .error .valueError
  | .mapping => match orgn with
    | [] => .error .stopIteration
    | (_, o) :: _ => match wmap with
      | none => .error .keyError
      | some w => .ok (navWmap h w o.units)
  | .series => orgn.mapM fun e => (originAxis e.1 e.2).map fun a => (e.1, a)
  | _ => .ok []

/-- `_set_axes`, lines 1111-1122. -/
def setAxes (signal : Axis) (nav : List (Text × Axis)) : Py (List Axis) :=
  match nav with
  | [] => .ok [signal]
  | [a] => .ok [a.2, signal]
  | [a, b] => match getKw "Y".toList [a, b], getKw "X".toList [a, b] with
    | some y, some x => .ok [y, x, signal]
    | _, _ => .error .keyError
  | _ => .error .keyError

/-- An intensity: a stored number (bits), or a mean. -/
inductive Cell where
  | raw (bits : Nat)
  | mean (v : Rat)
  deriving DecidableEq

/-- `_parse_DATA`, lines 1124-1132. -/
def readData (f : Bytes) (blocks : Blocks) (h : Header) : Py (List Nat) :=
  match getKw "DATA_0".toList blocks with
  | none => .error .runtimeError
  | some (pos, _) => .ok (numbers f pos 4 (h.points * h.spectra))

/-- `np.mean(data.reshape(n, -1), axis=0)`, line 1148. -/
def meanRows (n : Nat) (d : List Nat) : Py (List Cell) :=
  if n = 0 ∨ d.length % n ≠ 0 then .error .valueError
  else .ok ((List.range (d.length / n)).map fun k =>
    .mean (((List.range n).map fun i => f32Dec (d.getD (i * (d.length / n) + k) 0)).sum / (n : Rat)))

/-- `np.flip` along the last axis of length `s`. -/
def flipLast (s : Nat) (d : List Cell) : List Cell :=
  (List.range d.length).map fun i => d.getD (i / s * s + (s - 1 - i % s)) (.raw 0)

/-- `_reshape_data`, lines 1134-1157: `nav` are the sizes of the navigation axes. -/
def reshape (h : Header) (nav : List Nat) (signal : Nat) (reversed : Bool) (d : List Nat) : Py (List Nat × List Cell) := do
  let cells ← if ¬ h.unfinished ∧ h.spectra ≠ size nav then meanRows h.spectra d else .ok (d.map Cell.raw)
  let shape := nav ++ [signal]
  let cells := cells.take (size shape)
  if cells.length ≠ size shape then .error .valueError
  else .ok (shape, if reversed then flipLast signal cells else cells)

/-- The dictionary of a file. -/
structure Result where
  axes : List Axis
  shape : List Nat
  data : List Cell
  metadata : List (Text × Dict)

/-- `read_file`, lines 440-479. -/
def readFile (f : Bytes) (blocks : Blocks) (uniform : Bool) : Py Result := do
  let h ← readHeader f blocks
  checkYlst f blocks h.ylst
  let m ← readMeta f blocks
  let (signal, reversed) ← readXlst f blocks h.points uniform
  let orgn ← readOrgn f blocks h
  let wmap ← readWmap f blocks
  let nav ← navAxes h orgn wmap
  let axes ← setAxes signal nav
  let data ← readData f blocks h
  let (shape, cells) ← reshape h (axes.dropLast.map Axis.size) signal.size reversed data
  .ok ⟨axes, shape, cells, m.1⟩

/-- `file_reader`, lines 1322-1377, with a limit of rounds for the search of blocks. -/
def fileReader (fuel : Nat) (f : Bytes) (lazy uniform : Bool) : Option (Py Result) :=
  if lazy then some (.error .notImplemented)
  else (locate f fuel 0 false []).map fun r => r.bind fun blocks => readFile f blocks uniform

end Verif.Renishaw
