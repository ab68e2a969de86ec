import Verif.Model.Tofwerk
import Verif.Py.Assoc
import Mathlib.Algebra.BigOperators.Group.List.Basic
import Mathlib.Data.Rat.Floor
/-!
Model of the metadata and of the original metadata that `rsciio/tofwerk/_api.py` makes of the attributes of a file:
`_build_metadata` (lines 375-502), `_build_original_metadata` (505-541), `_peak_table_to_list` (549-576), `_decode` (689-693) and
`_decode_attr` (696-706).

An attribute is one value or a flat array of values; a value is an integer, a number, bytes (given by their text, decoded as UTF-8) or
a text. `float` and `int` of a text and `str` of numbers and arrays are parameters; `str` of bytes is given for texts without quotes and
characters that are escaped. Quotients and means are exact. Date, time and range of masses are in `Verif.Model.TofwerkFile`; the
title and the type of the signals there as well. A dictionary is the list of its entries, with the path as key.
-/
namespace Verif.TofwerkMeta
open Verif.Tofwerk (Peak)

/-- One value of an attribute. -/
inductive Scalar
  | int (i : Int)
  | float (q : Rat)
  | bytes (t : Text)
  | text (t : Text)
  deriving DecidableEq

/-- An attribute. -/
inductive Attr
  | one (s : Scalar)
  | many (l : List Scalar)
  deriving DecidableEq

/-- What is given by Python: `float` and `int` of a text, `str` of a number or of an array. -/
structure Lib where
  float : Text → Option Rat
  int : Text → Option Int
  showNum : Scalar → Text
  showMany : List Scalar → Text

/-- A value of the metadata. -/
inductive Val
  | none
  | int (i : Int)
  | num (q : Rat)
  | nan
  | text (t : Text)
  | list (l : List Val)
  | peaks (l : List Peak)

abbrev Attrs := List (String × Attr)
abbrev Dict := List (String × Val)

/-- What of a file is used. `pressure`: the data `FibParams/FibPressure/TwData`; `shape`: shape and type of
`FullSpectra/SaturationWarning`; `full`: the attributes of `FullSpectra`. -/
structure File where
  root : Attrs
  full : Attrs
  timing : Attrs
  fib : Option Attrs
  pressure : Option (List Rat)
  peaks : Option (List Peak)
  hasPeaks : Bool
  range : Rat × Rat
  images : Option (List Text)
  shape : Option (List Nat × Text)
  massAxis : Option (List Rat)

/-- The value of a key. -/
def item {α : Type} (d : List (String × α)) (k : String) : Option α := (d.find? fun e => decide (e.1 = k)).map (·.2)

/-- `np.asarray(v).flat[0]`. -/
def first : Attr → Py Scalar
  | .one s => .ok s
  | .many [] => .error .indexError
  | .many (s :: _) => .ok s

/-- `float(v)`. -/
def toFloat (P : Lib) : Scalar → Py Rat
  | .int i => .ok i
  | .float q => .ok q
  | .bytes t => match P.float t with
    | some q => .ok q
    | none => .error .valueError
  | .text t => match P.float t with
    | some q => .ok q
    | none => .error .valueError

/-- Truncation. -/
def truncate (q : Rat) : Int := if 0 ≤ q then ⌊q⌋ else ⌈q⌉

/-- `int(v)`. -/
def toInt (P : Lib) : Scalar → Py Int
  | .int i => .ok i
  | .float q => .ok (truncate q)
  | .bytes t => match P.int t with
    | some q => .ok q
    | none => .error .valueError
  | .text t => match P.int t with
    | some q => .ok q
    | none => .error .valueError

/-- `float(np.asarray(attrs.get(k, default)).flat[0])`. -/
def getFloat (P : Lib) (d : Attrs) (k : String) (default : Rat) : Py Rat :=
  match item d k with
  | none => .ok default
  | some a => do toFloat P (← first a)

/-- `int(np.asarray(attrs.get(k, default)).flat[0])`. -/
def getInt (P : Lib) (d : Attrs) (k : String) (default : Int) : Py Int :=
  match item d k with
  | none => .ok default
  | some a => do toInt P (← first a)

/-- `float(np.asarray(attrs[k]).flat[0])`. -/
def needFloat (P : Lib) (d : Attrs) (k : String) : Py Rat :=
  match item d k with
  | none => .error .keyError
  | some a => do toFloat P (← first a)

/-- `_decode`, lines 689-693. -/
def decode (P : Lib) : Attr → Text
  | .one (.bytes t) => t
  | .one (.text t) => t
  | .one s => P.showNum s
  | .many l => P.showMany l

/-- `_decode(attrs.get(k, b""))`. -/
def getText (P : Lib) (d : Attrs) (k : String) : Text :=
  match item d k with
  | none => []
  | some a => decode P a

/-- `str` of one value: bytes are shown as such. -/
def str (P : Lib) : Scalar → Text
  | .bytes t => "b'".toList ++ t ++ "'".toList
  | .text t => t
  | s => P.showNum s

/-- Line 460: the version. -/
def version (P : Lib) (d : Attrs) : Py Text :=
  match item d "TofDAQ Version" with
  | none => .ok []
  | some a => do return str P (← first a)

/-- `_parse_pixel_size`, lines 210-230; any error is caught there. -/
def pixel (P : Lib) (d : Attrs) (n : Int) : Val :=
  match needFloat P d "ViewField" with
  | .ok v => if n = 0 then .none else .num (v * 1000 / n)
  | .error _ => .none

/-- Lines 395-406. -/
def fibPart (P : Lib) (f : File) : Py Dict :=
  match f.fib with
  | none => .error .keyError
  | some d => do
    let n ← getInt P f.root "NbrSegments" 1
    let voltage ← needFloat P d "Voltage"
    let current ← needFloat P d "Current"
    let view ← needFloat P d "ViewField"
    return [("FIB.hardware", .text (getText P d "FibHardware")),
      ("FIB.voltage_kV", .num (voltage / 1000)),
      ("FIB.current_A", .num current),
      ("FIB.view_field_mm", .num view),
      ("FIB.pixel_size_um", pixel P d n)]

/-- Lines 393-409: any error leaves the part out. -/
def fibMeta (P : Lib) (f : File) : Dict :=
  match fibPart P f with
  | .ok d => d
  | .error _ => []

/-- Lines 424-428, 471-472: the mean pressure; that of no data is not a number. -/
def pressureMeta (f : File) : Dict :=
  match f.pressure with
  | none => []
  | some [] => [("chamber_pressure_Pa", .nan)]
  | some l => [("chamber_pressure_Pa", .num (l.sum / l.length))]

/-- Lines 451-455: the third coefficient if there is one. -/
def thirdMeta (P : Lib) (f : File) : Py Dict :=
  match item f.full "MassCalibration p3" with
  | none => .ok []
  | some _ => do return [("ToF.mass_calib_p3", .num (← needFloat P f.full "MassCalibration p3"))]

/-- Lines 430-455. -/
def tofMeta (P : Lib) (f : File) : Py Dict := do
  let n ← getInt P f.root "NbrPeaks" 0
  let mode ← getInt P f.full "MassCalibMode" 0
  let p1 ← getFloat P f.full "MassCalibration p1" 0
  let p2 ← getFloat P f.full "MassCalibration p2" 0
  let interval ← getFloat P f.full "SampleInterval" 0
  let ion ← getFloat P f.full "Single Ion Signal" 1
  let period ← getInt P f.timing "TofPeriod" 0
  let third ← thirdMeta P f
  return [("ToF.ion_mode", .text (getText P f.root "IonMode")),
    ("ToF.n_peaks", .int n),
    ("ToF.mass_calib_mode", .int mode),
    ("ToF.mass_calib_p1", .num p1),
    ("ToF.mass_calib_p2", .num p2),
    ("ToF.sample_interval_s", .num interval),
    ("ToF.single_ion_signal", .num ion),
    ("ToF.tof_period_samples", .int period),
    ("ToF.mass_range_Da", .list [.num f.range.1, .num f.range.2])] ++ third

/-- Lines 457-462. -/
def daqMeta (P : Lib) (f : File) : Py Dict := do
  let v ← version P f.root
  return [("DAQ.hardware", .text (getText P f.root "DAQ Hardware")),
    ("DAQ.tofdaq_version", .text v),
    ("DAQ.gui_version", .text (getText P f.root "FiblysGUIVersion")),
    ("DAQ.computer_id", .text (getText P f.root "Computer ID"))]

/-- Lines 474-480: the table of peaks. -/
def peakMeta (f : File) : Dict :=
  match f.peaks with
  | none => []
  | some l => [("Signal.peak_table", .peaks l)]

/-- `_build_metadata`, lines 375-502. -/
def build (P : Lib) (f : File) : Py Dict := do
  let tof ← tofMeta P f
  let daq ← daqMeta P f
  let slices ← getInt P f.root "NbrWrites" 0
  let segments ← getInt P f.root "NbrSegments" 0
  return fibMeta P f ++ tof ++ daq ++ [("n_depth_slices", .int slices), ("n_segments", .int segments),
    ("file_type", .text (if f.hasPeaks then "pre-processed" else "raw").toList)] ++ pressureMeta f ++ peakMeta f

/-! ### Original metadata -/

def plain : Scalar → Val
  | .int i => .int i
  | .float q => .num q
  | .bytes t => .text t
  | .text t => .text t

/-- `_decode_attr`, lines 696-706. The values of an array have one type. -/
def decodeAttr : Attr → Val
  | .one s => plain s
  | .many l => .list (l.map plain)

/-- `orig[k] = v`. -/
def put (d : Dict) (k : String) (v : Val) : Dict :=
  if d.any fun e => decide (e.1 = k) then d.map fun e => if e.1 = k then (k, v) else e else d ++ [(k, v)]

def putSome (d : Dict) (k : String) : Option Val → Dict
  | none => d
  | some v => put d k v

/-- Lines 532-539: one attribute of the spectra. -/
def timing (P : Lib) (f : File) (k : String) : Py (Option Rat) :=
  match item f.full k with
  | none => .ok none
  | some _ => do return some (← needFloat P f.full k)

/-- Lines 531-541. -/
def spectra (clock interval : Option Rat) : Option Val :=
  match clock, interval with
  | none, none => none
  | some c, none => some (.list [.text "ClockPeriod".toList, .num c])
  | none, some i => some (.list [.text "SampleInterval".toList, .num i])
  | some c, some i => some (.list [.text "ClockPeriod".toList, .num c, .text "SampleInterval".toList, .num i])

/-- `_build_original_metadata`, lines 505-541. A dictionary inside is given as the list of its keys and values. -/
def original (P : Lib) (f : File) : Py Dict := do
  let clock ← timing P f "ClockPeriod"
  let interval ← timing P f "SampleInterval"
  let d := f.root.map fun e => (e.1, decodeAttr e.2)
  let d := putSome d "PeakTable" (f.peaks.map .peaks)
  let d := putSome d "FIBImages" (f.images.map fun l => .list (l.map .text))
  let d := putSome d "SaturationWarning" (f.shape.map fun s =>
    .list [.text "shape".toList, .list (s.1.map fun n : Nat => .int n), .text "dtype".toList, .text s.2])
  let d := putSome d "MassAxis" (f.massAxis.map fun l => .list (l.map .num))
  return putSome d "FullSpectra" (spectra clock interval)

end Verif.TofwerkMeta
