import Verif.Py.IntLit
import Verif.Py.Ravel
import Verif.Model.RenishawData
/-!
Model of `rsciio/empad/_api.py`.

Simplifications: the dictionary of the XML file (`convert_xml_to_dict`, see C83) is a function from paths to texts; `float` and `ast.literal_eval` of texts are parameters, and so is the choice of a
unit by `to_compact` (an exponent of ten); numbers are exact; pixels are bit patterns; a scan of negative size raises; `lazy=True` (`memmap_distributed`, C03) and `remove_nans` are left out.
-/
namespace Verif.Empad
open Verif.Renishaw (Bytes chunk)

/-- The texts of the XML file. -/
abbrev Om := String → Option Text

/-- The scan: a stack of images, or rows of images, or not known. -/
inductive Scan where
  | series (n : Int)
  | grid (x y : Int)
  | unknown
  deriving DecidableEq

/-- The scan in the name of the raw file, lines 85-99. -/
def fromName (name : Text) : Py Scan :=
  if "scan_".toList.isPrefixOf name then
    match (splitChar '_' ((splitChar '.' name).headD [])).reverse with
    | b :: a :: _ => match intLit (a.drop 1), intLit (b.drop 1) with
      | .ok x, .ok y => .ok (.grid x y)
      | _, _ => .error .ioError
    | _ => .error .ioError
  else .ok .unknown

/-- `_parse_xml`, lines 65-103. -/
def parseXml (om : Om) : Py Scan := match om "root.raw_file.filename" with
  | none => .error .attributeError
  | some raw => match om "root.scan_parameters.series_count" with
    | some n => (intLit n).map .series
    | none => match om "root.pix_x", om "root.pix_y" with
      | some x, some y => do
        let i ← intLit x
        let j ← intLit y
        .ok (.grid i j)
      | _, _ => fromName raw

/-- The unit of an axis: a text (or `None`), or metres times a power of ten. -/
inductive U where
  | text (t : Option String)
  | metre (p : Int)
  deriving DecidableEq

/-- `_convert_scale_units(value, "m", factor)`, lines 106-114. -/
def convertScale (compact : Rat → Int) (value factor : Rat) : Rat × U :=
  let p := compact (factor * value)
  (factor * value / (10 : Rat) ^ p / factor, .metre p)

/-- `literal_eval`, `float`, and `to_compact`. -/
structure Lib where
  pair : Text → Py (Rat × Rat)
  num : Text → Py Rat
  float : Text → Py Rat
  compact : Rat → Int

/-- One axis of the old files, lines 205-207. -/
def oldScale (lib : Lib) (fov : Rat) (size : Int) : Py (Rat × U) :=
  if size = 0 then .error .zeroDivision else .ok (convertScale lib.compact (fov / size) size)

/-- Lines 198-231: the scales of the navigation axes of a scan. -/
def navScales (lib : Lib) (om : Om) (y x : Int) : Py (List (Rat × U)) :=
  match om "root.iom_measurements.optics.get_full_scan_field_of_view" with
  | some t => do
    let fov ← lib.pair t
    let a ← oldScale lib fov.1 y
    let b ← oldScale lib fov.2 x
    .ok [a, b]
  | none => match om "root.iom_measurements.full_scan_field_of_view.x", om "root.iom_measurements.full_scan_field_of_view.scale_factor" with
    | some t, some s => do
      let fov ← lib.num t
      let f ← lib.num s
      if f = 0 ∨ max y x = 0 then .error .zeroDivision
      else
        let r := convertScale lib.compact (fov / f / (max y x : Int)) 1
        .ok [r, r]
    | _, _ => .ok [(1, .text (some "")), (1, .text (some ""))]

/-- Lines 235-251: the scale of the diffraction patterns. -/
def patternScale (lib : Lib) (om : Om) (q : Option Rat) : Py (Rat × U) := match q with
  | some q => .ok (q, .text (some "1/nm"))
  | none => match om "root.iom_measurements.calibrated_pixelsize" with
    | some t => (lib.float t).map fun v => (v * 10 ^ 9, .text (some "1/nm"))
    | none => .ok (1, .text none)

/-- An axis. -/
structure Axis where
  size : Int
  index : Nat
  name : String
  scale : Rat
  offset : Rat
  units : U
  navigate : Bool
  deriving DecidableEq

/-- Names, sizes, scales, origins and navigation flags of all axes. -/
structure Row where
  name : String
  size : Int
  scale : Rat
  units : U
  origin : Int
  navigate : Bool

/-- Lines 255-268: axes of length one are left out. -/
def axesFrom : Nat → List Row → List Axis
  | _, [] => []
  | k, r :: rs => if r.size > 1 then ⟨r.size, k, r.name, r.scale, r.origin * r.scale, r.units, r.navigate⟩ :: axesFrom (k + 1) rs else axesFrom k rs

/-- Lines 181-231: the navigation axes. -/
def navRows (lib : Lib) (om : Om) : Scan → Py (List Row)
  | .series n => .ok [⟨"series_count", n, 1, .text (some "ms"), 0, true⟩]
  | .grid x y => (navScales lib om y x).map fun s => (["scan_y", "scan_x"].zip ([y, x].zip s)).map fun e => ⟨e.1, e.2.1, e.2.2.1, e.2.2.2, 0, true⟩
  | .unknown => .error .keyError

/-- Lines 165-254: all axes. -/
def rows (lib : Lib) (om : Om) (q : Option Rat) (scan : Scan) : Py (List Row) := do
  let nav ← navRows lib om scan
  let p ← patternScale lib om q
  .ok (nav ++ [⟨"height", 128, p.1, p.2, -64, false⟩, ⟨"width", 128, p.1, p.2, -64, false⟩])

/-- The number of a pixel, in the frame `k`. -/
def pixelAt (raw : Bytes) : List Nat → Nat
  | [k, r, c] => leVal (chunk raw (k * (4 * 130 * 128) + 4 * (r * 128 + c)) 4)
  | _ => 0

/-- `_read_raw`, lines 33-62: `n` frames of 128 rows, each followed by 2 rows which are skipped. Incomplete frames are not read. -/
def readRaw (raw : Bytes) (n : Nat) : Py (List Nat) :=
  if raw.length / (4 * 130 * 128) < n then .error .valueError
  else .ok (ravel [n, 128, 128] (pixelAt raw))

/-- The shape of the navigation axes. -/
def navShape : Scan → List Int
  | .series n => [n]
  | .grid x y => [y, x]
  | .unknown => []

/-- The result: axes, the shape after `squeeze`, data, date and time. -/
structure Result where
  axes : List Axis
  shape : List Nat
  data : List Nat
  date : Option (Text × Text)

/-- Lines 161-163: date and time. -/
def dateOf : Option Text → Py (Option (Text × Text))
  | none => .ok none
  | some t => match splitChar 'T' t with
    | [a, b] => .ok (some (a, b))
    | _ => .error .valueError

/-- `file_reader`, lines 117-285. -/
def fileReader (lib : Lib) (om : Om) (q : Option Rat) (raw : Bytes) : Py Result := do
  let scan ← parseXml om
  let date ← dateOf (om "root.timestamp.isoformat")
  let rs ← rows lib om q scan
  let nav := navShape scan
  if nav.any (· < 0) then .error .valueError
  else do
    let data ← readRaw raw (size (nav.map Int.toNat))
    .ok ⟨axesFrom 0 rs, (nav.map Int.toNat ++ [128, 128]).filter (· ≠ 1), data, date⟩

end Verif.Empad
