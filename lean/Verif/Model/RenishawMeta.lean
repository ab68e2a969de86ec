import Verif.Model.RenishawData
/-!
Model of `rsciio/renishaw/_api.py`, third part: date, title and quantity of the header, the metadata on laser, grating and detector, and the
rectangle that shows the map in the white light image.

Simplifications: the division `wt / 10` of NumPy with the rounding of `timedelta` to microseconds is a parameter (`micro`); times before 1601
are left out; the entries `extra_matches` that `_match_WXDM_values` makes are a parameter (see `Verif.Model.RenishawNested`); products of integers do not overflow; arrays are not
taken as numbers. The result is the metadata after `_remove_none_from_dict`: an entry `None` is no entry. Of the white light image only the marker is modelled.
-/
namespace Verif.Renishaw

/-! ### Dates -/

/-- Years of 366 days, as in `datetime`. -/
def leapYear (y : Nat) : Bool := y % 4 == 0 && (y % 100 != 0 || y % 400 == 0)

/-- The lengths of the months. -/
def monthLengths (y : Nat) : List Nat := [31, if leapYear y then 29 else 28, 31, 30, 31, 30, 31, 31, 30, 31, 30, 31]

/-- The year, and the number of the day in it. -/
def walkYears : Nat → Nat → Nat → Nat × Nat
  | 0, y, n => (y, n)
  | fuel + 1, y, n =>
    let len := if leapYear y then 366 else 365
    if n < len then (y, n) else walkYears fuel (y + 1) (n - len)

/-- The month, and the day in it. -/
def walkMonths : List Nat → Nat → Nat → Nat × Nat
  | [], m, n => (m, n + 1)
  | l :: ls, m, n => if n < l then (m, n + 1) else walkMonths ls (m + 1) (n - l)

def digitOf (n : Nat) : Char := Char.ofNat (48 + n % 10)
def twoDigits (n : Nat) : Text := [digitOf (n / 10), digitOf n]
def fourDigits (n : Nat) : Text := [digitOf (n / 1000), digitOf (n / 100), digitOf (n / 10), digitOf n]

/-- `convert_windowstime_to_datetime`, lines 123-126: `isoformat("#", "seconds")`; dates after 9999 raise. -/
def windowsTime (micro : Nat → Nat) (wt : Nat) : Py Text :=
  let s := micro wt / 1000000
  let (y, n) := walkYears (s / 86400) 1601 (s / 86400)
  let (m, d) := walkMonths (monthLengths y) 1 n
  if 9999 < y then .error .overflowError
  else .ok (fourDigits y ++ '-' :: twoDigits m ++ '-' :: twoDigits d ++ '#' :: twoDigits (s / 3600 % 24) ++ ':' :: twoDigits (s / 60 % 60) ++
    ':' :: twoDigits (s % 60))

/-! ### Header -/

/-- `UnitType(...).name`, lines 233-259; `DefaultEnum` has the name `Unknown`. -/
def unitEnum (n : Nat) : Text :=
  (["arbitrary", "raman_shift", "wavelength", "nanometer", "electron_volt", "micrometer", "counts", "electrons", "millimeter", "meter", "kelvin",
    "pascal", "seconds", "milliseconds", "hours", "days", "pixels", "intensity", "relative_intensity", "degrees", "radians", "celsius", "fahrenheit",
    "kelvin_per_minute", "windows_file_time", "microseconds"].getD n "Unknown").toList

/-- `str.capitalize`, for letters of ASCII. -/
def capitalize : Text → Text
  | [] => []
  | c :: t => c.toUpper :: t.map Char.toLower

/-- Texts of the header. -/
structure HeadText where
  start : Text
  finish : Text
  unit : Text
  user : Text
  title : Text

/-- `_parse_WDF1`, lines 800-808. -/
def readHeadText (micro : Nat → Nat) (f : Bytes) (blocks : Blocks) : Py HeadText :=
  match getKw "WDF1_1".toList blocks with
  | none => .error .keyError
  | some (pos, _) => do
    let t0 ← number f (pos + 120) 8
    let t1 ← number f (pos + 128) 8
    let start ← windowsTime micro t0
    let finish ← windowsTime micro t1
    let unit ← number f (pos + 136) 4
    let user ← decode (chunk f (pos + 192) 32)
    let title ← decode (chunk f (pos + 224) 160)
    .ok ⟨start, finish, unitEnum unit, user, title⟩

/-- General metadata. -/
structure General where
  title : Text
  filename : Text
  date : Text
  time : Text

/-- `_map_general_md`, lines 1159-1170. -/
def generalMeta (filename : Text) (h : HeadText) : Py General :=
  match splitChar '#' h.start with
  | [d, t] => .ok ⟨h.title, (splitChar '/' filename).getLastD [], d, t⟩
  | _ => .error .valueError

/-- `_map_signal_md`, lines 1172-1190: signal type and quantity. -/
def signalMeta (lumispy : Bool) (h : HeadText) : Text × Text :=
  (if lumispy then "Luminescence".toList else [], "Intensity (".toList ++ capitalize h.unit ++ [')'])

/-! ### Laser, grating and detector -/

mutual
/-- `_find_key`, lines 95-101: all values of a name, dictionaries first opened. -/
def findAll (name : Text) : List (Text × Val) → List Val
  | [] => []
  | e :: d => findEntry name e ++ findAll name d

/-- One entry. -/
def findEntry (name : Text) : Text × Val → List Val
  | (k, v) => findVal name k v

/-- A value with its name. -/
def findVal (name k : Text) : Val → List Val
  | .nested d => findAll name d
  | .int i => if k = name then [.int i] else []
  | .single b => if k = name then [.single b] else []
  | .double b => if k = name then [.double b] else []
  | .time b => if k = name then [.time b] else []
  | .many b => if k = name then [.many b] else []
  | .text b => if k = name then [.text b] else []
  | .binary b => if k = name then [.binary b] else []
  | .none => if k = name then [.none] else []
end

/-- `None` is no value. -/
def present : Option Val → Option Val
  | some .none => none
  | v => v

/-- `_get_key`, lines 104-112. -/
def getKey (name : Text) (d : Dict) : Option Val := present (findAll name d).head?

/-- `original_metadata.get(block, {}).get(name)`. -/
def blockEntry (om : List (Text × Dict)) (block name : Text) : Option Val :=
  match getKw block om with
  | none => none
  | some d => present (getKw name d)

/-- The number of a value. -/
def numOf : Val → Option Rat
  | .int i => some (i : Rat)
  | .single b => some (f32Dec b)
  | .double b => some (f64Dec b)
  | _ => none

/-- A wavelength: `1e7 / 0` is infinite. -/
inductive Wave where
  | finite (r : Rat)
  | infinite
  deriving DecidableEq

/-- `1e7 / wavenumber`, line 1197. -/
def wavelength (v : Option Val) : Py Wave :=
  match v.bind numOf with
  | none => .error .typeError
  | some x => .ok (if x = 0 then .infinite else .finite (10000000 / x))

/-- `_map_laser_md`, lines 1192-1198. -/
def laserMeta (om : List (Text × Dict)) : Py (Option Wave) :=
  match blockEntry om "WXCS_0".toList "Lasers".toList with
  | none => .ok none
  | some (.nested d) => (wavelength (getKey "Wavenumber".toList d)).map some
  | some _ => .error .attributeError

/-- `_map_spectrometer_md`, lines 1200-1208: is there a grating, and its density of grooves. -/
def gratingMeta (om : List (Text × Dict)) : Py (Option (Option Val)) :=
  match blockEntry om "WXCS_0".toList "Gratings".toList with
  | none => .ok none
  | some (.nested d) => .ok (some (getKey "Groove Density (lines/mm)".toList d))
  | some _ => .error .attributeError

/-- Metadata of the detector. -/
structure Detector where
  type : Text
  model : Option Val
  temperature : Option Val
  frames : Option Val
  integration : Option Rat
  cosmic : Option Val

/-- Lines 1224-1229: milliseconds of a frame, times frames; what is not a number raises a `TypeError`, which is caught. -/
def integrationTime (exposure frames : Option Val) : Option Rat :=
  match exposure.bind numOf, frames.bind numOf with
  | some e, some n => some (e * n / 1000)
  | _, _ => none

/-- `_map_detector_md`, lines 1210-1234. -/
def detectorMeta (om : List (Text × Dict)) (extra : Option Dict) : Py (Option Detector) :=
  match blockEntry om "WXCS_0".toList "CCD".toList with
  | none => .ok none
  | some (.nested ccd) =>
    let model := present (getKw "CCD".toList ccd)
    let temperature := present (getKw "Target temperature".toList ccd)
    match extra with
    | none => .ok (some ⟨"CCD".toList, model, temperature, none, none, none⟩)
    | some w =>
      let frames := getKey "Accumulations".toList w
      .ok (some ⟨"CCD".toList, model, temperature, frames, integrationTime (getKey "Exposure Time".toList w) frames,
        getKey "Use Cosmic Ray Remove".toList w⟩)
  | some _ => .error .attributeError

/-- All metadata. -/
structure Metadata where
  general : General
  signal : Text × Text
  detector : Option Detector
  laser : Option Wave
  grating : Option (Option Val)

/-- `map_metadata`, lines 1236-1256. -/
def mapMetadata (filename : Text) (lumispy : Bool) (h : HeadText) (om : List (Text × Dict)) (extra : Option Dict) : Py Metadata := do
  let general ← generalMeta filename h
  let detector ← detectorMeta om extra
  let laser ← laserMeta om
  let grating ← gratingMeta om
  .ok ⟨general, signalMeta lumispy h, detector, laser, grating⟩

/-- The metadata in `read_file`, lines 440-479, with a limit of rounds for the search of blocks. -/
def fileMetadata (fuel : Nat) (micro : Nat → Nat) (filename : Text) (lumispy : Bool) (f : Bytes) (extra : Option Dict) : Option (Py Metadata) :=
  (locate f fuel 0 false []).map fun r => r.bind fun blocks => do
    let h ← readHeadText micro f blocks
    let m ← readMeta f blocks
    mapMetadata filename lumispy h m.1 extra

/-! ### The map in the white light image -/

/-- A rectangle: its middle, its width and its height. -/
structure Marker where
  x : Rat
  y : Rat
  width : Rat
  height : Rat
  deriving DecidableEq

/-- `_get_WHTL`, lines 1288-1309. -/
def mapMarker (w : WMap) : Marker :=
  let width := w.scale.getD 0 0 * w.size.getD 0 0
  let height := w.scale.getD 1 0 * w.size.getD 1 0
  ⟨w.offset.getD 0 0 + width / 2, w.offset.getD 1 0 + height / 2, width, height⟩

/-- The marker of a file: none without a map. -/
def fileMarker (fuel : Nat) (f : Bytes) : Option (Py (Option Marker)) :=
  (locate f fuel 0 false []).map fun r => r.bind fun blocks => (readWmap f blocks).map fun w => w.map mapMarker

end Verif.Renishaw
