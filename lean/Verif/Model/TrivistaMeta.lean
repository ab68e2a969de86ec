import Verif.Py.Assoc
import Verif.Py.Dec
import Mathlib.Data.Rat.Defs
import Mathlib.Algebra.Order.Ring.Rat
/-!
Model of `rsciio/trivista/_api.py`, metadata.

The groups and items of `InfoSerialized`, and the sections on hardware with the fields the reader looks at,
are given as `XmlToDict` delivers them: several elements with one name as list, one element by itself.
Numbers are exact rationals; `float(text)` is an external function, and so is the test for the package
`lumispy`. Not modelled: parsing XML, sections that are missing in the part on hardware, groups without items,
spectrometers named `Detector` or `Laser`. Names that occur several times are renamed in the order of the
file, where the code takes the order of a set.
-/
namespace Verif.TrivistaMeta

/-- Values as `literal_eval` finds them. -/
inductive Val | none | str (t : Text) | num (q : ℚ) | bool (b : Bool)
  deriving DecidableEq

/-- A group of `InfoSerialized`: with groups or with items. -/
inductive Group
  | groups (name : Text) (l : List Group)
  | items (name : Text) (l : List (Text × Val))

/-- Entries of the processed dictionary. -/
inductive Info
  | sub (l : List (Text × Info))
  | items (l : List (Text × Val))

/-! ### InfoSerialized -/

/-- `_process_info_serialized`, lines 74-80: the items of a group. -/
def itemDict (l : List (Text × Val)) : List (Text × Val) := l.foldl (fun d e => setKw e.1 e.2 d) []

/-- Lines 81-84: add items under a name, which is changed if it is taken. -/
def addItems (idx : Nat) (name : Text) (l : List (Text × Val)) (st : List (Text × Info) × List Text) :
    List (Text × Info) × List Text :=
  match getKw name st.1 with
  | some _ => (setKw (name ++ decChars (idx + 1)) (.items (itemDict l)) st.1, if name ∈ st.2 then st.2 else st.2 ++ [name])
  | none => (setKw name (.items (itemDict l)) st.1, st.2)

/-- Lines 85-86: the first of several gets a number, too. -/
def renameFirst (d : List (Text × Info)) (name : Text) : List (Text × Info) :=
  match getKw name d with
  | some v => setKw (name ++ "1".toList) v (delKw name d)
  | none => d

mutual
/-- `_process_info_serialized`, lines 69-84: the entries one by one. -/
def entries : Nat → List Group → List (Text × Info) × List Text → List (Text × Info) × List Text
  | _, [], st => st
  | idx, g :: gs, st => entries (idx + 1) gs (entry idx g st)
/-- Lines 70-84: one entry. -/
def entry : Nat → Group → List (Text × Info) × List Text → List (Text × Info) × List Text
  | _, .groups name l, st =>
    let r := entries 0 l ([], [])
    (setKw name (.sub (r.2.foldl renameFirst r.1)) st.1, st.2)
  | idx, .items name l, st => addItems idx name l st
end

/-- `_process_info_serialized`, lines 64-87. -/
def process (gs : List Group) : List (Text × Info) :=
  let r := entries 0 gs ([], [])
  r.2.foldl renameFirst r.1

/-! ### Hardware -/

/-- Elements with one name: a list, or the one element. -/
inductive Sel (α : Type) | many (l : List α) | one (a : α)

structure Laser where
  name : Text
  wavelength : Option ℚ

structure Detector where
  name : Text

structure Objective where
  enabled : Bool
  magnification : Val

structure Microscope where
  name : Text
  objectives : Sel Objective

structure Grating where
  groove : Val
  blaze : Val

structure Spectrometer where
  serial : Val
  gratings : Sel Grating

structure Hardware where
  lasers : Sel Laser
  detectors : Sel Detector
  microscopes : Sel Microscope
  spectrometers : Sel Spectrometer

/-- `np.isclose(a, b)` with its default tolerances, 1e-8 and 1e-5 of `b`. -/
def isClose (a b : ℚ) : Bool := decide (|a - b| ≤ 1 / 100000000 + 1 / 100000 * |b|)

/-- `_filter_laser_metadata`, lines 242-249: one laser. -/
def laserStep (cal : ℚ) (s : Sel Laser) (l : Laser) : Sel Laser :=
  match l.wavelength with
  | some w => if isClose cal w ∧ ¬ isClose w 0 then .one l else s
  | none => s

/-- `_filter_laser_metadata`, lines 235-249. A single laser is gone through key by key. -/
def filterLaser (cal : Option Val) (s : Sel Laser) : Py (Sel Laser) :=
  match cal, s with
  | none, s => .ok s
  | some _, .one _ => .error .typeError
  | some (.num c), .many l => .ok (l.foldl (laserStep c) s)
  | some _, .many l => if l.all fun a => a.wavelength.isNone then .ok s else .error .typeError

/-- `_filter_detector_metadata`, lines 252-256. -/
def filterDetector (name : Option Val) (s : Sel Detector) : Py (Sel Detector) :=
  match s with
  | .one _ => .error .typeError
  | .many [] => .ok s
  | .many l => match name with
    | none => .error .keyError
    | some n => .ok (l.foldl (fun s d => if n = .str d.name then .one d else s) s)

/-- `_filter_objectives_metadata`, lines 262-269: one objective. -/
def objectiveStep (m : Microscope) (s : Sel Microscope) (o : Objective) : Sel Microscope :=
  if o.enabled then .one { m with objectives := .one o } else s

/-- Lines 261-269: one microscope. -/
def microscopeStep (s : Sel Microscope) (m : Microscope) : Py (Sel Microscope) :=
  match m.objectives with
  | .one _ => .error .typeError
  | .many os => .ok (os.foldl (objectiveStep m) s)

/-- `_filter_objectives_metadata`, lines 259-269. -/
def filterObjectives (s : Sel Microscope) : Py (Sel Microscope) :=
  match s with
  | .one _ => .error .typeError
  | .many l => l.foldlM microscopeStep s

/-- Lines 277-279: the serial number of a spectrometer. -/
def serialOf (e : Text × Info) : Py (Text × Val × List (Text × Val)) :=
  match e.2 with
  | .sub _ => .error .keyError
  | .items l => match getKw "Serialnumber".toList l with
    | none => .error .keyError
    | some v => .ok (e.1, v, l)

/-- Lines 274-280: names, serial numbers and entries of the spectrometers that were used. -/
def serials (info : List (Text × Info)) : Py (List (Text × Val × List (Text × Val))) :=
  match getKw "Spectrometers".toList info with
  | none => .error .keyError
  | some (.items l) => if l.isEmpty then .ok [] else .error .typeError
  | some (.sub l) => l.mapM serialOf

/-- Lines 301-312: the grating with the groove density of the entry. -/
def gratingOf (groove : Option Val) (s : Spectrometer) : Py Spectrometer :=
  match s.gratings with
  | .one _ => .error .typeError
  | .many [] => .ok s
  | .many gs => match groove with
    | none => .error .keyError
    | some v => .ok { s with gratings := gs.foldl (fun acc g => if g.groove = v then .one g else acc) s.gratings }

/-- Lines 292-312: one spectrometer; the state is the dictionary and the name set last. -/
def spectrometerStep (used : List (Text × Val × List (Text × Val))) (st : List (Text × Spectrometer) × Option Text) (s : Spectrometer) :
    Py (List (Text × Spectrometer) × Option Text) :=
  match used.find? fun u => u.2.1 = s.serial with
  | none => .ok st
  | some u => match gratingOf (getKw "Groove_Density".toList u.2.2) s with
    | .error e => .error e
    | .ok s' => .ok (setKw u.1 s' st.1, some u.1)

/-- `_filter_spectrometers_metadata`, lines 272-314. -/
def filterSpectrometers (info : List (Text × Info)) (s : Sel Spectrometer) : Py (List (Text × Spectrometer)) :=
  match serials info with
  | .error e => .error e
  | .ok used => match s with
    | .one _ => .error .typeError
    | .many l => match l.foldlM (spectrometerStep used) ([], none) with
      | .error e => .error e
      | .ok (_, none) => .error .nameError
      | .ok (d, some name) => .ok (if name = "Spectrometer".toList then d else delKw "Spectrometer".toList d)

/-! ### Metadata -/

/-- What else the reader looks at. -/
structure File where
  fileName : Text
  recordTime : Option Text
  label : Option Text
  dataLabel : Option Text
  datasets : Nat
  groups : List Group
  hardware : Hardware

structure Metadata where
  general : List (Text × Val)
  signal : List (Text × Val)
  detector : List (Text × Val)
  laser : List (Text × Val)
  spectrometers : List (Text × List (Text × Val))
  deriving DecidableEq

/-- `_remove_none_from_dict`, lines 55-61. -/
def removeNone (d : List (Text × Val)) : List (Text × Val) := d.filter fun e => e.2 ≠ .none

/-- `dict.get`. -/
def getVal (k : String) (d : List (Text × Val)) : Val := (getKw k.toList d).getD .none

/-- A section of the processed dictionary. -/
def items (k : String) (info : List (Text × Info)) : Option (List (Text × Val)) :=
  match getKw k.toList info with
  | some (.items l) => some l
  | some (.sub _) => some []
  | none => none

/-- `_map_general_md`, lines 321-329: date and time. -/
def dateTime (t : Text) : Py (List (Text × Val)) :=
  match splitChar ' ' t with
  | [d, u] => match splitChar '/' d with
    | m :: y :: l => .ok [("date".toList, .str (((y :: l).getLastD []) ++ '-' :: m ++ '-' :: y)), ("time".toList, .str ((splitChar '.' u).headD []))]
    | _ => .error .indexError
  | _ => .error .valueError

/-- `_map_general_md`, lines 317-330. -/
def general (f : File) : Py (List (Text × Val)) :=
  let l := [("title".toList, Val.str ((splitChar '.' f.fileName).headD [])), ("original_filename".toList, .str f.fileName)]
  match f.recordTime with
  | none => .ok l
  | some t => match dateTime t with
    | .error e => .error e
    | .ok d => .ok (l ++ d)

/-- `_map_signal_md`, lines 332-350. -/
def signal (lumispy : Bool) (f : File) : List (Text × Val) :=
  ("signal_type".toList, Val.str (if lumispy then "Luminescence".toList else [])) ::
  match f.label, f.dataLabel with
  | some q, some u => [("quantity".toList, .str (q ++ " (".toList ++ u ++ ")".toList))]
  | _, _ => []

/-- `float(value)`. -/
def floatVal (toFloat : Text → Py ℚ) (v : Val) : Py ℚ :=
  match v with
  | .num q => .ok q
  | .str t => toFloat t
  | .bool b => .ok (if b then 1 else 0)
  | .none => .error .typeError

/-- `_map_detector_md`, lines 365-375. -/
def glued (toFloat : Text → Py ℚ) (datasets : Nat) (experiment : Option (List (Text × Val))) : Py (List (Text × Val)) :=
  match experiment with
  | none => .ok []
  | some e => match getKw "Overlap (%)".toList e with
    | none => .ok [("glued_spectrum".toList, .bool false)]
    | some v => match floatVal toFloat v with
      | .error e => .error e
      | .ok q => .ok [("glued_spectrum".toList, .bool true), ("glued_spectrum_overlap".toList, .num q), ("glued_spectrum_windows".toList, .num datasets)]

/-- Lines 381-386: milliseconds. -/
def thousandth (v : Val) : Val :=
  match v with
  | .num q => .num (q / 1000)
  | _ => .none

/-- Python's truth value. -/
def truth : Val → Bool
  | .none => false
  | .str t => !t.isEmpty
  | .num q => q ≠ 0
  | .bool b => b

/-- Lines 388-396. -/
def integration (average exposure frames : Val) : List (Text × Val) :=
  if truth average then [("integration_time".toList, exposure)]
  else match exposure, frames with
    | .num e, .num n => [("integration_time".toList, .num (e * n))]
    | _, _ => []

/-- `_map_detector_md`, lines 352-397. -/
def detector (toFloat : Text → Py ℚ) (datasets : Nat) (info : List (Text × Info)) : Py (List (Text × Val)) :=
  let d := (items "Detector" info).getD []
  match glued toFloat datasets (items "Experiment" info) with
  | .error e => .error e
  | .ok g =>
    let exposure := thousandth (getVal "Exposure_Time_(ms)" d)
    .ok (g ++ [("temperature".toList, getVal "Detector_Temperature" d), ("frames".toList, getVal "No_of_Accumulations" d),
      ("processing.calc_average".toList, getVal "Calc_Average" d), ("exposure_per_frame".toList, exposure)] ++
      integration (getVal "Calc_Average" d) exposure (getVal "No_of_Accumulations" d))

/-- `_map_laser_md`, lines 399-411. -/
def laser (m : Sel Microscope) (wavelength : Option ℚ) : Py (List (Text × Val)) :=
  match m with
  | .one ⟨_, .one o⟩ => .ok (("objective_magnification".toList, o.magnification) ::
      match wavelength with | some w => [("wavelength".toList, .num w)] | none => [])
  | _ => .error .attributeError

/-- `_map_spectrometer_md`, lines 426-437: the blaze. -/
def blazeOf (toFloat : Text → Py ℚ) (s : Option Spectrometer) : Py Val :=
  match s with
  | none => .ok .none
  | some s => match s.gratings with
    | .many _ => .error .attributeError
    | .one g => match g.blaze with
      | .str t => if t.drop (t.length - 2) = "NM".toList then (toFloat ((splitChar 'N' t).headD [])).map Val.num else .ok (.str t)
      | v => .ok v

/-- Lines 439-444: groove density. -/
def grooveOf (toFloat : Text → Py ℚ) (d : List (Text × Val)) : Py Val :=
  match getKw "Groove_Density".toList d with
  | none => .ok .none
  | some (.str t) => (toFloat ((splitChar ' ' t).headD [])).map Val.num
  | some _ => .error .attributeError

/-- Lines 446-462: widths of the slits. -/
def slits (d : List (Text × Val)) : List (Text × Val) :=
  match getVal "Slit_Entrance-Front" d, getVal "Slit_Entrance-Side" d, getVal "Slit_Exit-Front" d, getVal "Slit_Exit-Side" d with
  | .num a, .num b, .num c, .num e =>
    [("entrance_slit_width".toList, .num (max (a / 1000) (b / 1000))), ("exit_slit_width".toList, .num (max (c / 1000) (e / 1000)))]
  | _, _, _, _ => []

/-- `_map_spectrometer_md`, lines 424-463: one spectrometer. -/
def spectrometer (toFloat : Text → Py ℚ) (hw : List (Text × Spectrometer)) (center : Val) (e : Text × Info) : Py (Text × List (Text × Val)) := do
  let d := match e.2 with | .items l => l | .sub _ => []
  let blaze ← blazeOf toFloat (getKw e.1 hw)
  let groove ← grooveOf toFloat d
  .ok (e.1, removeNone ([("central_wavelength".toList, center), ("Grating.blazing_wavelength".toList, blaze), ("model".toList, getVal "Model" d),
    ("Grating.groove_density".toList, groove)] ++ slits d))

/-- `_get_calibration_md`, lines 467-483: wavelength of the laser. -/
def laserWavelength (toFloat : Text → Py ℚ) (d : List (Text × Val)) : Option ℚ :=
  match floatVal toFloat ((getKw "Laser_Wavelength".toList d).getD (.num 0)) with
  | .ok q => if isClose q 0 then none else some q
  | .error _ => none

/-- `map_metadata`, lines 485-507. -/
def mapMetadata (toFloat : Text → Py ℚ) (lumispy : Bool) (f : File) (info : List (Text × Info)) (microscopes : Sel Microscope)
    (hw : List (Text × Spectrometer)) : Py Metadata := do
  let g ← general f
  let d ← detector toFloat f.datasets info
  let cal := (items "Calibration" info).getD []
  let l ← laser microscopes (laserWavelength toFloat cal)
  let s ← (match getKw "Spectrometers".toList info with | some (.sub l) => l | _ => []).mapM (spectrometer toFloat hw (getVal "Center_Wavelength" cal))
  .ok ⟨removeNone g, removeNone (signal lumispy f), removeNone d, removeNone l, s⟩

/-- What the reader returns: metadata, and the hardware that was used. -/
structure Result where
  metadata : Metadata
  info : List (Text × Info)
  lasers : Sel Laser
  detectors : Sel Detector
  microscopes : Sel Microscope
  spectrometers : List (Text × Spectrometer)

/-- `parse_file_structure`, lines 206-231, and `map_metadata`. -/
def read (toFloat : Text → Py ℚ) (lumispy : Bool) (f : File) : Py Result := do
  let info := process f.groups
  let l ← filterLaser ((items "Calibration" info).bind (getKw "Laser_Wavelength".toList)) f.hardware.lasers
  let d ← filterDetector ((items "Detector" info).bind (getKw "Name".toList)) f.hardware.detectors
  let m ← filterObjectives f.hardware.microscopes
  let s ← filterSpectrometers info f.hardware.spectrometers
  let md ← mapMetadata toFloat lumispy f info m s
  .ok ⟨md, info, l, d, m, s⟩

end Verif.TrivistaMeta
