import Verif.Model.Tiff
import Verif.Py.Dec
/-!
Model of the tables in `rsciio/tiff/_api.py` that say where metadata of instruments are in the tags of a file and how they are converted (`get_metadata_mapping`; which
table is used is in `Tiff`).

HyperSpy applies a table: an entry whose source is in the original metadata gives its converted value, unless that is `None`. Simplifications: `float` and the
parser of dates are parameters, as are the factors between units (`pint`) and the rounding of a number to seven digits (`"%.6e"`). Arithmetic is exact. Times of TVIPS are numbers.
-/
namespace Verif.TiffMapping
open Verif Verif.Tiff

/-- External functions. -/
structure Ext where
  env : Env
  date : Text → Py Text
  time : Text → Py Text
  factor : Text → Text → Option ℚ
  digits : ℚ → ℚ

/-- The conversions of the tables. -/
inductive Conv
  | same | times (q : ℚ) | tryTimes (q : ℚ) | date | time | tuple | tupleUnits (unit : Text) | tupleDate | tupleTime | seconds | nothing | notEmpty | stage | eos

structure Entry where
  src : List String
  dst : String
  conv : Conv

/-- `mapping_fei`, lines 1126-1155. -/
def feiTable : List Entry := [
  ⟨["fei_metadata", "Beam", "HV"], "Acquisition_instrument.SEM.beam_energy", .tryTimes (1 / 1000)⟩,
  ⟨["fei_metadata", "Stage", "StageX"], "Acquisition_instrument.SEM.Stage.x", .same⟩,
  ⟨["fei_metadata", "Stage", "StageY"], "Acquisition_instrument.SEM.Stage.y", .same⟩,
  ⟨["fei_metadata", "Stage", "StageZ"], "Acquisition_instrument.SEM.Stage.z", .same⟩,
  ⟨["fei_metadata", "Stage", "StageR"], "Acquisition_instrument.SEM.Stage.rotation", .same⟩,
  ⟨["fei_metadata", "Stage", "StageT"], "Acquisition_instrument.SEM.Stage.tilt", .same⟩,
  ⟨["fei_metadata", "Stage", "WorkingDistance"], "Acquisition_instrument.SEM.working_distance", .tryTimes 1000⟩,
  ⟨["fei_metadata", "Scan", "Dwelltime"], "Acquisition_instrument.SEM.dwell_time", .same⟩,
  ⟨["fei_metadata", "EBeam", "BeamCurrent"], "Acquisition_instrument.SEM.beam_current", .tryTimes (10 ^ 9)⟩,
  ⟨["fei_metadata", "System", "SystemType"], "Acquisition_instrument.SEM.microscope", .same⟩,
  ⟨["fei_metadata", "User", "Date"], "General.date", .date⟩,
  ⟨["fei_metadata", "User", "Time"], "General.time", .time⟩,
  ⟨["fei_metadata", "User", "User"], "General.authors", .same⟩]

/-- `get_jeol_sightx_mapping`, lines 1158-1207. -/
def jeolTable (diffraction : Bool) : List Entry := [
  ⟨["ImageDescription", "ElectronGun", "AccelerationVoltage"], "Acquisition_instrument.TEM.beam_energy", .times (1 / 1000)⟩,
  ⟨["ImageDescription", "ElectronGun", "BeamCurrent"], "Acquisition_instrument.TEM.beam_current", .times (1 / 1000)⟩,
  ⟨["ImageDescription", "Instruments"], "Acquisition_instrument.TEM.microscope", .same⟩,
  ⟨["ImageDescription", "GonioStage", "StagePosition", "TX"], "Acquisition_instrument.TEM.Stage.tilt_alpha", .same⟩,
  ⟨["ImageDescription", "GonioStage", "StagePosition", "TY"], "Acquisition_instrument.TEM.Stage.tilt_beta", .same⟩,
  ⟨["ImageDescription", "GonioStage", "MZ"], "Acquisition_instrument.TEM.Stage.z", .times (1 / 10 ^ 6)⟩,
  ⟨["ImageDescription", "Eos", "EosMode"], "Acquisition_instrument.TEM.acquisition_mode", .eos⟩,
  ⟨["ImageDescription", "ImageFormingSystem", "SelectorValue"],
    if diffraction then "Acquisition_instrument.TEM.camera_length" else "Acquisition_instrument.TEM.magnification", .same⟩]

/-- `mapping_cz_sem`, lines 1210-1265. -/
def zeissTable : List Entry := [
  ⟨["CZ_SEM", "ap_actualkv"], "Acquisition_instrument.SEM.beam_energy", .tuple⟩,
  ⟨["CZ_SEM", "ap_mag"], "Acquisition_instrument.SEM.magnification", .tuple⟩,
  ⟨["CZ_SEM", "ap_stage_at_x"], "Acquisition_instrument.SEM.Stage.x", .tupleUnits "mm".toList⟩,
  ⟨["CZ_SEM", "ap_stage_at_y"], "Acquisition_instrument.SEM.Stage.y", .tupleUnits "mm".toList⟩,
  ⟨["CZ_SEM", "ap_stage_at_z"], "Acquisition_instrument.SEM.Stage.z", .tupleUnits "mm".toList⟩,
  ⟨["CZ_SEM", "ap_stage_at_r"], "Acquisition_instrument.SEM.Stage.rotation", .tuple⟩,
  ⟨["CZ_SEM", "ap_stage_at_t"], "Acquisition_instrument.SEM.Stage.tilt", .tuple⟩,
  ⟨["CZ_SEM", "ap_wd"], "Acquisition_instrument.SEM.working_distance", .tupleUnits "mm".toList⟩,
  ⟨["CZ_SEM", "dp_dwell_time"], "Acquisition_instrument.SEM.dwell_time", .tupleUnits "s".toList⟩,
  ⟨["CZ_SEM", "ap_iprobe"], "Acquisition_instrument.SEM.beam_current", .tupleUnits "nA".toList⟩,
  ⟨["CZ_SEM", "dp_detector_type"], "Acquisition_instrument.SEM.Detector.detector_type", .tuple⟩,
  ⟨["CZ_SEM", "sv_serial_number"], "Acquisition_instrument.SEM.microscope", .tuple⟩,
  ⟨["CZ_SEM", "ap_date"], "General.date", .tupleDate⟩,
  ⟨["CZ_SEM", "ap_time"], "General.time", .tupleTime⟩,
  ⟨["CZ_SEM", "sv_user_name"], "General.authors", .tuple⟩]

/-- `get_tvips_mapping`, lines 1268-1297. -/
def tvipsTable (diffraction : Bool) : List Entry := [
  ⟨["TVIPS", "TemMagnification"], if diffraction then "Acquisition_instrument.TEM.camera_length" else "Acquisition_instrument.TEM.magnification", .same⟩,
  ⟨["TVIPS", "CameraType"], "Acquisition_instrument.TEM.Detector.Camera.name", .same⟩,
  ⟨["TVIPS", "ExposureTime"], "Acquisition_instrument.TEM.Detector.Camera.exposure", .times (1 / 1000)⟩,
  ⟨["TVIPS", "TemHighTension"], "Acquisition_instrument.TEM.beam_energy", .times (1 / 1000)⟩,
  ⟨["TVIPS", "Comment"], "General.notes", .notEmpty⟩,
  ⟨["TVIPS", "Date"], "General.date", .nothing⟩,
  ⟨["TVIPS", "Time"], "General.time", .seconds⟩,
  ⟨["TVIPS", "TemStagePosition"], "Acquisition_instrument.TEM.Stage", .stage⟩]

/-- `mapping_olympus_sis`, lines 1300-1309. -/
def sisTable : List Entry := [
  ⟨["Olympus_SIS_metadata", "magnification"], "Acquisition_instrument.TEM.magnification", .same⟩,
  ⟨["Olympus_SIS_metadata", "cameraname"], "Acquisition_instrument.TEM.Detector.Camera.name", .same⟩]

/-- The tables that `get_metadata_mapping` returns, lines 1312-1333. -/
def table : Mapping → List Entry
  | .fei => feiTable
  | .zeiss => zeissTable
  | .tvips d => tvipsTable d
  | .sis => sisTable
  | .jeol d => jeolTable d
  | .none => []

/-- `_parse_…_FEI`, lines 1070-1088: `None` for texts that are no numbers. -/
def orNone : Py ℚ → ℚ → Py T
  | .ok v, q => .ok (.num (v * q))
  | .error .valueError, _ => .ok .null
  | .error e, _ => .error e

/-- `_parse_tuple_Zeiss`, lines 1091-1096. -/
def zeissValue (x : Ext) (v : T) : Py T :=
  match x.env.toFloat v with
  | .ok q => .ok (.num q)
  | .error .valueError => .ok v
  | .error e => .error e

/-- `_parse_tuple_Zeiss_with_units`, lines 1099-1106: value and units behind the name. -/
def zeissUnits (x : Ext) (unit : Text) : T → Py T
  | .list [_, .num v, .str u] => match x.factor u unit with
    | some f => .ok (.num (x.digits (v * f)))
    | none => .error .typeError
  | .list [_, _, _] => .error .typeError
  | .list _ => .error .valueError
  | _ => .error .typeError

/-- Two digits. -/
def two (n : Nat) : Text := if n < 10 then '0' :: decChars n else decChars n

/-- The days of `str(timedelta)`. -/
def daysText (d : Int) : Text :=
  if d = 0 then [] else (if d < 0 then '-' :: decChars d.natAbs else decChars d.natAbs) ++ (if d.natAbs = 1 then " day, ".toList else " days, ".toList)

/-- `_parse_tvips_time`, lines 1109-1111: `str(timedelta(seconds=n))`. -/
def deltaText (n : Int) : Text :=
  let s := (n % 86400).toNat
  daysText (n / 86400) ++ decChars (s / 3600) ++ ':' :: two (s / 60 % 60) ++ ':' :: two (s % 60)

/-- `int` of a number. -/
def toInt (q : ℚ) : Int := if 0 ≤ q then ⌊q⌋ else -⌊-q⌋

/-- The stage of TVIPS, lines 1288-1294. -/
def stageOf (v : T) : Py T := do
  let x ← (← v.at 0).rat
  let y ← (← v.at 1).rat
  let z ← (← v.at 2).rat
  let a ← v.at 3
  let b ← v.at 4
  .ok (.dict [("x".toList, .num (x * 1000)), ("y".toList, .num (y * 1000)), ("z".toList, .num (z * 1000)), ("tilt_alpha".toList, a), ("tilt_beta".toList, b)])

/-- `parser.parse(t).date().isoformat()` and the same for the time. -/
def parsed (f : Text → Py Text) : T → Py T
  | .str t => (f t).map .str
  | _ => .error .typeError

/-- A conversion. -/
def convert (x : Ext) : Conv → T → Py T
  | .same, v => .ok v
  | .times q, v => (x.env.toFloat v).map fun r => .num (r * q)
  | .tryTimes q, v => orNone (x.env.toFloat v) q
  | .date, v => parsed x.date v
  | .time, v => parsed x.time v
  | .tuple, v => do zeissValue x (← v.at 1)
  | .tupleUnits unit, v => zeissUnits x unit v
  | .tupleDate, v => do parsed x.date (← v.at 1)
  | .tupleTime, v => do parsed x.time (← v.at 1)
  | .seconds, .num q => .ok (.str (deltaText (toInt q)))
  | .seconds, _ => .error .typeError
  | .nothing, _ => .ok .null
  | .notEmpty, v => if v.isText "" then .ok .null else .ok v
  | .stage, v => stageOf v
  | .eos, v => .ok (.str (if v.isText "eosASID" then "STEM".toList else "TEM".toList))

/-- The value at a place of the original metadata. -/
def lookup : List String → T → Option T
  | [], v => some v
  | k :: ks, .dict d => match getKw k.toList d with
    | some v => lookup ks v
    | none => none
  | _ :: _, _ => none

/-- One entry of a table. -/
def applyEntry (x : Ext) (op : Op) (m : Op) (e : Entry) : Py Op :=
  match lookup e.src (.dict op) with
  | none => .ok m
  | some v => match convert x e.conv v with
    | .error err => .error err
    | .ok .null => .ok m
    | .ok t => .ok (setKw e.dst.toList t m)

/-- All of them, one after the other. -/
def applyAll (x : Ext) (op : Op) : List Entry → Op → Py Op
  | [], m => .ok m
  | e :: es, m => match applyEntry x op m e with
    | .error err => .error err
    | .ok m => applyAll x op es m

/-- The metadata of the instrument that a file has in the end; the places are joined with dots. -/
def instrument (x : Ext) (p : Page) (op : Op) : Py Op := do
  applyAll x op (table (← mappingOf p op)) []

end Verif.TiffMapping
