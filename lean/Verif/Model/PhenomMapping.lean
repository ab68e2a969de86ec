import Verif.Model.Phenom
/-!
Model of the table in `rsciio/phenom/_api.py` that says where metadata of the instrument are in the original metadata and how they are converted (`_make_mapping`).

HyperSpy applies the table: an entry whose source is in the original metadata gives its converted value, later entries replace earlier ones. Simplified: arithmetic is exact;
`math.degrees` of a number that the reader made with `math.radians` is the original number, of other numbers it is a symbol.
-/
namespace Verif.PhenomMapping
open Verif Verif.Phenom

/-- The conversions of the table. -/
inductive Conv
  | degrees | number | times (q : ℚ) | same

/-- Values of metadata. -/
inductive Val
  | num (q : ℚ) | degrees (q : ℚ) | kept (j : J)

structure Entry where
  src : List String
  dst : String
  conv : Conv

/-- `_make_mapping`, lines 490-540. -/
def semTable : List Entry := [
  ⟨["acquisition", "scan", "detectors", "EDS", "detector_azimuth"], "Acquisition_instrument.SEM.Detector.EDS.azimuth_angle", .degrees⟩,
  ⟨["acquisition", "scan", "detectors", "EDS", "detector_elevation"], "Acquisition_instrument.SEM.Detector.EDS.elevation_angle", .degrees⟩,
  ⟨["acquisition", "scan", "detectors", "EDS", "detector_resolution"], "Acquisition_instrument.SEM.Detector.EDS.energy_resolution_MnKa", .number⟩,
  ⟨["acquisition", "scan", "detectors", "EDS", "live_time"], "Acquisition_instrument.SEM.Detector.EDS.live_time", .number⟩,
  ⟨["acquisition", "scan", "detectors", "EDS", "real_time"], "Acquisition_instrument.SEM.Detector.EDS.real_time", .number⟩,
  ⟨["acquisition", "scan", "detectors", "EDS", "high_tension"], "Acquisition_instrument.SEM.beam_energy", .times (1 / 1000)⟩,
  ⟨["acquisition", "scan", "highVoltage", "value"], "Acquisition_instrument.SEM.beam_energy", .times (-1)⟩,
  ⟨["instrument", "uniqueID"], "Acquisition_instrument.SEM.microscope", .same⟩,
  ⟨["samplePosition", "x"], "Acquisition_instrument.SEM.Stage.x", .times 1000⟩,
  ⟨["samplePosition", "y"], "Acquisition_instrument.SEM.Stage.y", .times 1000⟩,
  ⟨["acquisition", "scan", "detectors", "EDS", "sample_tilt_angle"], "Acquisition_instrument.SEM.Stage.tilt_alpha", .degrees⟩,
  ⟨["acquisition", "scan", "detectors", "EDS", "working_distance"], "Acquisition_instrument.SEM.working_distance", .times 1000⟩]

/-- `math.degrees(float(x))`, for example line 494. -/
def toDegrees (env : Env) : J → Py Val
  | .radians q => .ok (.num q)
  | j => (toFloat env j).map .degrees

/-- A conversion. -/
def convert (env : Env) : Conv → J → Py Val
  | .degrees, j => toDegrees env j
  | .number, j => (toFloat env j).map .num
  | .times q, j => (toFloat env j).map fun v => .num (v * q)
  | .same, j => .ok (.kept j)

/-- The value at a place of the original metadata. -/
def lookup : List String → J → Option J
  | [], j => some j
  | k :: ks, .dict d => match getKw k.toList d with
    | some v => lookup ks v
    | none => none
  | _ :: _, _ => none

/-- One entry of the table. -/
def applyEntry (env : Env) (om : J) (m : List (Text × Val)) (e : Entry) : Py (List (Text × Val)) :=
  match lookup e.src om with
  | none => .ok m
  | some v => match convert env e.conv v with
    | .error err => .error err
    | .ok t => .ok (setKw e.dst.toList t m)

/-- All of them, one after the other. -/
def applyAll (env : Env) (om : J) : List Entry → List (Text × Val) → Py (List (Text × Val))
  | [], m => .ok m
  | e :: es, m => match applyEntry env om m e with
    | .error err => .error err
    | .ok m => applyAll env om es m

/-- The metadata of the instrument that a signal has in the end; the places are joined with dots. -/
def instrument (env : Env) (s : Sig) : Py (List (Text × Val)) := applyAll env s.original semTable []

end Verif.PhenomMapping
