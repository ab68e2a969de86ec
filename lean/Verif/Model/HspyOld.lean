import Verif.Model.HspyFile
/-!
Model of the translation of hspy files of versions before 3.0: `group2signaldict` of
`rsciio/_hierarchical.py`, lines 413-557.

Only metadata whose sections (`Signal`, `General`, `TEM`, ...) are dictionaries are modelled; a
section of another kind is an error here (`TypeError`; in the code it may be another error, or
nothing at all).
-/
namespace Verif.HspyOld
open Verif.HierDict Verif.HspyFile

def t (s : String) : Text := s.toList

/-- The section `name`, created when it is missing. -/
def sectionOrNew (name : Text) (d : Dict) : Py Dict :=
  match lookup name d with
  | some (.dict s) => .ok s
  | some _ => .error .typeError
  | none => .ok []

/-- `if old in d: d.setdefault(sec, {}); d[sec][new] = d[old]; del d[old]`: the pattern of lines
425-435, 452-459, 460-467, 498-505, 518-529. -/
def moveInto (old sec new : Text) (d : Dict) : Py Dict :=
  match lookup old d with
  | none => .ok d
  | some v =>
    match sectionOrNew sec d with
    | .error e => .error e
    | .ok s => .ok (delKey old (putKey sec (.dict (putKey new v s)) d))

/-- `if old in d: d[new] = d[old]; del d[old]`: lines 443-451, 510-517. -/
def rename (old new : Text) (d : Dict) : Dict :=
  match lookup old d with
  | none => d
  | some v => delKey old (putKey new v d)

/-- Apply a change to the section `name`, if there is one. -/
def inSection (name : Text) (f : Dict → Py Dict) (d : Dict) : Py Dict :=
  match lookup name d with
  | none => .ok d
  | some (.dict s) =>
    match f s with
    | .ok s' => .ok (putKey name (.dict s') d)
    | .error e => .error e
  | some _ => .error .typeError

/-- A sequence of `moveInto sec`. -/
def moveAll (sec : Text) : List (Text × Text) → Dict → Py Dict
  | [], d => .ok d
  | (old, new) :: rest, d =>
    match moveInto old sec new d with
    | .ok d' => moveAll sec rest d'
    | .error e => .error e

/-- Lines 413-435, files before 1.1: results under their old names (attributes), signal type and
name. -/
def upgrade11 (env : FileEnv) (g : Group) (md att : Dict) : Py (Dict × Dict) := do
  let att ← addResults env g (t "mva_results") nLearning att
  let att ← addResults env g (t "peak_mva_results") nPeakLearning att
  let md ← moveInto (t "signal") (t "Signal") (t "signal_type") md
  let md ← moveInto (t "name") nGeneral nTitle md
  .ok (md, att)

/-- Lines 438-451: the private section. -/
def internalParameters (md : Dict) : Py Dict :=
  match lookup (t "_internal_parameters") md with
  | none => .ok md
  | some (.dict s) =>
    .ok (delKey (t "_internal_parameters") (putKey (t "_HyperSpy")
      (.dict (rename (t "folding") (t "Folding")
        (rename (t "stacking_history") (t "Stacking_history") s))) md))
  | some _ => .error .typeError

/-- Lines 470-491: EELS settings of a TEM. The section `EELS` takes four settings of the
microscope and becomes the section `Detector`. -/
def eels (tem : Dict) : Py Dict :=
  if hasKey (t "EELS") tem then
    match moveAll (t "EELS") [(t "dwell_time", t "dwell_time"),
        (t "dwell_time_units", t "dwell_time_units"), (t "exposure", t "exposure"),
        (t "exposure_units", t "exposure_units")] tem with
    | .error e => .error e
    | .ok tem =>
      match lookup (t "EELS") tem with
      | some v => .ok (delKey (t "EELS") (putKey (t "Detector") v tem))
      | none => .error .keyError
  else .ok tem

/-- Lines 460-505: one microscope; `f` changes its section. -/
def instrument (name : Text) (f : Dict → Py Dict) (md : Dict) : Py Dict :=
  if hasKey name md then
    match moveInto name (t "Acquisition_instrument") name md with
    | .error e => .error e
    | .ok md => inSection (t "Acquisition_instrument") (inSection name f) md
  else .ok md

/-- Lines 468-497. -/
def temSection (tem : Dict) : Py Dict :=
  match eels tem with
  | .error e => .error e
  | .ok tem => moveInto (t "EDS") (t "Detector") (t "EDS") tem

/-- Lines 437-529, files before 1.2. -/
def upgrade12 (md : Dict) : Py Dict := do
  let md ← internalParameters md
  let md ← moveInto (t "Variance_estimation") (t "Noise_properties") (t "Variance_linear_model") md
  let md ← instrument (t "TEM") temSection md
  let md ← instrument (t "SEM") (moveInto (t "EDS") (t "Detector") (t "EDS")) md
  let md ← inSection (t "Sample") (fun s => .ok (rename (t "Xray_lines") (t "xray_lines") s)) md
  let md ← moveAll nGeneral [(nTitle, nTitle), (t "date", t "date"), (t "time", t "time"),
    (t "original_filename", t "original_filename")] md
  moveAll (t "Signal") [(t "record_by", t "record_by"), (t "signal_origin", t "signal_origin"),
    (t "signal_type", t "signal_type")] md

/-- Lines 537-539 and 553-557: the tilt of the stage replaces the section `Stage`. -/
def tilt (s : Dict) : Dict :=
  match lookup (t "tilt_stage") s with
  | none => s
  | some v => delKey (t "tilt_stage") (putKey (t "Stage") (.dict [(t "tilt_alpha", v)]) s)

/-- Lines 540-551: the exposure time replaces the section `Detector.Camera`. `exposure_time` is
preferred to `exposure`. -/
def camera (tem : Dict) : Py Dict :=
  let key := if hasKey (t "exposure_time") tem then some (t "exposure_time")
    else if hasKey (t "exposure") tem then some (t "exposure") else none
  match key with
  | none => .ok tem
  | some k =>
    match lookup k tem with
    | none => .ok tem
    | some v =>
      match sectionOrNew (t "Detector") tem with
      | .error e => .error e
      | .ok det => .ok (delKey k (putKey (t "Detector")
          (.dict (putKey (t "Camera") (.dict [(t "exposure", v)]) det)) tem))

/-- Lines 530-557, files before 3.0. -/
def upgrade30 (md : Dict) : Py Dict :=
  inSection (t "Acquisition_instrument") (fun ai =>
    match inSection (t "TEM") (fun tem => camera (tilt tem)) ai with
    | .error e => .error e
    | .ok ai => inSection (t "SEM") (fun sem => .ok (tilt sem)) ai) md

/-- Line 413. -/
def stage11 (env : FileEnv) (version : List Nat) (g : Group) (md att : Dict) : Py (Dict × Dict) :=
  if ltVersion version [1, 1] then upgrade11 env g md att else .ok (md, att)

/-- Line 437. -/
def stage12 (version : List Nat) (md : Dict) : Py Dict :=
  if ltVersion version [1, 2] then upgrade12 md else .ok md

/-- Line 530. -/
def stage30 (version : List Nat) (md : Dict) : Py Dict :=
  if ltVersion version [3, 0] then upgrade30 md else .ok md

/-- Lines 413-557. -/
def upgrade (env : FileEnv) (version : List Nat) (g : Group) (md att : Dict) :
    Py (Dict × Dict) := do
  let r ← stage11 env version g md att
  let md ← stage12 version r.1
  let md ← stage30 version md
  .ok (md, r.2)

/-- `read` with the translation of old files. -/
def fileReader (env : FileEnv) (lazy : Bool) (f : Group) : Py Loaded :=
  readFile env lazy (upgrade env) f

end Verif.HspyOld
