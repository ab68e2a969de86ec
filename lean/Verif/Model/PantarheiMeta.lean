import Verif.Py.Assoc
import Mathlib.Algebra.Order.Field.Rat
/-!
Model of the metadata of `.prz` files: `_metadata_converter_in` and `_metadata_converter_out` of
`rsciio/pantarhei/_api.py`, lines 374-536. The lists that belong to the axes are in `Pantarhei`.

Metadata are dictionaries from dotted paths to numbers or texts. Numbers are exact. External code as
parameters: `float` of a text, `str` of a number, and `datetime.fromisoformat` followed by `isoformat` of
its date and time. Values are numbers or texts (no lists, no `None`).
-/
namespace Verif.PantarheiMeta

/-- A value. -/
inductive Val | num (q : ℚ) | text (t : Text)
  deriving DecidableEq

abbrev Dict := List (Text × Val)

/-- External functions. -/
structure Lib where
  float : Text → Option ℚ
  str : ℚ → Text
  iso : Text → Option (Text × Text)

/-- `d.get(key)`. -/
def item (d : Dict) (k : String) : Option Val := getKw k.toList d

/-- An entry that is set if there is a value. -/
def entry (k : String) : Option Val → Dict
  | none => []
  | some v => [(k.toList, v)]

/-- `bool(v)`. -/
def Val.true : Val → Bool
  | .num q => decide (q ≠ 0)
  | .text t => !t.isEmpty

/-- The value if it counts as true (`if v:`). -/
def truthy (v : Option Val) : Option Val := v.filter Val.true

/-- `f` of a number, if it counts as true; texts cannot be computed with. -/
def scaled (f : ℚ → ℚ) (v : Option Val) : Py (Option Val) :=
  match truthy v with
  | none => .ok none
  | some (.num q) => .ok (some (.num (f q)))
  | some (.text _) => .error .typeError

/-! ### Reading -/

/-- Lines 387-389: the shift of the voltage. -/
def shift (d : Dict) : Val :=
  match item d "filter.ht_offset" with
  | some v => v
  | none => match item d "electron_gun.voltage_offset" with
    | some v => v
    | none => .num 0

/-- Lines 386-391. -/
def energyIn (d : Dict) : Py (Option Val) :=
  match truthy (item d "electron_gun.voltage"), shift d with
  | none, _ => .ok none
  | some (.num v), .num s => .ok (some (.num ((v + s) / 1000)))
  | _, _ => .error .typeError

/-- Lines 406-407. -/
def typeIn (d : Dict) (signalDims : Nat) : Option Val :=
  if item d "filter.mode" = some (.text "EELS".toList) ∧ signalDims = 1 then some (.text "EELS".toList)
  else none

/-- Lines 409-411: `name.split(".")[0]`. -/
def titleIn (d : Dict) : Py (Option Val) :=
  match item d "repo_id" with
  | none => .ok none
  | some (.num _) => .error .attributeError
  | some (.text t) => .ok (some (.text ((splitChar '.' t).headD [])))

/-- Line 414: `os.path.split(filename)[1]`. -/
def fileIn (filename : Option Text) : Option Val :=
  filename.map fun f => .text ((splitChar '/' f).getLastD [])

/-- Lines 416-420. -/
def stampIn (d : Dict) : Option Val := (item d "acquisition.time").or (item d "camera.time")

/-- Lines 421-424. -/
def timeIn (P : Lib) (d : Dict) : Py (Option (Text × Text)) :=
  match stampIn d with
  | none => .ok none
  | some (.num _) => .error .typeError
  | some (.text t) => match P.iso t with
    | none => .error .valueError
    | some r => .ok (some r)

/-- Lines 426-437. -/
def apertureIn (P : Lib) (d : Dict) : Py (Option Val) :=
  match item d "filter.aperture" with
  | none => .ok none
  | some (.num _) => .error .typeError
  | some (.text t) =>
    if ['m', 'm'] <:+: t then
      match P.float (rstripBy isSpace ((splitPair 'm' 'm' t).headD [])) with
      | none => .error .valueError
      | some q => .ok (some (.num q))
    else .ok (some (.text t))

/-- Lines 439-450: mode and key of the magnification. -/
def modeIn (d : Dict) : Option Val × String :=
  if item d "source.type" = some (.text "scan_generator".toList) then
    (some (.text "STEM".toList), "scan_driver")
  else if item d "source.type" = some (.text "camera".toList) then (some (.text "TEM".toList), "projector")
  else (none, "None")

/-- `_metadata_converter_in`, lines 374-460. -/
def metaIn (P : Lib) (d : Dict) (signalDims : Nat) (filename : Option Text) : Py Dict := do
  let energy ← energyIn d
  let convergence ← scaled (· * 1000) (item d "condenser.convergence_semi_angle")
  let collection ← scaled (· * 1000) (item d "filter.collection_semi_angle")
  let title ← titleIn d
  let time ← timeIn P d
  let aperture ← apertureIn P d
  return entry "Acquisition_instrument.TEM.beam_energy" energy ++
    entry "Acquisition_instrument.TEM.convergence_angle" convergence ++
    entry "Acquisition_instrument.TEM.Detector.EELS.collection_angle" collection ++
    entry "Signal.signal_type" (typeIn d signalDims) ++
    entry "General.title" title ++
    entry "General.original_filename" (fileIn filename) ++
    entry "General.date" (time.map fun t => .text t.1) ++
    entry "General.time" (time.map fun t => .text t.2) ++
    entry "Acquisition_instrument.TEM.Detector.EELS.aperture" aperture ++
    entry "Acquisition_instrument.TEM.acquisition_mode" (modeIn d).1 ++
    entry "Acquisition_instrument.TEM.magnification" (item d ((modeIn d).2 ++ ".magnification")) ++
    entry "Acquisition_instrument.TEM.camera_length" (item d "projector.camera_length")

/-! ### Writing -/

/-- Lines 489-490. -/
def typeOut (m : Dict) : Option Val :=
  if item m "Signal.signal_type" = some (.text "EELS".toList) then some (.text "EELS".toList) else none

/-- Lines 492-494. -/
def titleOut (m : Dict) : Py (Option Val) :=
  match truthy (item m "General.title") with
  | none => .ok none
  | some (.num _) => .error .typeError
  | some (.text t) => .ok (some (.text (t ++ ".0".toList)))

/-- Lines 496-500. -/
def timeOut (m : Dict) : Py (Option Val) :=
  match truthy (item m "General.date"), truthy (item m "General.time") with
  | some (.text d), some (.text t) => .ok (some (.text (d ++ 'T' :: t)))
  | some _, some _ => .error .typeError
  | _, _ => .ok none

/-- Lines 512-515. -/
def apertureOut (P : Lib) (m : Dict) : Option Val :=
  match truthy (item m "Acquisition_instrument.TEM.Detector.EELS.aperture") with
  | some (.num q) => some (.text (P.str q ++ " mm".toList))
  | v => v

/-- `bool(metadata.Acquisition_instrument.TEM)`: there is an entry below it. -/
def hasTem (m : Dict) : Bool := m.any fun e => "Acquisition_instrument.TEM.".toList.isPrefixOf e.1

/-- Lines 527-532: key of the magnification and source. -/
def modeOut (m : Dict) : String × String :=
  if item m "Acquisition_instrument.TEM.acquisition_mode" = some (.text "STEM".toList) then
    ("scan_driver", "scan_generator")
  else ("projector", "camera")

/-- Lines 502-534: the part of the microscope. -/
def temOut (P : Lib) (m : Dict) : Py Dict := do
  let energy ← scaled (· * 1000) (item m "Acquisition_instrument.TEM.beam_energy")
  let convergence ← scaled (· / 1000) (item m "Acquisition_instrument.TEM.convergence_angle")
  let collection ← scaled (· / 1000) (item m "Acquisition_instrument.TEM.Detector.EELS.collection_angle")
  return entry "filter.aperture" (apertureOut P m) ++
    entry "electron_gun.voltage" energy ++
    entry "condenser.convergence_semi_angle" convergence ++
    entry "filter.collection_semi_angle" collection ++
    entry "projector.camera_length" (truthy (item m "Acquisition_instrument.TEM.camera_length")) ++
    entry "source.type" (some (.text (modeOut m).2.toList)) ++
    entry ((modeOut m).1 ++ ".magnification") (truthy (item m "Acquisition_instrument.TEM.magnification"))

/-- `_metadata_converter_out`, lines 487-534, for signals that do not come from a `.prz` file. -/
def metaOut (P : Lib) (m : Dict) : Py Dict := do
  let title ← titleOut m
  let time ← timeOut m
  let tem ← if hasTem m then temOut P m else .ok []
  return entry "filter.mode" (typeOut m) ++ entry "repo_id" title ++ entry "acquisition.time" time ++ tem

/-- `_metadata_converter_out`, lines 464-536. `prz`: the extension of the original name is `.prz` and there
is a `ref_size`; then the original metadata are written. -/
def converterOut (P : Lib) (prz : Bool) (original m : Dict) : Py Dict :=
  if prz then .ok original else metaOut P m

end Verif.PantarheiMeta
