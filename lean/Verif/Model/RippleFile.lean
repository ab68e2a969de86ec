import Verif.Model.Ripple
/-!
Model of calibrations and metadata in `rsciio/ripple/_api.py`: `file_writer` from a signal to the keys, `file_reader`
from the keys to axes and metadata, and `correct_INCA_format`. The text of the header and the raw data are in `Ripple`.

Floats are an abstract type, as in `Ripple`; `int(round(x))` is a parameter. `lower` is that of ASCII letters. The
names of the files are left out. Keys of `rpl_info` given by the user are left out: the keys are those of a file.
-/
namespace Verif.RippleFile
open Verif.Ripple

variable {F : Type}

/-! ### Writing -/

/-- An axis of a signal. -/
structure Ax (F : Type) where
  size : Nat
  scale : F
  offset : F
  units : Text
  name : Text
  navigate : Bool

/-- An instrument in the metadata. -/
structure Inst (F : Type) where
  beamEnergy : Option F
  convergence : Option F
  collection : Option F
  elevation : Option F
  azimuth : Option F
  tilt : Option F
  liveTime : Option F
  resolution : Option F

/-- The metadata of a signal. -/
structure Md (F : Type) where
  signalType : Text
  date : Text
  time : Text
  title : Text
  tem : Option (Inst F)
  sem : Option (Inst F)

/-- The roles of axes, lines 531-572. -/
structure Roles (F : Type) where
  recordBy : RecordBy
  depth : Option (Ax F)
  width : Option (Ax F)
  height : Option (Ax F)

/-- Lines 531-572. `none`: nothing is written. -/
def rolesOf (axes : List (Ax F)) : Option (Roles F) :=
  match (axes.filter fun a => !a.navigate).reverse, (axes.filter fun a => a.navigate).reverse with
  | [d], [w, h] => some ⟨.vector, some d, some w, some h⟩
  | [d], [w] => some ⟨.vector, some d, some w, none⟩
  | [d], [] => some ⟨.vector, some d, none, none⟩
  | [w, h], [d] => some ⟨.image, some d, some w, some h⟩
  | [w, h], [] => some ⟨.dontCare, none, some w, some h⟩
  | _, _ => none

/-- The text of a layout. -/
def recordText : RecordBy → String
  | .vector => "vector"
  | .image => "image"
  | .dontCare => "dont-care"

/-- The size for a role; a missing axis has the size one. -/
def sizeOf' (a : Option (Ax F)) : Nat :=
  match a with
  | some a => a.size
  | none => 1

/-- Lines 575-588. -/
def baseKeys (r : Roles F) (dataType : Text) (dataLength : Nat) (byteOrder : Text) (md : Md F) : List (Text × Val F) :=
  [("width".toList, .int (sizeOf' r.width)), ("height".toList, .int (sizeOf' r.height)), ("depth".toList, .int (sizeOf' r.depth)),
   ("offset".toList, .int 0), ("data-type".toList, .str dataType), ("data-length".toList, .int dataLength),
   ("byte-order".toList, .str byteOrder), ("record-by".toList, .str (recordText r.recordBy).toList),
   ("signal".toList, .str md.signalType), ("date".toList, .str md.date), ("time".toList, .str md.time),
   ("title".toList, .str md.title)]

/-- Lines 538 and 589-590. -/
def evKeys (round : F → Int) (r : Roles F) : List (Text × Val F) :=
  match r.recordBy, r.depth with
  | .vector, some d => [("ev-per-chan".toList, .int (round d.scale))]
  | _, _ => []

/-- Lines 591-597, for one axis. -/
def axisKeys (key : String) : Option (Ax F) → List (Text × Val F)
  | some a => if a.size > 1 then
      [((key ++ "-scale").toList, .flt a.scale), ((key ++ "-origin").toList, .flt a.offset),
       ((key ++ "-units").toList, .str a.units), ((key ++ "-name").toList, .str a.name)] else []
  | none => []

/-- A key with a value, if there is one. -/
def optional (key : String) : Option F → List (Text × Val F)
  | some x => [(key.toList, .flt x)]
  | none => []

/-- Lines 598-606. -/
def eelsKeys (md : Md F) : List (Text × Val F) :=
  match md.tem with
  | none => []
  | some i => optional "beam-energy" i.beamEnergy ++ optional "convergence-angle" i.convergence ++
      optional "collection-angle" i.collection

/-- Lines 612-625. -/
def edsKeys (i : Inst F) : List (Text × Val F) :=
  optional "beam-energy" i.beamEnergy ++ optional "elevation-angle" i.elevation ++ optional "tilt-stage" i.tilt ++
    optional "azimuth-angle" i.azimuth ++ optional "live-time" i.liveTime ++
    optional "detector-peak-width-ev" i.resolution

/-- Lines 608-611: the instrument of EDS. -/
def edsInst (md : Md F) : Py (Inst F) :=
  if md.signalType = "EDS_SEM".toList then match md.sem with
    | some i => .ok i
    | none => .error .attributeError
  else if md.signalType = "EDS_TEM".toList then match md.tem with
    | some i => .ok i
    | none => .error .attributeError
  else .error .nameError

/-- Lines 598-625. -/
def instKeys (md : Md F) : Py (List (Text × Val F)) :=
  if md.signalType = "EELS".toList then .ok (eelsKeys md)
  else if "EDS".toList <:+: md.signalType then (edsInst md).map edsKeys
  else .ok []

/-- The keys of a signal, lines 510-625. `none`: nothing is written. -/
def keysOf (round : F → Int) (axes : List (Ax F)) (dataType : Text) (dataLength : Nat) (byteOrder : Text) (md : Md F) :
    Py (Option (List (Text × Val F))) :=
  if axes.length > 3 then .error .ioError
  else match rolesOf axes with
    | none => .ok none
    | some r => (instKeys md).map fun l => some (baseKeys r dataType dataLength byteOrder md ++ evKeys round r ++
        axisKeys "depth" r.depth ++ axisKeys "height" r.height ++ axisKeys "width" r.width ++ l)

/-! ### Reading -/

/-- An axis as read. -/
structure AxisOut (F : Type) where
  size : Int
  name : Val F
  scale : Val F
  offset : Val F
  units : Option (Val F)
  navigate : Bool

/-- `rpl_info[key]` for a size. -/
def sizeBack (info : List (Text × Val F)) (key : String) : Py Int :=
  match getKw key.toList info with
  | some (.int n) => .ok n
  | some _ => .error .typeError
  | none => .error .keyError

/-- Lines 364-369: the scale. -/
def scaleBack (info : List (Text × Val F)) (key : String) : Val F :=
  match getKw (key ++ "-scale").toList info with
  | some v => v
  | none => if key = "depth" then (getKw "ev-per-chan".toList info).getD (.int 1) else .int 1

/-- Lines 374-375 and 445: the units. -/
def unitsBack [DecidableEq F] (info : List (Text × Val F)) (key : String) : Option (Val F) :=
  match getKw (key ++ "-units").toList info with
  | some v => if v = .str "<undefined>".toList then none else some v
  | none => some (.str [])

/-- Lines 364-402 and 449-461, for one axis. -/
def axisBack [DecidableEq F] (info : List (Text × Val F)) (key : String) (navigate : Bool) : Py (Option (AxisOut F)) := do
  let n ← sizeBack info key
  return if n > 1 then some
    { size := n, name := (getKw (key ++ "-name").toList info).getD (.str key.toList), scale := scaleBack info key
      offset := (getKw (key ++ "-origin").toList info).getD (.int 0), units := unitsBack info key, navigate := navigate }
  else none

/-- Lines 325-346: the axes in their order, and whether they are for navigation. `flat`: the data have one dimension. -/
def orderOf [DecidableEq F] (recordBy : Val F) (flat : Bool) : List (String × Bool) :=
  if recordBy = .str "vector".toList then [("height", true), ("width", true), ("depth", false)]
  else if recordBy = .str "image".toList then [("depth", true), ("height", false), ("width", false)]
  else if flat then [("depth", true), ("height", true), ("width", false)]
  else [("depth", true), ("height", false), ("width", false)]

/-- Line 332: the data of an image have one dimension, if just one of height and width is more than one. -/
def isFlat (info : List (Text × Val F)) : Py Bool := do
  let h ← sizeBack info "height"
  let w ← sizeBack info "width"
  return decide (h > 1) != decide (w > 1)

/-- The axes, lines 325-402 and 445-461. -/
def axesBack [DecidableEq F] (info : List (Text × Val F)) : Py (List (AxisOut F)) := do
  let flat ← isFlat info
  match getKw "record-by".toList info with
  | none => throw .keyError
  | some r => do
    let l ← (orderOf r flat).mapM fun e => axisBack info e.1 e.2
    return l.filterMap id

/-- Lines 353-363 and 404-411. -/
def textBack (info : List (Text × Val F)) (key : String) : Val F := (getKw key.toList info).getD (.str [])

/-- Keys and paths, lines 414-443, but for the resolution. -/
def paths : List (String × String) :=
  [("convergence-angle", "Acquisition_instrument.TEM.convergence_angle"),
   ("tilt-stage", "Acquisition_instrument.TEM.Stage.tilt_alpha"),
   ("collection-angle", "Acquisition_instrument.TEM.Detector.EELS.collection_angle"),
   ("beam-energy", "Acquisition_instrument.TEM.beam_energy"),
   ("elevation-angle", "Acquisition_instrument.TEM.Detector.EDS.elevation_angle"),
   ("azimuth-angle", "Acquisition_instrument.TEM.Detector.EDS.azimuth_angle"),
   ("live-time", "Acquisition_instrument.TEM.Detector.EDS.live_time")]

/-- Lines 434-443: the resolution; the second key is set after the first. -/
def resolutionBack (info : List (Text × Val F)) : Option (Val F) :=
  match getKw "detector-peak-width-ev".toList info with
  | some v => some v
  | none => getKw "energy-resolution".toList info

/-- The metadata, lines 404-443, as paths and values. -/
def metadataBack (info : List (Text × Val F)) : List (Text × Val F) :=
  [("General.date".toList, textBack info "date"), ("General.time".toList, textBack info "time"),
   ("General.title".toList, textBack info "title"), ("Signal.signal_type".toList, textBack info "signal")] ++
  (paths.filterMap fun e => (getKw e.1.toList info).map fun v => (e.2.toList, v)) ++
  ((resolutionBack info).map fun v => ("Acquisition_instrument.TEM.Detector.EDS.energy_resolution_MnKa".toList, v)).toList

/-! ### INCA -/

/-- Lines 117-124: a line of the other format. -/
def incaLine (line : Text) : Text :=
  replace ")".toList "\n".toList (stripBy isSpace ((replace " ".toList "\t".toList (replace " :".toList "\t".toList
    (replace " : ".toList "\t".toList (replace "(MLX::".toList [] line)))).map Char.toLower))

/-- Lines 125-131: the layout. -/
def incaRecord (line : Text) : Text :=
  if "record-by".toList <:+: line then
    let a := if "image".toList <:+: line then "record-by\timage".toList else line
    let b := if "vector".toList <:+: a then "record-by\tvector".toList else a
    if "dont-care".toList <:+: b then "record-by\tdont-care".toList else b
  else line

/-- `correct_INCA_format`, lines 112-136, as the text that is then read. -/
def incaText (file : Text) : Text :=
  match fileLines file with
  | [] => file
  | l :: ls => if '(' ∈ l then ls.flatMap fun x => incaRecord (incaLine x) else file

/-- `file_reader`, lines 294-477: axes and metadata of the text of a header. -/
def readFile [DecidableEq F] (parseI : Text → Option Int) (parseF : Text → Option F) (file : Text) :
    Py (List (AxisOut F) × List (Text × Val F)) := do
  let info ← parseRipple parseI parseF rplKeys (incaText file)
  let axes ← axesBack info
  return (axes, metadataBack info)

/-- `file_writer`: the text of the header of a signal. -/
def writeFile (showI : Int → Text) (showF : F → Text) (banner : Text) (round : F → Int) (axes : List (Ax F)) (dataType : Text) (dataLength : Nat)
    (byteOrder : Text) (md : Md F) : Py (Option Text) :=
  (keysOf round axes dataType dataLength byteOrder md).map fun o => o.map (rplText showI showF banner)

end Verif.RippleFile
