import Verif.Py.Assoc
import Verif.Py.Text
import Verif.Model.Fei
import Mathlib.Data.List.Infix
import Mathlib.Algebra.Order.Ring.Rat
/-!
Model of `rsciio/emd/_emd_velox.py` (EMD files of Velox), of lines 165-181 of `rsciio/utils/hdf5.py` and
of `rsciio/utils/_units.py`. The decoder of event streams is `Model/Fei.lean`.

A file is its groups with their parsed JSON; the metadata of a dataset is the JSON in the first column of
`Metadata`. Numbers are exact. External, collected in `Env`: `float` and `int` of a JSON value, the text of a
JSON value in a format, the unit `pint` chooses for a value (`to_compact`) and the ratio of two units, rounding to a
double, local time, the number of values of an (unsigned) integer type. Simplified: pictures have three
dimensions and the type is a number or one of the three pairs of floats of FFT and DPC pictures;
the version is a number; a name used as unit is a text; `x in y` with `x` no text is an error. The
functions behind the entries of `mapping`
are not modelled, only which entries there are. Not modelled: log messages, chunks.
-/
namespace Verif.EmdVelox
open Verif

/-- JSON values. -/
inductive J
  | null | bool (b : Bool) | num (q : ℚ) | str (t : Text) | list (l : List J) | dict (d : List (Text × J))

abbrev Dict := List (Text × J)

/-! ### Python on JSON values -/

/-- `j[k]` for a text `k`. -/
def J.get (k : Text) : J → Py J
  | .dict d => match getKw k d with | some v => .ok v | none => .error .keyError
  | _ => .error .typeError

/-- `d[k]` for a dictionary. -/
def sub (k : Text) (d : Dict) : Py J := match getKw k d with | some v => .ok v | none => .error .keyError

/-- `j.get(k)`. -/
def J.opt (k : Text) : J → Py (Option J)
  | .dict d => .ok (getKw k d)
  | _ => .error .attributeError

/-- `j.items()`. -/
def J.items : J → Py Dict
  | .dict d => .ok d
  | _ => .error .attributeError

/-- `k in j.keys()`. -/
def J.has (k : Text) (j : J) : Py Bool := do return ((← j.opt k).isSome)

/-- `k in j` for a text `k`: a key, a part of a text, an element of a list. -/
def inText (k : Text) : J → Py Bool
  | .str t => .ok (decide (k <:+: t))
  | .dict d => .ok (getKw k d).isSome
  | .list l => .ok (l.any fun | .str t => decide (t = k) | _ => false)
  | _ => .error .typeError

/-- `a in b`. -/
def inJ (a b : J) : Py Bool :=
  match a with
  | .str k => inText k b
  | _ => .error .typeError

/-- A unit has to be a text. -/
def J.text : J → Py Text
  | .str t => .ok t
  | _ => .error .typeError

/-- `j == "t"`. -/
def J.isText (t : String) : J → Bool
  | .str u => decide (u = t.toList)
  | _ => false

/-- `d.update(e)`. -/
def update (d e : Dict) : Dict := e.foldl (fun d p => setKw p.1 p.2 d) d

/-! ### Files and signals -/

/-- An element of an array: real and imaginary part. -/
structure Sample where
  re : ℚ
  im : ℚ
  deriving DecidableEq

/-- Type of the elements of a picture: numbers, or pairs of floats (lines 292-296). -/
inductive DType | num (name : Text) | pair
  deriving DecidableEq

/-- A group in `Data/Image`: an array with indices row, column, frame. -/
structure Image where
  ny : Nat
  nx : Nat
  nf : Nat
  dtype : DType
  val : Nat → Nat → Nat → Sample
  md : Dict

/-- A group in `Data/Spectrum`. -/
structure Spectrum where
  shape : List Nat
  val : List Nat → ℚ
  md : Dict

/-- A group in `Data/SpectrumImage`. -/
structure SpecImage where
  settings : Option J
  md : Dict

/-- A group in `Data/SpectrumStream`. -/
structure Stream where
  settings : J
  data : List Nat
  md : Dict

/-- A group in `Data/EelsSpectrumImage`. -/
structure Eels where
  shape : List Nat
  val : List Nat → ℚ
  acq : Dict
  md : Dict

/-- A dataset in a group of metadata; `none`: it is empty, reading it is `IndexError`. -/
abbrev Entry := Option J

/-- What is in a group of metadata: groups or datasets. -/
inductive Node | group (l : List (Text × Entry)) | dset (e : Entry)

/-- A file. `lookup` finds the JSON at a path, `displays` is `Presentation/Displays/ImageDisplay`. -/
structure File where
  name : Text
  version : Nat
  groups : List (Text × List (Text × Node))
  images : Option (List (Text × Image))
  spectra : Option (List (Text × Spectrum))
  specImages : Option (List (Text × SpecImage))
  streams : Option (List (Text × Stream))
  eels : Option (List (Text × Eels))
  lookup : Text → Py J
  displays : Option (List (Text × Entry))

/-- Arguments of the reader. -/
structure Config where
  select : Option Text
  first : Nat
  last : Option Nat
  sumFrames : Bool
  sumDetectors : Bool
  rebin : Nat
  dtype : Option Text
  stack : Bool
  lazy : Bool

/-- External functions. `compact v u` is the unit chosen for the quantity `v u`; `ratio u u'` is one `u` in `u'`. -/
structure Env where
  float : J → Py ℚ
  nat : J → Py Nat
  fmt : J → Text
  compact : ℚ → Text → Py Text
  ratio : Text → Text → Py ℚ
  f64 : ℚ → ℚ
  iso : ℚ → Text
  zone : Text
  values : Text → Py Nat

/-- An axis; `index` is `index_in_array`. -/
structure Axis where
  name : Text
  offset : J
  scale : J
  size : Nat
  units : Option Text
  index : Option Nat
  navigate : Bool

/-- `metadata["General"]` and `metadata["Signal"]`. -/
structure Meta where
  filename : Text
  title : Option J
  dateTime : Option (Text × Text × Text)
  signalType : Text

/-- Which entries are in `mapping` beside those always there: those of single detectors and of elements. -/
structure Mapping where
  individual : Bool
  selected : Option Text
  deriving DecidableEq

structure Signal where
  shape : List Nat
  dtype : Text
  val : List Nat → Sample
  axes : List Axis
  md : Meta
  om : Dict
  mapping : Option Mapping

/-- What the reader remembers (`self`). -/
structure St where
  detector : Option J
  om : Dict
  labels : List (Text × J)
  spatial : Option (Nat × Nat)
  last : Option Nat
  number : Option Nat
  dtype : Option Text
  out : List Signal

/-! ### Units -/

/-- `convert_units`, `_units.py` lines 24-25. -/
def convertUnits (env : Env) (v : ℚ) (u u' : Text) : Py ℚ := do return v * (← env.ratio u u')

/-- `_convert_scale_units` with units, lines 842-850. -/
def convertScale (env : Env) (value : J) (u : Text) (factor : Nat) : Py (ℚ × Text) := do
  let f : ℚ := (factor : ℚ) / 2
  let v ← env.float value
  let u' ← env.compact (f * v) u
  let r ← env.ratio u u'
  if f = 0 then .error .zeroDivision else return (f * v * r / f, u')

/-- `_parse_frame_time`, lines 496-504. -/
def parseFrameTime (env : Env) (om : Dict) (factor : Nat) : Py (J × Option Text) :=
  match (do (← sub "Scan".toList om).get "FrameTime".toList) with
  | .error .keyError => .ok (.null, none)
  | .error e => .error e
  | .ok t => do
    let (v, u) ← convertScale env t ['s'] factor
    return (.num v, some u)

/-- `_get_dispersion_offset`, lines 827-836: the loop. -/
def dispersionLoop (env : Env) (rebin : Nat) (om : Dict) : Dict → Py (Option (ℚ × ℚ))
  | [] => .ok none
  | (_, d) :: ds => do
    let name ← (← sub "BinaryResult".toList om).get "Detector".toList
    if ← inJ name (← d.get "DetectorName".toList) then
      let disp ← env.float (← d.get "Dispersion".toList)
      let off ← env.float (← d.get "OffsetEnergy".toList)
      return some (disp / 1000 * rebin, off / 1000)
    else dispersionLoop env rebin om ds

/-- `_get_dispersion_offset`, lines 825-840. -/
def dispersion (env : Env) (rebin : Nat) (om : Dict) : Py (J × J × Option Text) :=
  match (do dispersionLoop env rebin om (← (← sub "Detectors".toList om).items)) with
  | .error .keyError => .ok (.num 1, .num 0, none)
  | .error e => .error e
  | .ok none => .ok (.num 1, .num 0, none)
  | .ok (some (d, o)) => .ok (.num d, .num o, some "keV".toList)

/-! ### Metadata -/

/-- `os.path.split(name)[1]`. -/
def baseName (t : Text) : Text := (splitChar '/' t).getLastD []

/-- Lines 860-874: the time stamp; `none`: the name is not bound (`UnboundLocalError`). -/
def unixTime (env : Env) (om : Dict) : Py (Option ℚ) := do
  let acq ← sub "Acquisition".toList om
  if ← acq.has "AcquisitionStartDatetime".toList then
    let t ← (← acq.get "AcquisitionStartDatetime".toList).get "DateTime".toList
    return some (← env.float t)
  else
    match ← sub "CustomProperties".toList om with
    | .str _ => return none
    | cp =>
      if ← cp.has "Detectors[BM-Ceta].TimeStamp".toList then
        let v ← env.float (← (← cp.get "Detectors[BM-Ceta].TimeStamp".toList).get "value".toList)
        return some (v / 1000000)
      else return none

/-- `_convert_datetime` (lines 995-999) and lines 875-878. -/
def dateTime (env : Env) (t : ℚ) : Py (Text × Text × Text) :=
  match splitChar 'T' ((splitChar '+' (env.iso t)).headD []) with
  | [d, h] => .ok (d, h, env.zone)
  | _ => .error .valueError

/-- `_get_metadata_dict`, lines 852-887. -/
def metadata (env : Env) (name : Text) (detector : Option J) (om : Dict) : Py Meta := do
  let t ← unixTime env om
  let dt ← match t with | none => pure none | some t => do pure (some (← dateTime env t))
  return ⟨baseName name, detector, dt, []⟩

/-- `_get_mapping`, lines 889-979. -/
def getMapping (version : Nat) (selected individual : Bool) : Mapping :=
  ⟨individual, if selected then
    some (if version ≥ 11 then "SharedProperties.EDSSpectrumQuantificationSettings".toList
      else "Operations.ImageQuantificationOperation".toList) else none⟩

/-- `_get_detector_information`, lines 483-494. -/
def detectorInformation (env : Env) (om : Dict) : Py (Option J) := do
  let index ← match getKw "BinaryResult".toList om with
    | some br => br.opt "DetectorIndex".toList
    | none => pure (some (.num 0))
  match index with
  | none => return none
  | some .null => return none
  | some i => return some (← (← sub "Detectors".toList om).get ("Detector-".toList ++ env.fmt i))

/-- `_get_detector_metadata_dict`, lines 51-57; without a match it is `None`. -/
def detectorMetadata (name : J → Bool) : Dict → Py J
  | [] => .ok .null
  | (_, d) :: ds => do
    if name (← d.get "DetectorName".toList) then return d else detectorMetadata name ds

/-- Equality of a name with a JSON value (`==` of line 55), for names that are texts. -/
def sameText : J → J → Bool
  | .str a, .str b => decide (a = b)
  | _, _ => false

/-- The first entry for which a function gives something (the loops of lines 439-480). -/
def firstOf (f : J → Py (Option J)) : Dict → Py (Option J)
  | [] => .ok none
  | (_, m) :: l => do
    match ← f m with
    | some v => return some v
    | none => firstOf f l

/-- `iDPC_or_dDPC`, lines 424-425. -/
def dpcName (m : J) : Text := if m.isText "true" then "iDPC".toList else "dDPC".toList

/-- What an operation says about the dataset `key`, lines 439-480. -/
def operation (key : Text) : Nat → J → Py (Option J)
  | 0, m => do
    if ← inText key (← m.get "dataPath".toList) then return some (← m.get "cameraName".toList) else return none
  | 1, m => do
    if ← inText key (← m.get "dataPath".toList) then return some (← m.get "detector".toList) else return none
  | 2, m => do
    let unf ← m.opt "unfilteredDataPath".toList
    let hit ← match unf with | some p => inText key p | none => pure false
    if hit then return some (.str (dpcName (← m.get "integrationMode".toList)))
    else if ← inText key (← m.get "dataPath".toList) then
      let n := dpcName (← m.get "integrationMode".toList)
      let e ← m.get "enableFilter".toList
      return some (.str (if e.isText "true" then "Filtered ".toList ++ n else n))
    else return none
  | 3, m => do
    if ← inText key (← m.get "dataPath".toList) then
      match ← m.get "outputs".toList with
      | .list (o :: _) =>
        let i ← o.get "inputIndex".toList
        return (if i.isText "0" then some (.str "A-C".toList)
          else if i.isText "1" then some (.str "B-D".toList) else none)
      | .list [] => .error .indexError
      | .dict _ => .error .keyError
      | _ => .error .typeError
    else return none
  | 4, m => do
    if ← inText key (← m.get "dataPath".toList) then return some (.str "DPC".toList) else return none
  | 5, m => do
    if ← inText key (← m.get "dataPath".toList) then return some (.str "DCFI".toList) else return none
  | _, m => do
    if ← inText key (← m.get "imageOutputPath".toList) then return some (.str "Half FFT".toList) else return none

/-- `keys`, lines 428-436. -/
def operationKeys : List String :=
  ["CameraInputOperation", "StemInputOperation", "SurfaceReconstructionOperation", "MathematicsOperation",
   "DpcOperation", "IntegrationOperation", "FftOperation"]

/-- The loop of lines 438-481, over the numbers of `keys`. -/
def nameLoop (key : Text) (ops : J) : List (Nat × String) → Py J
  | [] => .ok (.str "Unrecognized_image_signal".toList)
  | (n, k) :: ks => do
    match ← ops.opt k.toList with
    | none => nameLoop key ops ks
    | some d =>
      match ← firstOf (operation key n) (← d.items) with
      | some v => return v
      | none => nameLoop key ops ks

/-- `_get_detector_name`, lines 423-481. -/
def detectorName (om : Dict) (key : Text) : Py J := do
  nameLoop key (← sub "Operations".toList om) ((List.range 7).zip operationKeys)

/-- `_parse_metadata_group`, lines 538-541: the inner loop. -/
def parseEntries : List (Text × Entry) → Option Dict
  | [] => some []
  | (_, none) :: _ => none
  | (k, some v) :: l => (parseEntries l).map fun d => (k, v) :: d

/-- `_parse_metadata_group`, lines 532-547: an empty dataset ends the loop, what was read before remains. -/
def parseGroup : List (Text × Node) → Dict
  | [] => []
  | (k, .group l) :: g => match parseEntries l with
    | some d => (k, .dict d) :: parseGroup g
    | none => []
  | (_, .dset none) :: _ => []
  | (k, .dset (some v)) :: g => (k, v) :: parseGroup g

/-- Lines 126-132: the four groups. -/
def parseGroups (f : File) : Dict :=
  ["Displays", "Operations", "SharedProperties", "Features"].filterMap fun k =>
    (getKw k.toList f.groups).map fun g => (k.toList, J.dict (parseGroup g))

/-- The last part of a path, lines 521 and 529. -/
def lastPart (t : Text) : Text := (splitChar '/' t).getLastD []

/-- `_parse_image_display`, lines 516-521, for version 11 and later. -/
def labelsNew (f : File) : Dict → List (Text × J) → Py (List (Text × J))
  | [], acc => .ok acc
  | (_, v) :: l, acc => do
    match ← v.opt "data".toList with
    | none => labelsNew f l acc
    | some p => do
      let path ← (← (← f.lookup (← p.text)).get "dataPath".toList).text
      labelsNew f l (setKw (lastPart path) (← v.get "id".toList) acc)

/-- `_parse_image_display`, lines 524-530, for earlier versions. -/
def labelsOld : List (Text × Entry) → List (Text × J) → Py (List (Text × J))
  | [], acc => .ok acc
  | (_, none) :: _, _ => .error .indexError
  | (_, some v) :: l, acc => do
    let path ← (← v.get "dataPath".toList).text
    labelsOld l (setKw (lastPart path) (← (← v.get "display".toList).get "label".toList) acc)

/-- `_parse_image_display`, lines 506-530. -/
def parseLabels (f : File) (om : Dict) : Py (List (Text × J)) :=
  if f.version ≥ 11 then do
    labelsNew f (← (← (← sub "Displays".toList om).get "ImageDisplay".toList).items) []
  else match f.displays with
    | none => .error .attributeError
    | some l => labelsOld l []

/-! ### Single spectra -/

/-- `_read_spectrum`, lines 198-249. -/
def readSpectrum (env : Env) (cfg : Config) (f : File) (st : St) (s : Spectrum) : Py Signal := do
  let om := update s.md st.om
  let _ ← detectorInformation env om
  let (disp, off, _) ← dispersion env cfg.rebin om
  let squeeze := decide (s.shape.length = 2 ∧ s.shape.getLast? = some 1)
  let shape := if squeeze then s.shape.dropLast else s.shape.reverse
  let val : List Nat → Sample := fun i => ⟨s.val (if squeeze then i ++ [0] else i.reverse), 0⟩
  match shape.getLast? with
  | none => .error .indexError
  | some n =>
    let axes : List Axis :=
      (if shape.length = 2 then
        [⟨"Stack".toList, .num 0, .num 1, shape.headD 0, none, none, true⟩] else []) ++
      [⟨"Energy".toList, off, disp, n, some "keV".toList, none, false⟩]
    let md ← metadata env f.name st.detector om
    return ⟨shape, [], val, axes, { md with signalType := "EDS_TEM".toList }, om, some (getMapping f.version true true)⟩

/-- `_read_single_spectrum`, lines 186-196. -/
def readSpectra (env : Env) (cfg : Config) (f : File) (load : Bool) (st : St) : Py St :=
  if !load then .ok st else
  match f.spectra with
  | none => .ok st
  | some l => do
    let st : St := { st with detector := some (.str "EDS".toList) }
    let sigs ← l.mapM fun p => readSpectrum env cfg f st p.2
    return { st with out := st.out ++ sigs }

/-! ### Images -/

/-- The kind of the file, lines 177-184. -/
inductive Kind | image | spectrum | stream
  deriving DecidableEq

/-- `_check_im_type`, lines 177-184. -/
def kind (f : File) : Kind :=
  match f.images, f.specImages with
  | some _, some _ => .stream
  | some _, none => .image
  | none, _ => .spectrum

/-- Lines 347-354: the time between frames. -/
def frameTime (env : Env) (om : Dict) : Py J := do
  let scan ← sub "Scan".toList om
  match ← scan.opt "FrameTime".toList with
  | some t => return t
  | none =>
    let i ← (← sub "BinaryResult".toList om).get "DetectorIndex".toList
    (← (← sub "Detectors".toList om).get ("Detector-".toList ++ env.fmt i)).get "ExposureTime".toList

/-- `br.get(k, {a: v, b: v})` with texts as keys. -/
def optPair (br : J) (k : String) (a b : String) (v : ℚ) : Py J := do
  return (← br.opt k.toList).getD (.dict [(a.toList, .num v), (b.toList, .num v)])

/-- Lines 331-403: the axes of a picture with `n` frames. -/
def imageAxes (env : Env) (om : Dict) (ny nx n : Nat) : Py (List Axis) := do
  let br ← sub "BinaryResult".toList om
  let pix ← optPair br "PixelSize" "height" "width" 1
  let off ← optPair br "Offset" "x" "y" 0
  let unit ← ((← br.opt "PixelUnitX".toList).getD (.str [])).text
  let time ← if n = 1 then pure [] else do
    let (v, u) ← convertScale env (← frameTime env om) ['s'] (2 * n)
    pure [(⟨"Time".toList, .num 0, .num v, n, some u, some 0, true⟩ : Axis)]
  let i := if n = 1 then 0 else 1
  let (sx, u) ← convertScale env (← pix.get "width".toList) unit nx
  let sy ← convertUnits env (← env.float (← pix.get "height".toList)) unit u
  let ox ← convertUnits env (← env.float (← off.get ['x'])) unit u
  let oy ← convertUnits env (← env.float (← off.get ['y'])) unit u
  return time ++ [⟨['y'], .num oy, .num sy, ny, some u, some i, false⟩,
    ⟨['x'], .num ox, .num sx, nx, some u, some (i + 1), false⟩]

/-- Lines 275-281: the name of the detector. -/
def imageDetector (env : Env) (st : St) (key : Text) (om : Dict) : Py (Option J) := do
  let info ← detectorInformation env om
  match detectorName st.om key with
  | .ok n => return some n
  | .error .keyError => match info with
    | some d => return some (← d.get "DetectorName".toList)
    | none => return st.detector
  | .error e => .error e

/-- Values of a picture, lines 297-329: complex numbers, or numbers (as doubles unless lazy). -/
def sample (env : Env) (cfg : Config) (g : Image) (y x t : Nat) : Sample :=
  match g.dtype with
  | .pair => g.val y x t
  | .num _ => if cfg.lazy then ⟨(g.val y x t).re, 0⟩ else ⟨env.f64 (g.val y x t).re, 0⟩

/-- The type of the array. -/
def imageType (cfg : Config) (g : Image) : Text :=
  match g.dtype with
  | .pair => "complex64".toList
  | .num n => if cfg.lazy then n else "float64".toList

/-- `_read_image`, lines 268-421. -/
def readImage (env : Env) (cfg : Config) (f : File) (st : St) (key : Text) (g : Image) : Py (St × Signal) := do
  let om := update g.md st.om
  let det ← imageDetector env st key om
  let st : St := { st with detector := det, spatial := some (g.ny, g.nx) }
  let readStack := cfg.stack || decide (kind f = .image)
  let n := if readStack then g.nf else min 1 g.nf
  let axes ← imageAxes env om g.ny g.nx n
  let md ← metadata env f.name det om
  let om' ← match det with
    | none => pure om
    | some d => do
      let dm ← detectorMetadata (sameText d) (← (← sub "Detectors".toList om).items)
      pure (setKw "DetectorMetadata".toList dm om)
  let title := match getKw key st.labels with | some l => some l | none => md.title
  return (st, ⟨if n = 1 then [g.ny, g.nx] else [n, g.ny, g.nx], imageType cfg g,
    (fun i => if n = 1 then sample env cfg g (i.getD 0 0) (i.getD 1 0) 0
      else sample env cfg g (i.getD 1 0) (i.getD 2 0) (i.getD 0 0)),
    axes, { md with title := title }, om', some (getMapping f.version false false)⟩)

/-- `_read_images`, lines 260-266: the loop; without `load` only the first picture is read, for its shape. -/
def imageLoop (env : Env) (cfg : Config) (f : File) (load : Bool) : List (Text × Image) → St → Py St
  | [], st => .ok st
  | (k, g) :: l, st => do
    let (st, s) ← readImage env cfg f st k g
    if !load then return st
    else imageLoop env cfg f load l { st with out := st.out ++ [s] }

/-- `_read_images`, lines 251-266. -/
def readImages (env : Env) (cfg : Config) (f : File) (loadImages loadSi : Bool) (st : St) : Py St :=
  if !loadImages && !loadSi then .ok st else
  match f.images with
  | none => .ok st
  | some l => imageLoop env cfg f loadImages l st

/-! ### EELS spectrum images -/

/-- Calibration of EELS spectrum images, lines 715-744: scale and offset of `x`, of `y` if there is one, the unit. -/
def eelsCalibration (env : Env) (f : File) : Py ((ℚ × ℚ) × Option (ℚ × ℚ) × Text) := do
  match f.specImages with
  | none => .error .keyError
  | some [] => .error .indexError
  | some ((_, s) :: _) =>
    let br ← sub "BinaryResult".toList s.md
    let off ← br.get "Offset".toList
    let dim ← match off with
      | .dict d => pure d.length
      | .list l => pure l.length
      | .str t => pure t.length
      | _ => .error .typeError
    let pix ← br.get "PixelSize".toList
    let w ← pix.get "width".toList
    let ux ← (← br.get "PixelUnitX".toList).text
    let (sx, u) ← convertScale env w ux 1
    let ox ← convertUnits env (← env.float (← off.get ['x'])) ux u
    if dim = 2 then
      let h ← env.float (← pix.get "height".toList)
      let uy ← (← br.get "PixelUnitY".toList).text
      let sy ← convertUnits env h uy u
      let oy ← convertUnits env (← env.float (← off.get ['y'])) uy u
      return ((sx, ox), some (sy, oy), u)
    else return ((sx, ox), none, u)

/-- One EELS spectrum image, lines 747-823. -/
def readEels1 (f : File) (cal : (ℚ × ℚ) × Option (ℚ × ℚ) × Text) (e : Eels) : Py Signal := do
  let x (n : Nat) (i : Nat) : Axis := ⟨['x'], .num cal.1.2, .num cal.1.1, n, some cal.2.2, some i, true⟩
  let (shape, val, nav) ← match e.shape with
    | [a, b, c] => match cal.2.1 with
      | some (sy, oy) =>
        (.ok ([c, a, b], (fun i : List Nat => match i with | [p, q, r] => e.val [q, r, p] | _ => 0),
          [⟨['y'], .num oy, .num sy, c, some cal.2.2, some 1, true⟩, x a 0]) : Py (List Nat × (List Nat → ℚ) × List Axis))
      | none => .error .nameError
    | [a, b] => .ok ([a, b], e.val, [x a 0])
    | _ => .error .runtimeError
  let d ← sub "Data".toList e.acq
  let off ← d.get "offset".toList
  let scale ← d.get "dispersion".toList
  let axes := nav ++ [⟨"Energy-loss".toList, off, scale, shape.getLastD 0, some "eV".toList, some (shape.length - 1), false⟩]
  return ⟨shape, [], fun i => ⟨val i, 0⟩, axes, ⟨f.name, some (.str "EELS".toList), none, "EELS".toList⟩, e.md, none⟩

/-- `_read_eels_spectrum_images`, lines 713-823. -/
def readEels (env : Env) (f : File) (l : List (Text × Eels)) : Py (List Signal) := do
  let cal ← eelsCalibration env f
  l.mapM fun p => readEels1 f cal p.2

/-! ### Spectrum streams -/

/-- The array of a stream: with frames or summed. -/
inductive Cube | frames (a : Fei.Img4) | sum (a : Fei.Img3)

def Cube.shape : Cube → List Nat
  | .frames a => [a.nf, a.ny, a.nx, a.nc]
  | .sum a => [a.ny, a.nx, a.nc]

def Cube.val : Cube → List Nat → Nat
  | .frames a, [f, y, x, c] => a.val f y x c
  | .sum a, [y, x, c] => a.val y x c
  | _, _ => 0

/-- `stream_to_array`, lines 1099-1123 (and `_fei_stream_readers.py` lines 353-386), into an existing array if there is one. -/
def streamToArray (m : Nat) (cfg : Config) (ny nx bins last : Nat) (data : List Nat) : Option Cube → Py Cube
  | none =>
    if cfg.sumFrames then do return .sum (← Fei.streamToSum m data ny nx bins last cfg.first cfg.rebin)
    else do return .frames (← Fei.streamToFrames m data ny nx bins last cfg.first cfg.rebin)
  | some (.sum a) => do return .sum (← Fei.fillSum m cfg.first last cfg.rebin data 0 0 a)
  | some (.frames a) => do return .frames (← Fei.fillFrames m cfg.first last cfg.rebin data 0 0 a)

/-- `stream_to_sparse_array`, lines 1076-1097. -/
def streamToSparse (cfg : Config) (ny nx bins last : Nat) (data : List Nat) : Py Cube :=
  if cfg.sumFrames then do return .sum (← Fei.sparseSum data ny nx bins last cfg.first cfg.rebin)
  else do return .frames (← Fei.sparseFrames data ny nx bins last cfg.first cfg.rebin)

/-- Sum of two arrays of the same shape. -/
def Cube.add : Cube → Cube → Cube
  | .frames a, .frames b => .frames ⟨a.nf, a.ny, a.nx, a.nc, fun f y x c => a.val f y x c + b.val f y x c⟩
  | .sum a, .sum b => .sum ⟨a.ny, a.nx, a.nc, fun y x c => a.val y x c + b.val y x c⟩
  | a, _ => a

/-- `astype` to a type with `m` values. -/
def Cube.mod (m : Nat) : Cube → Cube
  | .frames a => .frames ⟨a.nf, a.ny, a.nx, a.nc, fun f y x c => a.val f y x c % m⟩
  | .sum a => .sum ⟨a.ny, a.nx, a.nc, fun y x c => a.val y x c % m⟩

/-- A stream that was read. -/
structure StreamData where
  bins : Nat
  om : Dict
  cube : Cube

/-- `ceil((stream == 65535).sum() / (ny * nx))`, lines 1048-1052. -/
def countFrames (ny nx : Nat) (data : List Nat) : Py Nat :=
  if ny * nx = 0 then .error .valueError else .ok ((data.count Fei.marker + ny * nx - 1) / (ny * nx))

def optNum : Option Nat → J
  | none => .null
  | some n => .num n

/-- Lines 1034-1035: the type of the elements, of the first stream if none is given. -/
def streamType (st : St) (s : Stream) : Py Text :=
  match st.dtype with
  | some t => .ok t
  | none => do (← s.settings.get "StreamEncoding".toList).text

/-- Lines 1040-1054: the number of frames, counted in the first stream if it is not known. -/
def lastFrame (st : St) (ny nx : Nat) (s : Stream) : Py (Nat × Option Nat) :=
  match st.last with
  | some n => .ok (n, st.number)
  | none => do
    let n ← countFrames ny nx s.data
    return (n, some n)

/-- Lines 1062-1066: the array of a stream. -/
def newCube (env : Env) (cfg : Config) (dtype : Text) (ny nx bins last : Nat) (s : Stream) : Py Cube :=
  if cfg.lazy then streamToSparse cfg ny nx bins last s.data
  else do streamToArray (← env.values dtype) cfg ny nx bins last s.data none

/-- `FeiSpectrumStream.__init__`, lines 1023-1066. -/
def readStream (env : Env) (cfg : Config) (st : St) (s : Stream) : Py (St × StreamData) := do
  let bins ← env.nat (← s.settings.get "bincount".toList)
  if cfg.rebin = 0 then .error .zeroDivision else
  if bins % cfg.rebin ≠ 0 then .error .valueError else do
  let dtype ← streamType st s
  let (ny, nx) ← match st.spatial with | some p => pure p | none => .error .attributeError
  let (last, number) ← lastFrame st ny nx s
  let om := setKw "ImportedDataParameter".toList (.dict
    [("First_frame".toList, .num cfg.first), ("Last_frame".toList, .num last),
     ("Number_of_frames".toList, optNum number), ("Rebin_energy".toList, .num cfg.rebin),
     ("Number_of_channels".toList, .num bins)]) s.md
  let cube ← newCube env cfg dtype ny nx bins last s
  return ({ st with dtype := some dtype, last := some last, number := number }, ⟨bins, om, cube⟩)

/-- Lines 599-614: the stream of another detector is added to the array. -/
def moreCube (env : Env) (cfg : Config) (st : St) (ny nx last : Nat) (d : StreamData) (s : Stream) : Py Cube :=
  if cfg.lazy then do pure (d.cube.add (← streamToSparse cfg ny nx d.bins last s.data))
  else do streamToArray (← env.values (st.dtype.getD [])) cfg ny nx d.bins last s.data (some d.cube)

/-- Lines 596-614: the streams of the other detectors are added to the first. -/
def addStreams (env : Env) (cfg : Config) (st : St) : List Stream → StreamData → Py StreamData
  | [], d => .ok d
  | s :: l, d => do
    let (ny, nx) := st.spatial.getD (0, 0)
    let cube ← moreCube env cfg st ny nx (st.last.getD 0) d s
    addStreams env cfg st l { d with cube := cube }

/-- Line 616: one array for each stream. -/
def eachStream (env : Env) (cfg : Config) : List Stream → St → Py (St × List StreamData)
  | [], st => .ok (st, [])
  | s :: l, st => do
    let (st, d) ← readStream env cfg st s
    let (st, ds) ← eachStream env cfg l st
    return (st, d :: ds)

/-- Lines 556-569: the number of frames; every failure is caught. -/
def numberOfFrames (env : Env) (f : File) : Option Nat :=
  match f.specImages with
  | some ((_, s) :: _) => match s.settings with
    | some j => match (do env.nat (← j.get "endFramePosition".toList)) with
      | .ok n => some n
      | .error _ => none
    | none => none
  | _ => none

/-- Lines 622-693: the axes of the spectrum images, from the metadata of the first stream. -/
def streamAxes (env : Env) (cfg : Config) (om : Dict) (shape : List Nat) : Py (List Axis) := do
  let _ ← detectorInformation env om
  let br ← sub "BinaryResult".toList om
  let pix ← br.get "PixelSize".toList
  let off ← br.get "Offset".toList
  let unit ← (← br.get "PixelUnitX".toList).text
  let (disp, eoff, eunit) ← dispersion env cfg.rebin om
  let (sx, u) ← convertScale env (← pix.get "width".toList) unit (shape.getD 1 0)
  let sy ← convertUnits env (← env.float (← pix.get "height".toList)) unit u
  let ox ← convertUnits env (← env.float (← off.get ['x'])) unit u
  let oy ← convertUnits env (← env.float (← off.get ['y'])) unit u
  let time ← if cfg.sumFrames then pure [] else do
    let (v, tu) ← parseFrameTime env om (shape.getD 0 0)
    pure [(⟨"Time".toList, .num 0, v, shape.getD 0 0, tu, some 0, true⟩ : Axis)]
  let i := if cfg.sumFrames then 0 else 1
  return time ++ [⟨['y'], .num oy, .num sy, shape.getD i 0, some u, some i, true⟩,
    ⟨['x'], .num ox, .num sx, shape.getD (i + 1) 0, some u, some (i + 1), true⟩,
    ⟨"X-ray energy".toList, eoff, disp, shape.getD (i + 2) 0, eunit, some (i + 2), false⟩]

/-- Lines 593-616: one array for all detectors, or one for each. -/
def someStreams (env : Env) (cfg : Config) (st : St) (s : Stream) (l : List Stream) : Py (St × List StreamData) :=
  if cfg.sumDetectors then do
    let (st, d) ← readStream env cfg st s
    let d ← addStreams env cfg st l d
    return (st, [d])
  else eachStream env cfg (s :: l) st

/-- Lines 592-620: the arrays. -/
def readStreams (env : Env) (cfg : Config) (st : St) (s : Stream) (l : List Stream) : Py (St × List StreamData) := do
  let (st, ds) ← someStreams env cfg st s l
  if cfg.lazy then do
    let m ← env.values (st.dtype.getD [])
    return (st, ds.map fun d => { d with cube := d.cube.mod m })
  else return (st, ds)

/-- Lines 553-554. -/
def eelsPart (env : Env) (f : File) : Py (List Signal) :=
  match f.eels with
  | some l => readEels env f l
  | none => .ok []

/-- Lines 570-576: where the frames end. -/
def endFrame (st : St) : Py St :=
  match st.last, st.number with
  | none, n => .ok { st with last := n }
  | some k, some n => if n ≠ 0 ∧ n < k then .error .valueError else .ok st
  | some _, none => .ok st

/-- Lines 618-711: the signals of the arrays. -/
def streamSignals (env : Env) (cfg : Config) (f : File) (st : St) (ds : List StreamData) : Py (List Signal) :=
  match ds with
  | [] => .ok []
  | d0 :: _ => do
    let om0 := update d0.om st.om
    let axes ← streamAxes env cfg om0 d0.cube.shape
    let md ← metadata env f.name st.detector om0
    return ds.map fun d =>
      ⟨d.cube.shape, st.dtype.getD [], fun i => ⟨d.cube.val i, 0⟩, axes, { md with signalType := "EDS_TEM".toList },
        update d.om st.om, some (getMapping f.version true (!cfg.sumFrames))⟩

/-- `_read_spectrum_stream`, lines 549-711, with the spectrum images to read. -/
def readSpectrumStream (env : Env) (cfg : Config) (f : File) (load : Bool) (st : St) : Py St :=
  if !load then .ok st else do
  let eels ← eelsPart env f
  let st ← endFrame
    { st with out := st.out ++ eels, detector := some (.str "EDS".toList), number := numberOfFrames env f }
  match f.streams with
  | none => return st
  | some [] => return st
  | some (s :: l) => do
    let (st, ds) ← readStreams env cfg st s.2 (l.map Prod.snd)
    return { st with out := st.out ++ (← streamSignals env cfg f st ds) }

/-! ### Files -/

/-- `_read_data`, lines 137-151: which parts are to be read (images, spectrum images, single spectra). -/
def selection : Option Text → Py (Bool × Bool × Bool)
  | none => .ok (true, true, true)
  | some t =>
    if t = "single_spectrum".toList then .ok (false, false, true)
    else if t = "images".toList then .ok (true, false, false)
    else if t = "spectrum_image".toList then .ok (false, true, false)
    else .error .valueError

/-- `read_file` and `_read_data`, lines 120-175. -/
def read (env : Env) (cfg : Config) (f : File) : Py (List Signal) := do
  let om := parseGroups f
  let labels ← if kind f = .stream then parseLabels f om else pure []
  let (images, si, single) ← selection cfg.select
  let st : St := ⟨none, om, labels, none, cfg.last, none, cfg.dtype, []⟩
  match kind f with
  | .image => return (← readImages env cfg f images si st).out
  | .spectrum => do
    let st ← readSpectra env cfg f single st
    return (← readImages env cfg f images si st).out
  | .stream => do
    let st ← readSpectra env cfg f single st
    let st ← readImages env cfg f images si st
    return (← readSpectrumStream env cfg f si st).out

end Verif.EmdVelox
