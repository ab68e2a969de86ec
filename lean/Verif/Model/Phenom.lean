import Verif.Py.Assoc
import Verif.Py.Dec
import Verif.Py.Bytes
import Mathlib.Data.Rat.Defs
import Mathlib.Algebra.Order.Ring.Rat
/-!
Model of `rsciio/phenom/_api.py` (ELID files of Phenom microscopes).

The reader works on the decompressed bytes. External functions, collected in `Env`: the bzip2 decompressor, the value of
the bit pattern of a float, decoding UTF-8, `float(text)`, and `tifffile`, which delivers the picture and the parsed XML of the tag
`FEI_TITAN`. Simplified: numbers computed from floats are exact rationals, `math.radians` is a symbol; a read beyond
the end is an error (on a truncated file the code waits for input for ever, after the end of the stream it
raises); a picture is its rows, columns and a list of samples (`regular_array2rgbx` changes neither rows nor columns).
A plain `Exception` is `runtimeError`. Not modelled: the name of the file, the time zone. The mapping of
`original_metadata` to `metadata` is in `PhenomMapping`.
-/
namespace Verif.Phenom

/-- Values in `original_metadata`. -/
inductive J
  | none | str (t : Text) | num (q : ℚ) | radians (q : ℚ) | bool (b : Bool) | list (l : List J) | dict (d : List (Text × J))

/-- An element of the XML. -/
inductive Elem | mk (tag : Text) (attrs : List (Text × Text)) (text : Option Text) (children : List Elem)

/-- What `tifffile` finds. -/
structure Tiff where
  rows : Nat
  cols : Nat
  pixels : List Nat
  xml : Option Elem

/-- External functions. -/
structure Env where
  bz2 : List UInt8 → List UInt8
  f64 : Nat → ℚ
  utf8 : List UInt8 → Py Text
  tiff : List UInt8 → Py Tiff
  float : Text → Py ℚ

/-! ### Numbers and names -/

/-- `element_symbol`, lines 53-173. -/
def elements : List String :=
  ["", "H", "He", "Li", "Be", "B", "C", "N", "O", "F", "Ne", "Na", "Mg", "Al", "Si", "P", "S", "Cl", "Ar", "K",
   "Ca", "Sc", "Ti", "V", "Cr", "Mn", "Fe", "Co", "Ni", "Cu", "Zn", "Ga", "Ge", "As", "Se", "Br", "Kr", "Rb",
   "Sr", "Y", "Zr", "Nb", "Mo", "Tc", "Ru", "Rh", "Pd", "Ag", "Cd", "In", "Sn", "Sb", "Te", "I", "Xe", "Cs", "Ba",
   "La", "Ce", "Pr", "Nd", "Pm", "Sm", "Eu", "Gd", "Tb", "Dy", "Ho", "Er", "Tm", "Yb", "Lu", "Hf", "Ta", "W",
   "Re", "Os", "Ir", "Pt", "Au", "Hg", "Tl", "Pb", "Bi", "Po", "At", "Rn", "Fr", "Ra", "Ac", "Th", "Pa", "U",
   "Np", "Pu", "Am", "Cm", "Bk", "Cf", "Es", "Fm", "Md", "No", "Lr", "Rf", "Db", "Sg", "Bh", "Hs", "Mt", "Ds",
   "Rg", "Cn", "Nh", "Fl", "Mc", "Lv", "Ts", "Og"]

/-- Lines 174-176. -/
def elementSymbol (z : Nat) : Py Text :=
  if z < 1 ∨ z ≥ elements.length then .error .runtimeError else .ok (elements.getD z "").toList

/-- `family_symbol`, line 180. -/
def families : List String := ["", "K", "L", "M", "N", "O", "P"]

/-- Lines 181-183. -/
def familySymbol (i : Nat) : Py Text :=
  if i < 1 ∨ i ≥ families.length then .error .runtimeError else .ok (families.getD i "").toList

/-- `str(n)` for an integer. -/
def intText (i : Int) : Text := if i < 0 then '-' :: decChars i.natAbs else decChars i.natAbs

/-- A reader of the decompressed bytes. -/
abbrev Rd := StateT (List UInt8) (Except PyErr)

/-- Result of code without reading. -/
def lift (r : Py α) : Rd α := fun s => r.map fun a => (a, s)

/-- `_read`, lines 217-223. -/
def take (n : Nat) : Rd (List UInt8) := fun s =>
  if n ≤ s.length then .ok (s.take n, s.drop n) else .error .ioError

/-- `[f() for _ in range(n)]`. -/
def rep (n : Nat) (p : Rd α) : Rd (List α) :=
  match n with
  | 0 => pure []
  | n + 1 => do
    let a ← p
    let l ← rep n p
    pure (a :: l)

/-- `_read_uint8`, line 229. -/
def u8 : Rd Nat := do let b ← take 1; pure (leVal b)

/-- `_read_bool`, line 226. -/
def bool : Rd Bool := do let b ← take 1; pure (leVal b ≠ 0)

/-- `_read_uint32`, line 235. -/
def u32 : Rd Nat := do let b ← take 4; pure (leVal b)

/-- `_read_int32`, line 232. -/
def i32 : Rd Int := do let b ← take 4; pure (toSigned 4 (leVal b))

/-- `_read_float64`, lines 312-313. -/
def f64 (env : Env) : Rd ℚ := do let b ← take 8; pure (env.f64 (leVal b))

/-- `_read_string`, lines 237-239. -/
def str (env : Env) : Rd Text := do
  let n ← u32
  let b ← take n
  lift (env.utf8 b)

/-- `_read_varuint32`, lines 319-328: seven bits of each byte, the eighth says that more follow. -/
def varAux (value shift : Nat) : List UInt8 → Py (Nat × List UInt8)
  | [] => .error .ioError
  | b :: bs =>
    let value := value ||| ((b.toNat &&& 127) <<< shift)
    if b.toNat &&& 128 = 0 then .ok (value, bs) else varAux value (shift + 7) bs

/-- `_read_varuint32`. -/
def varuint : Rd Nat := fun s => varAux 0 0 s

/-- `_read_int32s`, lines 308-310. -/
def i32s : Rd (List Int) := do let n ← u32; rep n i32

/-- `_read_float64s`, lines 315-317. -/
def f64s (env : Env) : Rd (List ℚ) := do let n ← u32; rep n (f64 env)

/-- `_read_uint8s`, lines 336-338. -/
def u8s : Rd (List Nat) := do let n ← u32; rep n u8

/-- `_read_spectrum`, lines 330-334. -/
def spectrum (env : Env) : Rd (ℚ × ℚ × List Nat) := do
  let offset ← f64 env
  let dispersion ← f64 env
  let n ← u32
  let counts ← rep n varuint
  pure (offset, dispersion, counts)

/-- `_read_oxide`, lines 340-350. -/
def oxide : Rd Text := do
  let element ← u8
  let numElement ← u8
  let numOxygen ← u8
  let s ← lift (elementSymbol element)
  pure (s ++ (if numElement > 1 then decChars numElement else []) ++ "O".toList ++ (if numOxygen > 1 then decChars numOxygen else []))

/-- `_read_oxides`, lines 352-354. -/
def oxides : Rd (List Text) := do let n ← u32; rep n oxide

/-- `_read_element_family`, lines 356-359. -/
def elementFamily : Rd (Text × Text) := do
  let z ← u8
  let element ← lift (elementSymbol z)
  let i ← u8
  let family ← lift (familySymbol i)
  pure (element, family)

/-- `_read_element_families`, lines 361-363. -/
def elementFamilies : Rd (List (Text × Text)) := do let n ← u32; rep n elementFamily

/-- `_read_drift_correction`, lines 366-372. -/
def driftName (n : Nat) : String := if n = 1 then "on" else if n = 2 then "off" else "unknown"

/-- `_read_detector_type`, lines 375-385. -/
def detectorName (n : Nat) : String :=
  if n = 0 then "Empty" else if n = 1 then "FastSDD_C2" else if n = 2 then "FastSDD_C5" else if n = 3 then "FastSDD_WLS" else "Unknown"

/-- `_read_spectrum_correction`, lines 388-394. -/
def correctionName (n : Nat) : String := if n = 1 then "linearized" else if n = 2 then "raw" else "unknown"

/-- `_read_element_collection`, lines 396-397. -/
def elementCollection : Rd (List Text) := do let zs ← u8s; lift (zs.mapM elementSymbol)

/-! ### Dictionaries -/

/-- `d[k]`. -/
def item (k : String) : J → Py J
  | .dict d => match getKw k.toList d with
    | some v => .ok v
    | none => .error .keyError
  | _ => .error .typeError

/-- `d[k] = v`. -/
def setItem (k : String) (v : J) : J → Py J
  | .dict d => .ok (.dict (setKw k.toList v d))
  | _ => .error .typeError

/-- `k in d`. -/
def hasKey (k : String) : J → Py Bool
  | .dict d => .ok (getKw k.toList d).isSome
  | _ => .error .typeError

/-- `d[k₁][k₂]..`. -/
def getIn : List String → J → Py J
  | [], j => .ok j
  | k :: ks, j => do
    let c ← item k j
    getIn ks c

/-- `d[k₁][k₂].. = v` (in place, on a dictionary that nobody else holds). -/
def setIn : List String → J → J → Py J
  | [], v, _ => .ok v
  | [k], v, j => setItem k v j
  | k :: k' :: ks, v, j => do
    let c ← item k j
    let c ← setIn (k' :: ks) v c
    setItem k c j

/-- `bool(d)` for a dictionary or `None`. -/
def truthy : J → Bool
  | .dict d => d ≠ []
  | _ => false

/-- The path that the code writes out again and again. -/
def edsPath : List String := ["acquisition", "scan", "detectors", "EDS"]

mutual
/-- `xml_element_to_dict`, lines 266-278: the value under the name of the element. -/
def elemVal : Elem → J
  | .mk _ attrs text children =>
    match children with
    | [] =>
      if attrs ≠ [] then .dict (attrs.foldl (fun d a => setKw a.1 (.str a.2) d) [("value".toList, textVal text)])
      else textVal text
    | c :: cs => .dict (childVals (c :: cs) [])
/-- Lines 276-277: the children one by one. -/
def childVals : List Elem → List (Text × J) → List (Text × J)
  | [], d => d
  | .mk tag attrs text children :: cs, d => childVals cs (setKw tag (elemVal (.mk tag attrs text children)) d)
/-- `element.text`. -/
def textVal : Option Text → J
  | none => .none
  | some t => .str t
end

/-- `make_metadata_dict`, lines 280-282. -/
def metadataDict : Elem → Py J
  | .mk tag attrs text children => if tag = "FeiImage".toList then .ok (elemVal (.mk tag attrs text children)) else .error .keyError

/-- `_get_unit_factor`, lines 241-257. -/
def unitFactor (unit : Text) : Py ℚ :=
  match unit with
  | [] | [_] => .ok 1
  | c :: _ =>
    if c = 'M' then .ok 1000000
    else if c = 'k' then .ok 1000
    else if c = 'm' then .ok (1 / 1000)
    else if c = 'u' ∨ c = 'µ' then .ok (1 / 1000000)
    else if c = 'n' then .ok (1 / 1000000000)
    else if c = 'p' then .ok (1 / 1000000000000)
    else .error .runtimeError

/-- `float(x)`. -/
def toFloat (env : Env) : J → Py ℚ
  | .str t => env.float t
  | .num q => .ok q
  | .radians _ => .error .typeError
  | .bool b => .ok (if b then 1 else 0)
  | _ => .error .typeError

/-- `_get_value_with_unit`, lines 259-263; the unit is the text of an attribute. -/
def valueWithUnit (env : Env) : J → Py ℚ
  | .dict d => do
    let v ← item "value" (.dict d)
    let v ← toFloat env v
    let u ← item "unit" (.dict d)
    match u with
    | .str t => do
      let f ← unitFactor t
      pure (v * f)
    | _ => .error .typeError
  | j => toFloat env j

/-- `_read_tiff`, lines 295-305: metadata of a picture. -/
def tiffMeta (env : Env) (t : Tiff) : Py J :=
  match t.xml with
  | none => .ok (.dict [])
  | some e => do
    let j ← metadataDict e
    let h ← item "pixelHeight" j
    let h ← valueWithUnit env h
    let w ← item "pixelWidth" j
    let w ← valueWithUnit env w
    setIn ["acquisition", "scan", "fieldSize"] (.num (max (h * t.rows) (w * t.cols))) j

/-- `_read_tiff`, lines 284-306: the metadata (`none`: `None`) and the picture. -/
def readTiff (env : Env) : Rd (J × Option Tiff) := do
  let n ← u32
  if n = 0 then pure (.none, none)
  else do
    let b ← take n
    let t ← lift (env.tiff b)
    let j ← lift (tiffMeta env t)
    pure (j, some t)

/-! ### Metadata of spectra -/

/-- `_read_eds_metadata`, lines 410-416: what old files do not store. -/
def oldMetadata (env : Env) (om : J) : Py (List (Text × J)) := do
  let w ← item "workingDistance" om
  let w ← valueWithUnit env w
  let s ← getIn ["acquisition", "scan", "spotSize"] om
  let s ← toFloat env s
  pure [("working_distance".toList, .num w), ("slow_peaking_time".toList, .num (if s < 9 / 2 then 112 / 10000000 else 2 / 1000000)),
    ("fast_peaking_time".toList, .num (100 / 1000000000)), ("detector_surface_area".toList, .num (25 / 1000000))]

/-- `d.update(l)`. -/
def update (d l : List (Text × J)) : List (Text × J) := l.foldl (fun d e => setKw e.1 e.2 d) d

/-- `_read_eds_metadata`, lines 409-422: geometry, stored or not. -/
def edsGeometry (env : Env) (version : Int) (om : J) (d : List (Text × J)) : Rd (List (Text × J)) :=
  if version = 0 then do
    let b ← lift (hasKey "workingDistance" om)
    if b then do
      let l ← lift (oldMetadata env om)
      pure (update d l)
    else pure d
  else if version > 0 then do
    let optical ← f64 env
    let distance ← f64 env
    let area ← f64 env
    let detector ← f64 env
    let tilt ← f64 env
    pure (update d [("optical_working_distance".toList, .num optical), ("working_distance".toList, .num distance),
      ("detector_surface_area".toList, .num area), ("detector_distance".toList, .num detector), ("sample_tilt_angle".toList, .num tilt)])
  else pure d

/-- `_read_eds_metadata`, lines 423-430. -/
def edsDetector (env : Env) (version : Int) (d : List (Text × J)) : Rd (List (Text × J)) :=
  if version ≥ 3 then do
    let c ← f64 env
    let t ← u8
    let s ← u8
    pure (update d [("ccorrection".toList, .num c), ("detector_type".toList, .str (detectorName t).toList),
      ("spectrum_correction".toList, .str (correctionName s).toList)])
  else pure (update d [("ccorrection".toList, .num 0), ("detector_type".toList, .str "FastSDD_C2".toList),
      ("spectrum_correction".toList, .str "unknown".toList)])

/-- `_read_eds_metadata`, lines 399-436. -/
def edsMetadata (env : Env) (version : Int) (om : J) : Rd (List (Text × J)) := do
  let tension ← f64 env
  let elevation ← f64 env
  let azimuth ← f64 env
  let live ← f64 env
  let real ← f64 env
  let slow ← f64 env
  let fast ← f64 env
  let resolution ← f64 env
  let instrument ← str env
  let d ← edsGeometry env version om [("high_tension".toList, .num tension),
    ("detector_elevation".toList, if version = 0 then .radians elevation else .num elevation),
    ("detector_azimuth".toList, .num azimuth), ("live_time".toList, .num live), ("real_time".toList, .num real),
    ("slow_peaking_time".toList, .num slow), ("fast_peaking_time".toList, .num fast),
    ("detector_resolution".toList, .num resolution), ("instrument_id".toList, .str instrument)]
  edsDetector env version d

/-- A list of texts. -/
def texts (l : List Text) : J := .list (l.map .str)

/-- `_read_CommonAnalysis`, lines 446-460: what follows the spectrum and its metadata. -/
def commonRest (version : Int) (d : List (Text × J)) : Rd (List (Text × J)) := do
  let included ← elementCollection
  let excluded ← elementCollection
  let bins ← i32s
  let oxides ← oxides
  let auto ← bool
  let order ← i32
  let families ← elementFamilies
  let drift ← (if version ≥ 2 then do let n ← u8; pure (driftName n) else pure "unknown")
  let ignored ← (if version ≥ 4 then elementCollection else pure [])
  pure (update d [("included_elements".toList, texts included), ("excluded_elements".toList, texts excluded),
    ("background_fit_bins".toList, .list (bins.map fun i => .num (i : Int))), ("selected_oxides".toList, texts oxides),
    ("auto_id".toList, .bool auto), ("order_nr".toList, .num order),
    ("family_overrides".toList, .list (families.map fun f => .list [.str f.1, .str f.2])),
    ("drift_correction".toList, .str drift.toList), ("ignored_elements".toList, texts ignored)])

/-- `_read_CommonAnalysis`, lines 461-466: put the metadata of the spectrum into that of the cut-out. -/
def withEds (metadata : J) (eds : J) : Py J :=
  if truthy metadata then setIn edsPath eds metadata
  else .ok (.dict [("acquisition".toList, .dict [("scan".toList, .dict [("detectors".toList, .dict [("EDS".toList, eds)])])])])

/-- `_read_CommonAnalysis`, lines 438-466. -/
def commonAnalysis (env : Env) (version : Int) (am : J) : Rd (J × List Nat) := do
  let tiff ← readTiff env
  let sum ← spectrum env
  let eds ← edsMetadata env version am
  let eds ← commonRest version (update eds [("offset".toList, .num sum.1), ("dispersion".toList, .num sum.2.1)])
  let metadata ← lift (withEds tiff.1 (.dict eds))
  pure (metadata, sum.2.2)

/-! ### Signals -/

/-- An axis. -/
structure Axis where
  name : Text
  index : Option Nat := none
  offset : ℚ
  scale : ℚ
  size : Nat
  units : Text
  navigate : Bool
  deriving DecidableEq

/-- A signal. -/
structure Sig where
  shape : List Nat
  data : List Nat
  axes : List Axis
  title : Text
  signalType : Option Text
  date : Option (Text × Text)
  original : J

/-- Lines 477-484: the parts of a text before and after the letter. -/
def splitDate (t : Text) : Py (Option (Text × Text)) :=
  match splitChar 'T' t with
  | a :: b :: _ => .ok (some (a, b))
  | _ => .error .indexError

/-- `_get_datetime`, lines 564-568: date and time. -/
def dateTime (om : J) : Py (Option (Text × Text)) := do
  let b ← hasKey "time" om
  if b then
    match om with
    | .dict d => match getKw "time".toList d with
      | some (.str t) => splitDate t
      | _ => .error .attributeError
    | _ => .error .typeError
  else .ok none

/-- `float` arithmetic with an entry that the reader wrote. -/
def asNum : J → Py ℚ
  | .num q => .ok q
  | _ => .error .typeError

/-- The axis of the energy. -/
def energyAxis (name : String) (index : Option Nat) (offset dispersion : ℚ) (size : Nat) : Axis :=
  { name := name.toList, index := index, offset := offset / 1000, scale := dispersion / 1000, size := size, units := "keV".toList, navigate := false }

/-- `_make_spot_spectrum_dict`, lines 542-562. -/
def spotSignal (om : J) (offset dispersion : ℚ) (data : List Nat) (title : Text) : Py Sig := do
  let date ← dateTime om
  pure { shape := [data.length], data := data, axes := [energyAxis "Energy" none offset dispersion data.length], title := title,
         signalType := some "EDS_SEM".toList, date := date, original := om }

/-- `_make_line_spectrum_dict`, lines 570-600. -/
def lineSignal (om : J) (offset dispersion : ℚ) (size bins : Nat) (data : List Nat) (title : Text) : Py Sig := do
  let date ← dateTime om
  pure { shape := [size, bins], data := data,
         axes := [{ name := "i".toList, index := some 0, offset := 0, scale := 1, size := size, units := "points".toList, navigate := true },
                  energyAxis "X-ray energy" (some 1) offset dispersion bins],
         title := title, signalType := some "EDS_SEM".toList, date := date, original := om }

/-- `_get_unit`, lines 602-612. -/
def getUnit (value : ℚ) : ℚ × Text :=
  if value > 1 then (1, [])
  else if value > 1 / 1000 then (1 / 1000, ['m'])
  else if value > 1 / 1000000 then (1 / 1000000, ['µ'])
  else if value > 1 / 1000000000 then (1 / 1000000000, ['n'])
  else (1, [])

/-- `a / n` of a float and an integer. -/
def divNat (a : ℚ) (n : Nat) : Py ℚ := if n = 0 then .error .zeroDivision else .ok (a / n)

/-- An axis of a picture. -/
def placeAxis (name : String) (index : Nat) (scale : ℚ) (size : Nat) (units : Text) : Axis :=
  { name := name.toList, index := some index, offset := 0, scale := scale, size := size, units := units, navigate := true }

/-- `_make_map_spectrum_dict`, lines 614-659. -/
def mapSignal (env : Env) (om : J) (offset dispersion : ℚ) (height width bins : Nat) (data : List Nat) (title : Text) : Py Sig := do
  let f ← getIn ["acquisition", "scan", "fieldSize"] om
  let f ← asNum f
  let s ← getIn ["acquisition", "scan", "scanScale"] om
  let s ← toFloat env s
  let u := getUnit (f * s)
  let size := f * s / u.1
  let sy ← divNat size height
  let sx ← divNat size width
  let date ← dateTime om
  pure { shape := [height, width, bins], data := data,
         axes := [placeAxis "y" 0 sy height (u.2 ++ ['m']), placeAxis "x" 1 sx width (u.2 ++ ['m']),
                  energyAxis "X-ray energy" (some 2) offset dispersion bins],
         title := title, signalType := some "EDS_SEM".toList, date := date, original := om }

/-- `_make_image_dict`, lines 662-672: scales and unit. -/
def imageScales (env : Env) (om : J) : Py (ℚ × ℚ × Text) :=
  if truthy om then do
    let f ← getIn ["acquisition", "scan", "fieldSize"] om
    let f ← asNum f
    let u := getUnit (1 / 5 * f)
    let w ← item "pixelWidth" om
    let w ← valueWithUnit env w
    let h ← item "pixelHeight" om
    let h ← valueWithUnit env h
    pure (w / u.1, h / u.1, u.2 ++ ['m'])
  else pure (1, 1, "points".toList)

/-- `_make_image_dict`, lines 661-700; without a picture the access to its shape fails. -/
def imageSignal (env : Env) (om : J) (t : Option Tiff) (title : Text) : Py Sig := do
  let s ← imageScales env om
  match t with
  | none => .error .attributeError
  | some t => do
    let date ← dateTime om
    pure { shape := [t.rows, t.cols], data := t.pixels,
           axes := [placeAxis "y" 0 s.2.1 t.rows s.2.2, placeAxis "x" 1 s.1 t.cols s.2.2],
           title := title, signalType := none, date := date, original := om }

/-! ### Analyses -/

/-- `om["acquisition"]["scan"]["detectors"]["EDS"][k]`. -/
def edsItem (k : String) (om : J) : Py J := getIn (edsPath ++ [k]) om

/-- The number of the analysis in the title. -/
def orderText : J → Py Text
  | .num q => .ok (intText q.num)
  | _ => .error .typeError

/-- A spectrum with the offset and dispersion of the sum spectrum, lines 706-714 and others. -/
def sumSignal (original om : J) (data : List Nat) (title : Text) : Py Sig := do
  let o ← edsItem "offset" om
  let o ← asNum o
  let d ← edsItem "dispersion" om
  let d ← asNum d
  spotSignal original o d data title

/-- `"{}, Spot {}".format(label, order_nr)`. -/
def orderTitle (label : Text) (kind : String) (om : J) : Py Text := do
  let n ← edsItem "order_nr" om
  let n ← orderText n
  pure (label ++ ", ".toList ++ kind.toList ++ " ".toList ++ n)

/-- `original_metadata.update(om)`, line 705. -/
def updateJ : J → J → Py J
  | .dict a, .dict b => .ok (.dict (update a b))
  | .dict _, _ => .error .typeError
  | _, _ => .error .attributeError

/-- `_read_MsaAnalysis`, lines 702-714. -/
def msa (env : Env) (version : Int) (label : Text) (am : J) : Rd Sig := do
  let c ← commonAnalysis env version am
  let original ← lift (updateJ am c.1)
  let title ← lift (orderTitle label "MSA" c.1)
  lift (sumSignal original c.1 c.2 title)

/-- `_read_SpotAnalysis`, lines 716-736. -/
def spot (env : Env) (version : Int) (label : Text) (am : J) : Rd Sig := do
  let c ← commonAnalysis env version am
  let x ← f64 env
  let y ← f64 env
  let eds ← lift (getIn edsPath c.1)
  let eds ← lift (setItem "position" (.dict [("x".toList, .num x), ("y".toList, .num y)]) eds)
  let original ← lift (setIn edsPath eds am)
  let title ← lift (orderTitle label "Spot" c.1)
  lift (sumSignal original c.1 c.2 title)

/-- `data[i, bin] = ..` in an array of `uint32`. -/
def cell : Rd Nat := do
  let v ← varuint
  if v < 2 ^ 32 then pure v else lift (.error .overflowError)

/-- Lines 768-779 and 819-842: one time for each spectrum, or one for all. -/
def times (env : Env) (variable_ : Bool) (n : Nat) : Rd (List ℚ) :=
  if variable_ then rep n (f64 env)
  else do
    let t ← f64 env
    pure (List.replicate n t)

/-- A point in the picture. -/
def point (x y : ℚ) : J := .dict [("x".toList, .num x), ("y".toList, .num y)]

/-- A list of numbers. -/
def nums (l : List ℚ) : J := .list (l.map .num)

/-- `_read_LineScanAnalysis`, lines 738-788. -/
def line (env : Env) (version : Int) (label : Text) (am : J) : Rd Sig := do
  let c ← commonAnalysis env version am
  let x1 ← f64 env
  let y1 ← f64 env
  let x2 ← f64 env
  let y2 ← f64 env
  let size ← u32
  let bins ← u32
  let offset ← f64 env
  let dispersion ← f64 env
  let eds ← edsMetadata env version am
  let live ← lift (edsItem "live_time" c.1)
  let real ← lift (edsItem "real_time" c.1)
  let varReal ← bool
  let varLive ← bool
  let rows ← rep size (rep bins cell)
  let realTimes ← times env varReal size
  let liveTimes ← times env varLive size
  let accurate ← bool
  let eds := update eds [("live_time".toList, live), ("real_time".toList, real), ("begin".toList, point x1 y1), ("end".toList, point x2 y2),
    ("offset".toList, .num offset), ("dispersion".toList, .num dispersion), ("real_time_values".toList, nums realTimes),
    ("live_time_values".toList, nums liveTimes), ("high_accuracy_quantification".toList, .bool accurate)]
  let original ← lift (setIn edsPath (.dict eds) am)
  let o ← lift (edsItem "offset" c.1 >>= asNum)
  let d ← lift (edsItem "dispersion" c.1 >>= asNum)
  let title ← lift (orderTitle label "Line" c.1)
  lift (lineSignal original o d size bins rows.flatten title)

/-- A table of numbers. -/
def table (height width : Nat) (l : List ℚ) : J :=
  .list ((List.range height).map fun y => nums ((l.drop (y * width)).take width))

/-- `_read_MapAnalysis`, lines 790-849. -/
def mapAnalysis (env : Env) (version : Int) (label : Text) (am : J) : Rd Sig := do
  let c ← commonAnalysis env version am
  let _ ← f64 env
  let _ ← f64 env
  let _ ← f64 env
  let _ ← f64 env
  let _ ← f64s env
  let width ← u32
  let height ← u32
  let bins ← u32
  let _ ← f64 env
  let _ ← f64 env
  let eds ← edsMetadata env version am
  let live ← lift (edsItem "live_time" c.1)
  let real ← lift (edsItem "real_time" c.1)
  let varReal ← bool
  let varLive ← bool
  let rows ← rep height (rep width (rep bins cell))
  let realTimes ← times env varReal (height * width)
  let liveTimes ← times env varLive (height * width)
  let eds := update eds [("live_time".toList, live), ("real_time".toList, real),
    ("real_time_values".toList, table height width realTimes), ("live_time_values".toList, table height width liveTimes)]
  let original ← lift (setIn edsPath (.dict eds) am)
  let o ← lift (edsItem "offset" c.1 >>= asNum)
  let d ← lift (edsItem "dispersion" c.1 >>= asNum)
  let title ← lift (orderTitle label "Map" c.1)
  lift (mapSignal env original o d height width bins (rows.map List.flatten).flatten title)

/-- `_read_DifferenceAnalysis`, lines 851-865. -/
def difference (env : Env) (version : Int) (label : Text) (am : J) : Rd Sig := do
  let c ← commonAnalysis env version am
  let minuend ← u32
  let subtrahend ← u32
  let eds ← lift (getIn edsPath c.1)
  let original ← lift (setIn edsPath eds am)
  lift (sumSignal original c.1 c.2
    (label ++ ", Difference ".toList ++ decChars minuend ++ " - ".toList ++ decChars subtrahend))

/-- `_read_RegionAnalysis`, lines 867-891. -/
def region (env : Env) (version : Int) (label : Text) (am : J) : Rd Sig := do
  let c ← commonAnalysis env version am
  let left ← f64 env
  let top ← f64 env
  let right ← f64 env
  let bottom ← f64 env
  let eds ← lift (getIn edsPath c.1)
  let eds ← lift (setItem "rectangle" (.dict [("left".toList, .num left), ("top".toList, .num top), ("right".toList, .num right),
    ("bottom".toList, .num bottom)]) eds)
  let original ← lift (setIn edsPath eds am)
  let title ← lift (orderTitle label "Region" c.1)
  lift (sumSignal original c.1 c.2 title)

/-- `_read_ConstructiveAnalysisSource`, lines 893-896. -/
def source (env : Env) : Rd (Nat × ℚ) := do
  let i ← u32
  let w ← f64 env
  pure (i, w)

/-- `_read_ConstructiveAnalysis`, lines 902-908: read and forgotten. -/
def constructive (env : Env) (version : Int) (am : J) : Rd Unit := do
  let _ ← commonAnalysis env version am
  let _ ← str env
  let n ← u32
  let _ ← rep n (source env)
  pure ()

/-- `_read_Analysis`, lines 913-930; none: `None`. -/
def analysis (env : Env) (version : Int) (label : Text) (am : J) : Rd (Option Sig) := do
  let type ← u8
  if type = 1 then do let s ← msa env version label am; pure (some s)
  else if type = 2 then do let s ← spot env version label am; pure (some s)
  else if type = 3 then do let s ← line env version label am; pure (some s)
  else if type = 4 then do let s ← mapAnalysis env version label am; pure (some s)
  else if type = 5 then do let s ← difference env version label am; pure (some s)
  else if type = 6 then do let s ← region env version label am; pure (some s)
  else if type = 7 then do constructive env version am; pure none
  else lift (.error .runtimeError)

/-- `_read_Analyses`, lines 932-934. -/
def analyses (env : Env) (version : Int) (label : Text) (am : J) : Rd (List (Option Sig)) := do
  let n ← u32
  rep n (analysis env version label am)

/-- `_read_Image`, lines 936-943. -/
def image (env : Env) (version : Int) : Rd (List (Option Sig)) := do
  let t ← readTiff env
  let label ← str env
  let s ← lift (imageSignal env t.1 t.2 label)
  let l ← analyses env version label t.1
  pure (some s :: l)

/-- `_read_Images`, lines 945-950. -/
def images (env : Env) (version : Int) : Rd (List (Option Sig)) := do
  let n ← u32
  let l ← rep n (image env version)
  pure l.flatten

/-- `_read_Project`, lines 952-957. -/
def project (env : Env) (version : Int) : Rd (List Sig) := do
  let l ← images env version
  if version ≥ 1 then do
    let _ ← analyses env version [] (.dict [])
    let _ ← analyses env version [] (.dict [])
    pure (l.filterMap id)
  else pure (l.filterMap id)

/-- `ElidReader.__init__`, lines 207-215: the decompressed bytes. -/
def start (env : Env) : Rd (List Sig) := do
  let id ← take 4
  let version ← i32
  if id ≠ [69, 73, 68, 50] then lift (.error .runtimeError)
  else if version > 4 then lift (.error .runtimeError)
  else project env version

/-- `IsGZip` and `IsBZip2`, lines 186-196; none: the file is accepted. -/
def magic (raw : List UInt8) : Option PyErr :=
  if raw.length < 2 then some .structError
  else if raw.take 2 = [0x1f, 0x8b] then some .runtimeError
  else if raw.length < 10 then some .structError
  else if raw.take 2 = [66, 90] ∧ (raw.drop 4).take 6 = [0x31, 0x41, 0x59, 0x26, 0x53, 0x59] then none
  else some .runtimeError

/-- `file_reader`, lines 960-977, and `ElidReader.__init__`, lines 199-203. -/
def read (env : Env) (lazy : Bool) (raw : List UInt8) : Py (List Sig) :=
  if lazy then .error .notImplemented
  else match magic raw with
    | some e => .error e
    | none => ((start env) (env.bz2 raw)).map Prod.fst

end Verif.Phenom
