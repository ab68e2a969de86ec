import Verif.Py.Assoc
import Verif.Py.Lines
import Verif.Model.Rgb
import Verif.Model.DateTime
import Mathlib.Algebra.Order.Ring.Rat
/-!
Model of `rsciio/tiff/_api.py` (TIFF files, reading and writing).

External is `tifffile`: a file is its flags, its pages and series with the values of the tags, the parsed
metadata of ImageJ and FEI, and the numbers found at an address. Also external: `float` of a text,
`polyfit` over 0, 1, 2, ..., `round` to 15 digits, `strptime` in two formats, the parser of the XML of
JEOL, the square root in the wavelength of the electrons. Numbers are rationals and arithmetic on them
is exact. Texts that `csv` splits have no escaped line breaks. Lazy reading gives the same values.
Writing is modelled up to the arguments of `imwrite`; `stored` is what `tifffile` finds in a file written
with them. The tables of the mapping are in `TiffMapping`. Not modelled: keywords for `tifffile`,
warnings, log messages, the debug output of the tag `PhotometricInterpretation`.
-/
namespace Verif.Tiff
open Verif

/-- Values of tags and metadata. -/
inductive T
  | null | str (t : Text) | num (q : ℚ) | list (l : List T) | dict (d : List (Text × T))

abbrev Op := List (Text × T)

/-- `t[k]` for a text. -/
def T.get (k : Text) : T → Py T
  | .dict d => match getKw k d with | some v => .ok v | none => .error .keyError
  | _ => .error .typeError

/-- `t[i]` for a number. -/
def T.at (i : Nat) : T → Py T
  | .list l => match l[i]? with | some v => .ok v | none => .error .indexError
  | .dict _ => .error .keyError
  | _ => .error .typeError

/-- `k in t`. -/
def T.has (k : Text) : T → Py Bool
  | .dict d => .ok (getKw k d).isSome
  | _ => .error .typeError

/-- A number for arithmetic. -/
def T.rat : T → Py ℚ
  | .num q => .ok q
  | _ => .error .typeError

/-- A text for its methods. -/
def T.text : T → Py Text
  | .str t => .ok t
  | _ => .error .attributeError

def T.isText (t : String) : T → Bool
  | .str s => s = t.toList
  | _ => false

def T.isNum (q : ℚ) : T → Bool
  | .num r => r = q
  | _ => false

/-- `op[k]`. -/
def sub (k : String) (op : Op) : Py T := match getKw k.toList op with | some v => .ok v | none => .error .keyError

/-- `k in op`. -/
def has (k : String) (op : Op) : Bool := (getKw k.toList op).isSome

/-- A page. -/
structure Page where
  tags : List (Text × T)
  sis : List (Nat × T)
  isFei : Bool
  isSem : Bool
  isTvips : Bool
  isSis : Bool
  rgb : Bool
  shape : List Nat

/-- A page or a series. -/
structure Handle where
  axes : Text
  shape : List Nat
  page : Page
  data : Rgb.Reg

structure Tiff where
  fei : Bool
  sem : Bool
  tvips : Bool
  imagej : Bool
  feiMetadata : T
  imagejMetadata : Op
  pages : List Page
  series : List Handle
  floats : Nat → Nat → List ℚ

/-- Date and time in ISO format. -/
abbrev Stamp := Text × Text

/-- External functions. -/
structure Env where
  float : Text → Py ℚ
  polyfit : Nat → List ℚ → List ℚ
  round15 : ℚ → ℚ
  strptime : Text → Option Stamp
  strptime' : Text → Option Stamp
  jeolXml : T → Py T
  wave : ℚ → ℚ
  lumispy : Bool

/-- `float(v)`. -/
def Env.toFloat (env : Env) : T → Py ℚ
  | .num q => .ok q
  | .str t => env.float t
  | _ => .error .typeError

/-- Axes: uniform ones, values, polynomials of the third degree, and dictionaries without anything. -/
inductive Ax
  | lin (size : Nat) (name : Text) (scale offset units : T) (navigate : Option Bool)
  | data (name : Text) (units : T) (values : List ℚ)
  | poly (name : Text) (units : T) (size : Nat) (coefficients : List ℚ)
  | empty

/-- Axes `x`, `y` and `z` as they are collected: scales, offsets, units. -/
structure Collected where
  sx : T
  sy : T
  sz : T
  ox : T
  oy : T
  oz : T
  ux : T
  uy : T
  uz : T

/-- `_axes_defaults`, lines 419-426. -/
def defaults : Collected := ⟨.num 1, .num 1, .num 1, .num 0, .num 0, .num 0, .null, .null, .null⟩

/-- `_order_axes_by_name`, lines 226-244: scale, offset and units of an axis. -/
def byName (c : Collected) (name : Option Text) : T × T × T :=
  if name = some "height".toList then (c.sx, c.ox, c.ux)
  else if name = some "width".toList then (c.sy, c.oy, c.uy)
  else if name = some "depth".toList ∨ name = some "image series".toList ∨ name = some "time".toList then (c.sz, c.oz, c.uz)
  else (.num 1, .num 0, .null)

/-- `str(name)`. -/
def showName : Option Text → Text
  | some t => t
  | none => "None".toList

/-- The list `navigate`, lines 258-259: two of them are not, even if there is only one axis. -/
def navigates (n : Nat) : List Bool := List.replicate (n - 2) true ++ [false, false]

/-- `_build_axes_dictionaries`, lines 247-274. -/
def build (shape : List Nat) (names : List (Option Text)) (values : List (T × T × T)) : List Ax :=
  (shape.zip (names.zip (values.zip (navigates shape.length)))).map fun (n, name, (s, o, u), nav) =>
    .lin n (showName name) s o u (some nav)

/-- The axes of collected values. -/
def axesOf (c : Collected) (shape : List Nat) (names : List (Option Text)) : List Ax := build shape names (names.map (byName c))

/-- `axes_label_codes`, lines 43-61. -/
def labelOf (c : Char) : Py (Option Text) :=
  match c with
  | 'X' => .ok (some "width".toList)
  | 'Y' => .ok (some "height".toList)
  | 'S' => .ok (some "sample".toList)
  | 'P' => .ok (some "plane".toList)
  | 'I' => .ok (some "image series".toList)
  | 'Z' => .ok (some "depth".toList)
  | 'C' => .ok (some "color|em-wavelength|channel".toList)
  | 'E' => .ok (some "ex-wavelength|lambda".toList)
  | 'T' => .ok (some "time".toList)
  | 'R' => .ok (some "region|tile".toList)
  | 'A' => .ok (some "angle".toList)
  | 'F' => .ok (some "phase".toList)
  | 'H' => .ok (some "lifetime".toList)
  | 'L' => .ok (some "exposure".toList)
  | 'V' => .ok (some "event".toList)
  | 'Q' => .ok none
  | '_' => .ok none
  | _ => .error .keyError

/-! ### Calibrations -/

/-- `a / b`. -/
def divide (a b : ℚ) : Py ℚ := if b = 0 then .error .zeroDivision else .ok (a / b)

/-- One part of `_get_scales_from_x_y_resolution`, lines 930-935. -/
def resolution (k : String) (factor : ℚ) (op : Op) : Py ℚ := do
  let r ← sub k op
  return (← divide (← (← r.at 1).rat) (← (← r.at 0).rat)) * factor

/-- `_get_scales_from_x_y_resolution`, lines 930-935: first the vertical one. -/
def resolutions (factor : ℚ) (op : Op) : Py (ℚ × ℚ) := do
  let y ← resolution "YResolution" factor op
  let x ← resolution "XResolution" factor op
  return (y, x)

/-- The factor and the units of a `ResolutionUnit`, lines 440-447; 2 is the inch, 3 the centimetre. -/
def forcedUnits (unit : T) (c : Collected) (x y : ℚ) : Collected :=
  if unit.isNum 2 then { c with sx := .num (x * 25400), sy := .num (y * 25400), ux := .str "µm".toList, uy := .str "µm".toList }
  else if unit.isNum 3 then { c with sx := .num (x * 10000), sy := .num (y * 10000), ux := .str "µm".toList, uy := .str "µm".toList }
  else { c with sx := .num x, sy := .num y }

/-- `_axes_force_read`, lines 433-453. -/
def forced (op : Op) : Py Collected := do
  let unit ← sub "ResolutionUnit" op
  if unit.isNum 1 then return defaults
  else do
    let (x, y) ← resolutions 1 op
    return forcedUnits unit defaults x y

/-- `del op["FEI_HELIOS"]` or `del op["FEI_SFEG"]`, lines 466-469. -/
def feiDelete (op : Op) : Py Op :=
  if has "FEI_HELIOS" op then .ok (delKw "FEI_HELIOS".toList op)
  else if has "FEI_SFEG" op then .ok (delKw "FEI_SFEG".toList op)
  else .error .keyError

/-- `float(t[a][b])`. -/
def floatAt (env : Env) (a b : String) (t : T) : Py ℚ := do env.toFloat (← (← t.get a.toList).get b.toList)

/-- The pixels of the beam, lines 479-491; with a `KeyError` what is there stays. -/
def feiBeam (env : Env) (t : T) (c : Collected) : Py Collected :=
  match (do divide (← floatAt env "IRBeam" "HFW" t) (← floatAt env "Image" "ResolutionX" t)) with
  | .error .keyError => .ok c
  | .error e => .error e
  | .ok x => match (do divide (← floatAt env "IRBeam" "VFW" t) (← floatAt env "Image" "ResolutionY" t)) with
    | .error .keyError => .ok { c with sx := .num x }
    | .error e => .error e
    | .ok y => .ok { c with sx := .num x, sy := .num y, ux := .str ['m'], uy := .str ['m'] }

/-- The pixels of the scan or of the beam, lines 470-491. -/
def feiPixels (env : Env) (t : T) : Py Collected :=
  match floatAt env "Scan" "PixelWidth" t with
  | .error .keyError => feiBeam env t defaults
  | .error e => .error e
  | .ok x => match floatAt env "Scan" "PixelHeight" t with
    | .error .keyError => feiBeam env t { defaults with sx := .num x }
    | .error e => .error e
    | .ok y => .ok { defaults with sx := .num x, sy := .num y, ux := .str ['m'], uy := .str ['m'] }

/-- `_axes_fei`, lines 460-496, with the changed tags. -/
def fei (env : Env) (f : Tiff) (op : Op) : Op × Py Collected :=
  let op := setKw "fei_metadata".toList f.feiMetadata op
  match feiDelete op with
  | .error e => (op, .error e)
  | .ok op => (op, feiPixels env f.feiMetadata)

/-- `_axes_zeiss`, lines 503-524. -/
def zeiss (f : Tiff) (op : Op) : Py Collected := do
  let v ← (← (← (← sub "CZ_SEM" op).get []).at 3).rat
  let w ← match f.pages with | [] => .error .indexError | p :: _ => (match p.shape[1]? with | some n => .ok n | none => .error .indexError)
  let s ← divide (v * 1024) w
  return { defaults with sx := .num s, sy := .num s, ux := .str ['m'], uy := .str ['m'] }

/-- `_axes_tvips`, lines 532-551. -/
def tvips (op : Op) : Py Collected := do
  let t ← sub "TVIPS" op
  if (← t.has "PixelSizeX".toList) && (← t.has "PixelSizeY".toList) then
    return { defaults with sx := ← t.get "PixelSizeX".toList, sy := ← t.get "PixelSizeY".toList, ux := .str "nm".toList, uy := .str "nm".toList }
  else do
    let (x, y) ← resolutions (1 / 100) op
    return { defaults with sx := .num x, sy := .num y, ux := .str ['m'], uy := .str ['m'] }

/-- The last of the two tags of Olympus, lines 562-567. -/
def sisMetadata (p : Page) : T :=
  match p.sis.find? (·.1 = 33560), p.sis.find? (·.1 = 33471) with
  | some (_, t), _ => t
  | none, some (_, t) => t
  | none, none => .dict []

/-- `_axes_olympus_sis`, lines 558-577, with the changed tags. -/
def sis (env : Env) (p : Page) (op : Op) : Op × Py Collected :=
  let t := sisMetadata p
  (setKw "Olympus_SIS_metadata".toList t op, do
    let x ← env.toFloat (← t.get "pixelsizex".toList)
    let y ← env.toFloat (← t.get "pixelsizey".toList)
    return { defaults with sx := .num (env.round15 x), sy := .num (env.round15 y), ux := .str ['m'], uy := .str ['m'] })

/-- The text from its fifth character on, `t[4:]`. -/
def afterFour (t : T) : Py Text := do return (← t.text).drop 4

/-- The notes on the mode, lines 601-614. -/
def jeolNotes (eos illumi imaging : T) : Py Text := do
  let stem := eos.isText "modeASID"
  let a ← afterFour (← illumi.get "ImageField".toList)
  let b ← if stem then afterFour (← imaging.get "ScanningImageFormingMode".toList) else afterFour (← imaging.get "ImageFormingMode".toList)
  let c ← (← imaging.get "SelectorString".toList).text
  return joinWith ", ".toList [if stem then "STEM".toList else "TEM".toList, a, b, c]

/-- The length of the camera in metres, lines 642-645. -/
def cameraLength (unit : T) (v : ℚ) : ℚ :=
  if unit.isText "mm" then v / 1000 else if unit.isText "cm" then v / 100 else v

/-- The calibration of JEOL, lines 616-648. -/
def jeolScales (env : Env) (op : Op) (d eos imaging : T) : Py Collected := do
  let unit ← sub "ResolutionUnit" op
  let scale : ℚ := if unit.isNum 2 then 254 / 10000 else 1 / 100
  if !eos.isText "eosTEM" then return defaults
  else do
    let mode ← imaging.get "ModeString".toList
    if mode.isText "MAG" then do
      let mag ← env.toFloat (← imaging.get "SelectorValue".toList)
      let (x, y) ← resolutions ((← divide scale mag) * 1000000000) op
      return { defaults with sx := .num x, sy := .num y, ux := .str "nm".toList, uy := .str "nm".toList, uz := .str "nm".toList }
    else if mode.isText "DIFF" then do
      let v ← env.toFloat (← imaging.get "SelectorValue".toList)
      let ht ← floatAt env "ElectronGun" "AccelerationVoltage" d
      let l := cameraLength (← imaging.get "SelectorUnitString".toList) v
      let (x, y) ← resolutions (← divide scale (l * env.wave ht * 1000000000)) op
      return { defaults with sx := .num x, sy := .num y, ux := .str "1 / nm".toList, uy := .str "1 / nm".toList }
    else return defaults

/-- `_axes_jeol_sightx`, lines 584-654, with the changed tags. -/
def jeol (env : Env) (op : Op) : Op × Py Collected :=
  match (do (← env.jeolXml (← sub "ImageDescription" op)).get "TemReporter".toList) with
  | .error e => (op, .error e)
  | .ok d =>
    let op := setKw "ImageDescription".toList d op
    match (do
        let eos ← (← d.get "Eos".toList).get "EosMode".toList
        let illumi ← d.get "IlluminationSystem".toList
        let imaging ← d.get "ImageFormingSystem".toList
        return (eos, imaging, ← jeolNotes eos illumi imaging) : Py (T × T × Text)) with
    | .error e => (op, .error e)
    | .ok (eos, imaging, notes) =>
      let op := setKw "SightX_Notes".toList (.str notes) op
      (op, jeolScales env op d eos imaging)

/-! ### Hamamatsu -/

/-- A row of `csv.reader` with commas and double quotes; `quoted`: inside a field that began with a quote; `cur`: the field so far. -/
def csvRow : Bool → Text → Text → List Text
  | _, cur, [] => [cur]
  | true, cur, '"' :: '"' :: t => csvRow true (cur ++ ['"']) t
  | true, cur, '"' :: t => csvRow false cur t
  | true, cur, c :: t => csvRow true (cur ++ [c]) t
  | false, [], '"' :: t => csvRow true [] t
  | false, cur, ',' :: t => cur :: csvRow false [] t
  | false, cur, c :: t => csvRow false (cur ++ [c]) t

/-- The elements of a row that are a key and a value, lines 694-698. -/
def rowDict : List Text → Op → Op
  | [], d => d
  | e :: l, d => match splitChar '=' e with
    | [k, v] => rowDict l (setKw k (.str (stripBy (· = '"') v)) d)
    | _ => rowDict l d

/-- The rows of the description, lines 692-699. An empty row has no first element. -/
def describe : List Text → Op → Py Op
  | [], d => .ok d
  | [] :: _, _ => .error .indexError
  | r :: l, d => match csvRow false [] r with
    | [] => .error .indexError
    | k :: es => describe l (setKw (stripBy (fun c => c = ' ' || c = '[' || c = ']') k) (.dict (rowDict es [])) d)

/-- `l[:-1]` if the last element is this one. -/
def dropEnd {α : Type} [DecidableEq α] (c : α) (l : List α) : List α := if l.getLast? = some c then l.dropLast else l

/-- `str.splitlines` for lines that end with LF or CRLF. -/
def lines (t : Text) : List Text := (dropEnd [] (splitChar '\n' t)).map (dropEnd '\r')

/-- `int(re.findall(r"\d+", t)[0])`. -/
def firstNumber (t : Text) : Py Nat :=
  match (t.dropWhile (!·.isDigit)).takeWhile (·.isDigit) with
  | [] => .error .indexError
  | ds => .ok (ds.foldl (fun n c => 10 * n + (c.toNat - 48)) 0)

/-- `t.startswith(s)`. -/
def starts (s : String) (t : Text) : Bool := s.toList.isPrefixOf t

/-- One axis of the file, lines 704-731. -/
def streakAxis (f : Tiff) (scaling : Op) (key special : String) (n : Nat) : Py (List ℚ) := do
  let t ← (← sub key scaling).text
  if starts special t then return (List.range n).map fun i : Nat => (i : ℚ)
  else return f.floats (← firstNumber t) n

/-- A size among the tags. -/
def sizeTag (k : String) (op : Op) : Py Nat := do
  match ← sub k op with
  | .num q => if q.den = 1 ∧ 0 ≤ q.num then return q.num.toNat else .error .typeError
  | _ => .error .typeError

/-- `_get_hamamatsu_streak_description`, lines 685-736: the dictionary without the axes, and the axes. -/
def streakDescription (f : Tiff) (op : Op) : Py (Op × List ℚ × List ℚ) := do
  let d ← describe (lines (← (← sub "ImageDescription" op).text)) []
  let scaling ← match ← sub "Scaling" d with | .dict s => .ok s | _ => .error .typeError
  let nx ← sizeTag "ImageWidth" op
  let ny ← sizeTag "ImageLength" op
  let x ← streakAxis f scaling "ScalingXScalingFile" "Other" nx
  let y ← streakAxis f scaling "ScalingYScalingFile" "Focus mode" ny
  return (d, x, y)

/-- The argument `hamamatsu_streak_axis_type`. -/
inductive StreakType | none | uniform | data | functional | other
  deriving DecidableEq

/-- `names.index(name)`. -/
def indexOf (name : String) (names : List (Option Text)) : Py Nat :=
  match names.findIdx? (· = some name.toList) with | some i => .ok i | none => .error .valueError

/-- The axis of the height, lines 775-805. -/
def streakHeight (env : Env) (ty : StreakType) (units : T) (size : Nat) (y : List ℚ) : Ax :=
  match ty with
  | .data => .data "height".toList units y
  | .functional => .poly "height".toList units y.length (env.polyfit 3 y)
  | _ => .lin size "height".toList (.num ((env.polyfit 1 y).getD 0 0)) (.num ((env.polyfit 1 y).getD 1 0)) units none

/-- `_axes_hamamatsu_streak`, lines 739-807. -/
def streak (env : Env) (f : Tiff) (op : Op) (shape : List Nat) (names : List (Option Text)) (ty : StreakType) : Py (List Ax) := do
  let (d, x, y) ← streakDescription f op
  let scaling ← sub "Scaling" d
  let i ← indexOf "width" names
  let n ← match shape[i]? with | some n => .ok n | none => .error .indexError
  let xu ← scaling.get "ScalingXUnit".toList
  let j ← indexOf "height" names
  let yu ← scaling.get "ScalingYUnit".toList
  let m ← match shape[j]? with | some n => .ok n | none => .error .indexError
  let axes : List Ax := List.replicate names.length .empty
  let axes := axes.set i (.lin n "width".toList (.num ((env.polyfit 1 x).getD 0 0)) (.num ((env.polyfit 1 x).getD 1 0)) xu none)
  return axes.set j (streakHeight env ty yu m y)

/-- `_is_streak_hamamatsu`, lines 657-682. -/
def isStreak (op : Op) : Py Bool :=
  match getKw "Artist".toList op with
  | none => .ok false
  | some a => do
    if !starts "Copyright Hamamatsu" (← a.text) then return false
    else match getKw "Software".toList op with
      | none => return false
      | some s => return starts "HPD-TA" (← s.text)

/-! ### Digital Micrograph and ImageJ -/

def dmTags : List String :=
  ["65003", "65004", "65005", "65009", "65010", "65011", "65006", "65007", "65008", "65022", "65024", "65025"]

/-- `_is_digital_micrograph`, lines 828-845. -/
def isDm (op : Op) : Bool := dmTags.any fun t => has t op

/-- The value of a tag, or another one. -/
def tagOr (k : String) (op : Op) (d : T) : T := (getKw k.toList op).getD d

/-- `_add_axes_digital_micrograph`, lines 860-881. -/
def addDm (op : Op) (c : Collected) : Collected where
  uy := tagOr "65003" op c.uy
  ux := tagOr "65004" op c.ux
  uz := tagOr "65005" op c.uz
  sy := tagOr "65009" op c.sy
  sx := tagOr "65010" op c.sx
  sz := tagOr "65011" op c.sz
  oy := tagOr "65006" op c.oy
  ox := tagOr "65007" op c.ox
  oz := tagOr "65008" op c.oz

/-- The part of ImageJ on the plane, lines 819-822. -/
def addPlane (m op : Op) (c : Collected) : Py Collected :=
  match getKw "unit".toList m with
  | none => .ok c
  | some u => do
    let (x, y) ← resolutions 1 op
    let c := if u.isText "micron" then { c with ux := .str "µm".toList, uy := .str "µm".toList } else c
    return { c with sx := .num x, sy := .num y }

/-- `_add_axes_imagej`, lines 814-825. -/
def addImagej (m op : Op) (c : Collected) : Py Collected :=
  if has "ImageJ" m then do
    let c ← addPlane m op c
    return { c with sz := tagOr "spacing" m c.sz }
  else .ok c

/-- The last part of `_parse_scale_unit`, lines 914-927. -/
def usual (f : Tiff) (op : Op) : Py Collected :=
  let c := if isDm op then addDm op defaults else defaults
  if f.imagej then addImagej f.imagejMetadata op c else .ok c

/-- `_parse_scale_unit`, lines 884-927, with the changed tags. -/
def parseScale (env : Env) (f : Tiff) (p : Page) (op : Op) (shape : List Nat) (force : Bool) (names : List (Option Text)) (ty : StreakType) :
    Op × Py (List Ax) :=
  let done : Op × Py Collected → Op × Py (List Ax) := fun (op, c) => (op, c.map fun c => axesOf c shape names)
  if force && has "ResolutionUnit" op && has "XResolution" op then done (op, forced op)
  else if f.fei then done (fei env f op)
  else if f.sem then done (op, zeiss f op)
  else if f.tvips then done (op, tvips op)
  else if p.isSis then done (sis env p op)
  else if (tagOr "Make" op .null).isText "JEOL Ltd." then done (jeol env op)
  else match isStreak op with
    | .error e => (op, .error e)
    | .ok true => (op, streak env f op shape names ty)
    | .ok false => done (op, usual f op)

/-! ### Metadata -/

/-- The metadata of a signal. -/
structure Meta where
  filename : Text
  signalType : Text
  date : Option Text
  time : Option Text
  timeZone : Option Text
  title : Option T
  quantity : Option T
  gain : Option (T × T)

/-- Date and time of JEOL, lines 347-352. -/
def jeolDate (op : Op) (m : Meta) : Py Meta := do
  let t ← (← (← sub "ImageDescription" op).get "DateTime".toList).text
  return { m with date := some (t.take 10), time := some ((t.drop 11).take 15), timeZone := some (t.drop (t.length - 6)) }

/-- The other formats of the date, lines 344-354. -/
def otherDate (env : Env) (op : Op) (v : T) (m : Meta) : Py Meta :=
  if has "ImageDescription" op then jeolDate op m
  else match v with
    | .str t => match env.strptime' t with
      | some (d, h) => .ok { m with date := some d, time := some h }
      | none => .error .valueError
    | _ => .error .typeError

/-- The result of the other formats; the message needs a text, lines 355-356. -/
def orKeep (v : T) (m : Meta) : Py Meta → Py Meta
  | .ok m => .ok m
  | .error _ => match v with | .str _ => .ok m | _ => .error .typeError

/-- Date and time, lines 339-359. -/
def dateOf (env : Env) (op : Op) (m : Meta) : Py Meta :=
  match getKw "DateTime".toList op with
  | none => .ok m
  | some (.str t) => match env.strptime t with
    | some (d, h) => .ok { m with date := some d, time := some h }
    | none => orKeep (.str t) m (otherDate env op (.str t) m)
  | some v => orKeep v m (otherDate env op v m)

/-- The intensity of Digital Micrograph, lines 361-374 and 848-857. -/
def intensity (op : Op) (m : Meta) : Meta :=
  if isDm op then
    { m with
      quantity := getKw "65022".toList op
      gain := match getKw "65025".toList op, getKw "65024".toList op with | some s, some o => some (s, o) | _, _ => none }
  else m

/-- The tables of `get_metadata_mapping`. -/
inductive Mapping | fei | zeiss | tvips (cameraLength : Bool) | sis | jeol (cameraLength : Bool) | none
  deriving DecidableEq

/-- The mode of TVIPS, lines 1319-1327. -/
def tvipsMode (op : Op) : Py Bool :=
  match (do (← sub "TVIPS" op).get "TemMode".toList) with
  | .ok v => .ok (v.isNum 3)
  | .error .keyError => .ok false
  | .error e => .error e

/-- `get_metadata_mapping`, lines 1312-1333 and 1196-1205. -/
def mappingOf (p : Page) (op : Op) : Py Mapping :=
  if p.isFei then .ok .fei
  else if p.isSem then .ok .zeiss
  else if p.isTvips then do return .tvips (← tvipsMode op)
  else if p.isSis then .ok .sis
  else if (tagOr "Make" op .null).isText "JEOL Ltd." then do
    let m ← (← (← sub "ImageDescription" op).get "ImageFormingSystem".toList).get "ModeString".toList
    return .jeol (m.isText "DIFF")
  else .ok .none

/-! ### Reading -/

/-- A signal that was read. -/
structure Sig where
  data : Rgb.Array'
  axes : List Ax
  meta' : Meta
  original : Op
  mapping : Mapping

/-- `{tag.name: tag.value for tag in page.tags}`. -/
def opOf (tags : List (Text × T)) : Op := tags.foldl (fun d p => setKw p.1 p.2 d) []

/-- `os.path.split(filename)[1]`. -/
def baseName (t : Text) : Text := (splitChar '/' t).getLastD []

/-- Axes and shape without the colours, lines 297-305. The type needs as many names as there are colours. -/
def withoutColours (rgb : Bool) (h : Handle) : Py (Text × List Nat) :=
  if !rgb then .ok (h.axes, h.shape)
  else match h.shape.getLast? with
    | none => .error .indexError
    | some n => if 4 < n then .error .valueError else .ok (h.axes.dropLast, h.shape.dropLast)

/-- `_load_data`, lines 408-416. -/
def loadData (rgb : Bool) (h : Handle) : Py Rgb.Array' :=
  if rgb then do return .rgb (← Rgb.regular2rgbx false h.data) else .ok (.reg h.data)

/-- The parsed description of Hamamatsu, lines 388-394. -/
def addStreak (env : Env) (f : Tiff) (op : Op) (m : Meta) : Py (Op × Meta) := do
  if ← isStreak op then do
    let (d, x, y) ← streakDescription f op
    let s ← match ← sub "Scaling" d with | .dict s => .ok s | _ => .error .typeError
    let s := setKw "ScalingYaxis".toList (.list (y.map .num)) (setKw "ScalingXaxis".toList (.list (x.map .num)) s)
    let op := setKw "ImageDescriptionParsed".toList (.dict (setKw "Scaling".toList (.dict s) d)) op
    return (op, if env.lumispy then { m with signalType := "LumiTransientSpectrum".toList } else m)
  else return (op, m)

/-- The axes, or axes without calibration after any error, lines 319-332. -/
def axesOr (shape : List Nat) (names : List (Option Text)) : Py (List Ax) → List Ax
  | .ok l => l
  | .error _ => build shape names (names.map fun _ => (.num 1, .num 0, .null))

/-- `_read_tiff`, lines 277-405. -/
def readTiff (env : Env) (f : Tiff) (filename : Text) (force : Bool) (ty : StreakType) (h : Handle) : Py Sig := do
  let (axes, shape) ← withoutColours h.page.rgb h
  let op := opOf h.page.tags
  let names ← axes.mapM labelOf
  if ty = .other then .error .valueError else
  let (op, r) := parseScale env f h.page op shape force names ty
  let m ← dateOf env op ⟨baseName filename, [], none, none, none, none, none, none⟩
  let m := intensity op m
  let data ← loadData h.page.rgb h
  let (op, m) ← addStreak env f op m
  let mapping ← mappingOf h.page op
  return ⟨data, axesOr shape names r, { m with title := getKw "SightX_Notes".toList op }, op, mapping⟩

/-- `file_reader`, lines 136-221; `pages`: the handles of `tiff.pages`, for `multipage_as_list`. -/
def fileReader (env : Env) (filename : Text) (force asList : Bool) (ty : StreakType) (pages : List Handle) (f : Tiff) : Py (List Sig) :=
  (if asList then pages else f.series).mapM (readTiff env f filename force ty)

/-! ### Writing -/

/-- An axis of the signal to write. -/
structure WAxis where
  scale : ℚ
  offset : ℚ
  units : Option Text
  navigate : Bool

/-- A signal to write; `noise`: the linear model of the variance with offset and factor. -/
structure WSig where
  data : Rgb.Array'
  axes : List WAxis
  quantity : Option Text
  noise : Option (Option ℚ × Option ℚ)
  datetime : Option Text

/-- What is given to `imwrite`: the resolution as pairs for width and height, the description and the other tags. -/
structure Written where
  data : Rgb.Array'
  rgb : Bool
  resolution : Option ((Int × Int) × (Int × Int))
  description : Option Text
  quantity : Option Text
  tags : List (Nat × T)
  datetime : Option Text

/-- `units[i].encode("latin-1")`; bytes are their characters. -/
def latin1 (t : Text) : Py Text := if t.all (·.toNat < 256) then .ok t else .error .unicodeError

/-- `l[-k]`. -/
def fromEnd {α : Type} (k : Nat) (l : List α) : Py α :=
  if k ≤ l.length then (match l[l.length - k]? with | some v => .ok v | none => .error .indexError) else .error .indexError

/-- `l[k]`. -/
def nth {α : Type} (k : Nat) (l : List α) : Py α := match l[k]? with | some v => .ok v | none => .error .indexError

/-- The units in the description, lines 1061-1064. -/
def imagejUnit (u : Text) : Text :=
  if u = "µm".toList then "micron".toList else if u = ['Å'] then "angstrom".toList else u

/-- `_imagej_description`, lines 1052-1067. -/
def imagejDescription (unit : Text) (spacing : Option Text) : Text :=
  joinWith ['\n'] (["ImageJ=1.11a".toList, "unit=".toList ++ imagejUnit unit] ++
    (match spacing with | none => [] | some s => ["spacing=".toList ++ imagejUnit s]) ++ [[]])

/-- The intensity among the tags, lines 987-1012. -/
def intensityTags (s : WSig) : List (Nat × T) :=
  (match s.quantity with | none => [] | some q => [(65022, .str q), (65023, .str q)]) ++
  (match s.noise with
    | none => []
    | some (some o, some f) => [(65024, .num o), (65025, .num f)]
    | some _ => [(65024, .num 0), (65025, .num 1)])

/-- `_get_dm_kwargs_extratag`, lines 972-1023. -/
def dmTagList (s : WSig) (units : List Text) (nav : Nat) : Py (List (Nat × T)) := do
  let x ← fromEnd 1 s.axes
  let y ← fromEnd 2 s.axes
  let ux ← fromEnd 1 units
  let uy ← fromEnd 2 units
  let z ← if nav > 0 then do
      let z ← nth 0 s.axes
      let uz ← nth 0 units
      pure [(65005, .str uz), (65008, .num z.offset), (65011, .num z.scale), (65017, .num 1)]
    else pure []
  return [(65003, .str ux), (65004, .str uy), (65006, .num x.offset), (65007, .num y.offset), (65009, .num x.scale), (65010, .num y.scale)] ++
    intensityTags s ++ z

/-- `_get_tags_dict`, lines 938-969 and 1026-1049, without the tags of the user. -/
def tagsOf (show_ : ℚ → Text) (s : WSig) : Py (((Int × Int) × (Int × Int)) × Text × List (Nat × T)) := do
  let nav := (s.axes.filter (·.navigate)).length
  let units := s.axes.map fun a => a.units.getD []
  let x ← fromEnd 1 s.axes
  let y ← fromEnd 2 s.axes
  let res : (Int × Int) × (Int × Int) :=
    ((100000000, DateTime.pyInt (x.scale * 100000000)), (100000000, DateTime.pyInt (y.scale * 100000000)))
  let spacing ← if nav = 1 then do pure (some (show_ (← nth 0 s.axes).scale)) else pure none
  let d := imagejDescription (← nth 1 units) spacing
  let encoded ← units.mapM latin1
  return (res, d, ← dmTagList s encoded nav)

/-- `file_writer`, lines 65-131, without keywords for `imwrite`. -/
def fileWriter (show_ : ℚ → Text) (exportScale : Bool) (s : WSig) : Py Written := do
  let rgb := Rgb.isRgbx s.data
  let data := Rgb.rgbx2regular s.data
  if exportScale then do
    let (r, d, tags) ← tagsOf show_ s
    return ⟨data, rgb, some r, some d, s.quantity, tags, s.datetime⟩
  else return ⟨data, rgb, none, none, none, [], s.datetime⟩

/-! ### What `tifffile` finds -/

/-- How `tifffile` reads values: numbers among texts of the description, texts of other tags, the fractions of the resolution. -/
structure Lib where
  literal : Text → T
  decode : Text → T
  ratio : Int × Int → ℚ × ℚ

/-- The metadata of ImageJ in a description: lines with one equals sign. -/
def parseImagej (lib : Lib) (t : Text) : Op :=
  (splitChar '\n' t).foldl (fun d l => match splitChar '=' l with
    | [k, v] => setKw (stripBy isSpace k) (lib.literal (stripBy isSpace v)) d
    | _ => d) []

/-- The value of a tag as it is read. -/
def storedValue (lib : Lib) : T → T
  | .str t => lib.decode t
  | v => v

/-- A resolution as it is read. -/
def storedRatio (lib : Lib) (r : Int × Int) : T := .list [.num (lib.ratio r).1, .num (lib.ratio r).2]

/-- The tags of a written file. -/
def storedTags (lib : Lib) (w : Written) : List (Text × T) :=
  (match w.resolution with
    | some (x, y) => [("XResolution".toList, storedRatio lib x), ("YResolution".toList, storedRatio lib y)]
    | none => []) ++
  (match w.description with | some d => [("ImageDescription".toList, .str d)] | none => []) ++
  [("Software".toList, .str "hyperspy".toList)] ++
  (match w.datetime with | some d => [("DateTime".toList, .str d)] | none => []) ++
  w.tags.map fun p => ((toString p.1).toList, storedValue lib p.2)

/-- Texts of tags have only seven bits. -/
def ascii (t : Text) : Bool := t.all (·.toNat < 128)

/-- The file with the axes that `tifffile` finds in it. -/
def stored (lib : Lib) (axes : Text) (w : Written) : Py Tiff :=
  match w.data with
  | .rgb _ => .error .valueError
  | .reg a =>
    if !ascii (w.description.getD []) || !ascii (w.quantity.getD []) then .error .valueError else
    let p : Page := ⟨storedTags lib w, [], false, false, false, false, w.rgb, a.shape⟩
    .ok ⟨false, false, false, w.description.isSome, .null, parseImagej lib (w.description.getD []), [p],
      [⟨axes ++ (if w.rgb then ['S'] else []), a.shape, p, a⟩], fun _ _ => []⟩

end Verif.Tiff
