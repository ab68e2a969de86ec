import Verif.Py.IntLit
import Verif.Model.RenishawData
/-!
Model of `rsciio/hamamatsu/_api.py`.

Simplifications: a byte of 128 or more in a text is a `UnicodeDecodeError` (texts of UTF-8 beyond ASCII are not modelled); floating-point numbers of the file are exact (or bit
patterns, in the header); `float(text)` is a parameter (no value for a `ValueError`); an image of negative width or height raises; warnings, and `signal_type` of the metadata,
are left out. `fitAxis` (the straight line of least squares, `polyfit` of degree 1), `chunk`, `number`, `numbers` and `decode` are those of `Model/Renishaw`.
-/
namespace Verif.Hamamatsu
open Verif.Renishaw (Bytes chunk number numbers decode fitAxis)

/-! ### The comment -/

/-- `s.index(c)`: what is before the first `c`, and what is after it. -/
def cut (c : Char) : Text → Option (Text × Text)
  | [] => none
  | a :: t => if a = c then some ([], t) else (cut c t).map fun p => (a :: p.1, p.2)

/-- One section of the comment, lines 287-290. -/
def section_ (entry : Text) : Py (Text × Text) := match cut ']' entry with
  | none => .error .valueError
  | some (header, rest) => .ok (header, rstripBy isSpace (rest.drop 1))

/-- `_split_sections_from_comment`, lines 282-291. -/
def sections (comment : Text) : Py (List (Text × Text)) :=
  (splitChar '[' (comment.drop 1)).foldlM (fun d entry => (section_ entry).map fun p => setKw p.1 p.2 d) []

/-- One round of the loop of lines 317-325, with `_get_range_for_val`, lines 293-306: key, value and the rest of the text. -/
def entry (text : Text) (last : Bool) : Py (Text × Text × Text) := match cut '=' text with
  | none => .error .valueError
  | some (key, []) => let _ := key; .error .indexError
  | some (key, c :: r) =>
    if c = '"' then
      match cut '"' r with
      | none => .error .valueError
      | some (v, rest) => .ok (key, v, rest.drop 1)
    else if last then .ok (key, c :: r, [])
    else match cut ',' (c :: r) with
      | none => .error .valueError
      | some (v, rest) => .ok (key, v, rest)

/-- The loop of lines 317-325; each round takes at least one character. -/
def entries (num : Nat) : Nat → Nat → Text → List (Text × Text) → Py (List (Text × Text))
  | 0, _, _, d => .ok d
  | fuel + 1, count, text, d =>
    if text = [] then .ok d
    else match entry text (count + 1 = num) with
      | .error e => .error e
      | .ok (k, v, rest) => entries num fuel (count + 1) rest (setKw k v d)

/-- A section of the result: its text, or its entries. -/
inductive Sec where
  | text (t : Text)
  | dict (d : List (Text × Text))
  deriving DecidableEq

/-- `_extract_entries_from_section`, lines 308-326. -/
def extract (body : Text) : Py Sec :=
  let num := body.count '='
  if num = 0 then .ok (.text body)
  else (entries num body.length 0 body []).map .dict

/-- `_process_comment`, lines 327-332. -/
def process (comment : Text) : Py (List (Text × Sec)) := do
  let s ← sections comment
  s.mapM fun e => (extract e.2).map fun v => (e.1, v)

/-! ### Header and data -/

/-- `FileType`, lines 93-97, and the choice of lines 179-186: bytes of a pixel. -/
def pixelBytes (fileType : Int) : Py Nat :=
  if fileType = 0 then .ok 1 else if fileType = 2 then .ok 2 else if fileType = 3 then .ok 4 else .error .runtimeError

/-- The header of a file. -/
structure Header where
  comLen : Int
  width : Int
  height : Int
  offsetX : Int
  offsetY : Int
  fileType : Int
  images : Int
  channels : Int
  channel : Int
  timestamp : Nat
  deriving DecidableEq

/-- An integer of `w` bytes with sign. -/
def signed (f : Bytes) (o w : Nat) : Py Int := (number f o w).map (toSigned w)

/-- `parse_file`, lines 153-191, up to the comment. -/
def header (f : Bytes) : Py Header := do
  let _ ← decode (chunk f 0 2)
  let comLen ← signed f 2 2
  let width ← signed f 4 2
  let height ← signed f 6 2
  let offsetX ← signed f 8 2
  let offsetY ← signed f 10 2
  let fileType ← signed f 12 2
  let images ← signed f 14 4
  let channels ← signed f 18 2
  let channel ← signed f 20 2
  let timestamp ← number f 22 8
  let _ ← decode (chunk f 30 4)
  let _ ← decode (chunk f 34 30)
  .ok ⟨comLen, width, height, offsetX, offsetY, fileType, images, channels, channel, timestamp⟩

/-- `parse_file`, lines 153-191: header, comment and pixels. `read` of a negative number of bytes raises. -/
def parseFile (f : Bytes) : Py (Header × Text × List Nat) := do
  let h ← header f
  if h.comLen < 0 then .error .valueError
  else
    let comment ← decode (chunk f 64 h.comLen.toNat)
    let w ← pixelBytes h.fileType
    if h.width < 0 ∨ h.height < 0 then .error .valueError
    else .ok (h, comment, numbers f (64 + h.comLen.toNat) w (h.width.toNat * h.height.toNat))

/-! ### Axes -/

/-- The calibration of an axis. -/
inductive Cal where
  | points (l : List Rat)
  | uniform (offset scale : Rat) (size : Nat)
  deriving DecidableEq

/-- An axis. -/
structure Axis where
  name : Text
  units : Option Text
  cal : Cal
  deriving DecidableEq

def Axis.size (a : Axis) : Nat := match a.cal with
  | .points l => l.length
  | .uniform _ _ n => n

/-- `_get_scaling_entry`, lines 193-199. -/
def scalingEntry (d : List (Text × Text)) (name : String) : Option Text × Option Text :=
  (getKw ("ScalingX" ++ name).toList d,
    match getKw ("ScalingY" ++ name).toList d with
    | some y => some (if y = "us".toList then "µs".toList else y)
    | none => none)

/-- `_extract_calibration_data`, lines 201-209: the values, and whether a single number was asked for (which gives no array). -/
def calData (f : Bytes) (cal : Option Text) : Py (List Rat × Bool) := match cal with
  | none => .error .typeError
  | some [] => .error .indexError
  | some (c :: r) =>
    if c ≠ '#' then .error .runtimeError
    else match splitChar ',' r with
      | [a, b] => do
        let pos ← intLit a
        let size ← intLit b
        if pos < 0 then .error .ioError
        else
          let n := if size < 0 then f.length else size.toNat
          let d := numbers f pos.toNat 4 n
          if size = 1 ∧ d = [] then .error .indexError else .ok (d.map f32Dec, decide (size = 1))
      | _ => .error .valueError

/-- `_set_axis`, lines 211-254: the axis and whether the signal is reversed (for `Wavelength` only). -/
def setAxis (f : Bytes) (wave uniform : Bool) (width height : Nat) (type : Int) (unit cal : Option Text) : Py (Axis × Bool) :=
  if type = 1 then
    .ok (if wave then ⟨"Uncalibrated X axis".toList, some "px".toList, .uniform 0 1 width⟩
      else ⟨"Vertical CCD Position".toList, some "px".toList, .uniform 0 1 height⟩, false)
  else if type = 2 then do
    let (data, single) ← calData f cal
    let name := (if wave then "Wavelength" else "Time").toList
    let fit (data : List Rat) : Py Cal :=
      if uniform then
        if single ∨ data = [] then .error .typeError
        else if data.length = 1 then .error .valueError
        else .ok (.uniform (fitAxis data).1 (fitAxis data).2 data.length)
      else .ok (.points data)
    if wave then
      if single then .error .indexError
      else match data with
        | a :: b :: _ =>
          let reversed : Bool := a > b
          (fit (if reversed then data.reverse else data)).map fun c => (⟨name, unit, c⟩, reversed)
        | _ => .error .indexError
    else (fit data).map fun c => (⟨name, unit, c⟩, false)
  else .error .valueError

/-- `int(value)`: the value may be missing. -/
def intOf : Option Text → Py Int
  | none => .error .typeError
  | some t => intLit t

/-- `.get("Comment", {}).get(name, {})`: a section without entries is a text, which has no `get`. -/
def sectionOf (md : List (Text × Sec)) (name : String) : Py (List (Text × Text)) := match getKw name.toList md with
  | none => .ok []
  | some (.dict d) => .ok d
  | some (.text _) => .error .attributeError

/-- `_get_axes`, lines 256-268: the axes y and x, and whether the signal is reversed. -/
def getAxes (f : Bytes) (md : List (Text × Sec)) (uniform : Bool) (width height : Nat) : Py (Axis × Axis × Bool) := do
  let s ← sectionOf md "Scaling"
  let cal := scalingEntry s "ScalingFile"
  let unit := scalingEntry s "Unit"
  let type := scalingEntry s "Type"
  let xt ← intOf type.1
  let yt ← intOf type.2
  let (x, rev) ← setAxis f true uniform width height xt unit.1 cal.1
  let (y, _) ← setAxis f false uniform width height yt unit.2 cal.2
  .ok (y, x, rev)

/-- `_reshape_data`, lines 270-280: rows of the image. -/
def reshape (data : List Nat) (ny nx : Nat) (reversed : Bool) : Py (List (List Nat)) :=
  if data.length ≠ ny * nx then .error .valueError
  else .ok ((List.range ny).map fun i =>
    let row := (data.drop (i * nx)).take nx
    if reversed then row.reverse else row)

/-- The result of the reader: the axes y and x, the image and the comment. -/
structure Image where
  y : Axis
  x : Axis
  data : List (List Nat)
  comment : List (Text × Sec)

/-- `IMGReader.__init__`, lines 113-130, without `map_metadata`. -/
def readImg (f : Bytes) (uniform : Bool) : Py Image := do
  let (h, c, data) ← parseFile f
  let md ← process c
  let (y, x, rev) ← getAxes f md uniform h.width.toNat h.height.toNat
  let d ← reshape data y.size x.size rev
  .ok ⟨y, x, d, md⟩

/-! ### Metadata -/

/-- Values of metadata. -/
inductive M where
  | none
  | text (t : Text)
  | int (i : Int)
  | num (r : Rat)
  | bool (b : Bool)
  | pair (l : List Int)
  | dict (d : List (Text × M))

mutual
/-- `_remove_none_from_dict`, lines 55-61. -/
def clean : List (Text × M) → List (Text × M)
  | [] => []
  | (k, v) :: d => cleanItem k v ++ clean d
/-- One entry. -/
def cleanItem (k : Text) : M → List (Text × M)
  | .none => []
  | .dict d => [(k, .dict (clean d))]
  | v => [(k, v)]
end

/-- `"d/m/y"` as `"y-m-d"`, lines 343-354. -/
def isoDate (date : Text) : Text := match splitChar '/' date with
  | [d, m, y] => y ++ '-' :: m ++ '-' :: d
  | _ => match splitChar '.' date with
    | [d, m, y] => y ++ '-' :: m ++ '-' :: d
    | _ => date

/-- `s.split(c)[0]`. -/
def firstPart (c : Char) (s : Text) : Text := (splitChar c s).headD []

/-- `_map_general_md`, lines 334-356. -/
def general (filename : Text) (md : List (Text × Sec)) : Py (List (Text × M)) :=
  let base := [("title".toList, M.text (firstPart '.' filename)), ("original_filename".toList, .text filename)]
  match getKw "Application".toList md with
  | none => .ok base
  | some (.text _) => .error .typeError
  | some (.dict a) => match getKw "Date".toList a, getKw "Time".toList a with
    | some d, some t => .ok (base ++ [("date".toList, .text (isoDate d)), ("time".toList, .text (firstPart '.' t))])
    | _, _ => .ok base

/-- `_map_signal_md`, lines 358-381, without the type of the signal (which depends on an installed package). -/
def signal (md : List (Text × Sec)) : Py (List (Text × M)) := match getKw "Acquisition".toList md with
  | none => .ok []
  | some (.text _) => .error .typeError
  | some (.dict a) => match getKw "ZAxisLabel".toList a, getKw "ZAxisUnit".toList a with
    | some q, some u => .ok [("quantity".toList, .text (q ++ ' ' :: '(' :: (if u = "Count".toList then "Counts".toList else u) ++ [')']))]
    | _, _ => .ok []

/-- `_str2numeric(…, "int")`, lines 33-43. -/
def strInt : Option Text → Option Int
  | some t => match intLit t with
    | .ok i => some i
    | .error _ => none
  | none => none

/-- `_str2numeric(…, "float")`. -/
def strFloat (float : Text → Option Rat) (t : Option Text) : Option Rat := t.bind float

/-- `_str2bool`, lines 46-52. -/
def strBool (t : Option Text) : M :=
  if t = some "-1".toList then .bool true else if t = some "0".toList then .bool false else .none

def mInt : Option Int → M
  | some i => .int i
  | none => .none
def mNum : Option Rat → M
  | some i => .num i
  | none => .none
def mText : Option Text → M
  | some i => .text i
  | none => .none

/-- The exposure time and the number of exposures, lines 388-408: the integration time, or no entry. `None` cannot be divided or multiplied. -/
def integration (float : Text → Option Rat) (exposure : Text) (frames : Option Int) : Py (Option Rat) := match splitChar ' ' exposure with
  | [t, unit] => match float t, frames with
    | some x, some n => .ok (some ((if unit = "ms".toList then x / 1000 else x) * n))
    | _, _ => .error .typeError
  | _ => .ok none

/-- `AcqMode`, lines 100-104. -/
def acqMode (i : Int) : Text :=
  (if i = 1 then "live" else if i = 2 then "acquire" else if i = 3 then "photon_counting" else if i = 4 then "analog_integration" else "Unknown").toList

/-- The integration time, lines 388-408. -/
def exposure (float : Text → Option Rat) (acq : List (Text × Text)) : Py (Option Rat) := match getKw "ExposureTime".toList acq with
  | none => .ok none
  | some e => integration float e (strInt (getKw "NrExposure".toList acq))

/-- The binning, lines 410-416. -/
def binning (acq : List (Text × Text)) : Py (Option (List Int)) := match getKw "pntBinning".toList acq with
  | none => .ok none
  | some b => match splitChar ',' b with
    | [x, y] => do
      let i ← intLit x
      let j ← intLit y
      .ok (some [i, j])
    | _ => .ok none

/-- `_map_detector_md`, lines 383-446. -/
def detector (float : Text → Option Rat) (md : List (Text × Sec)) : Py (List (Text × M)) := do
  let acq ← sectionOf md "Acquisition"
  let streak ← sectionOf md "Streak camera"
  let time ← exposure float acq
  let bins ← binning acq
  let mode ← intOf (getKw "AcqMode".toList acq)
  .ok ([("frames".toList, mInt (strInt (getKw "NrExposure".toList acq)))] ++
    (match time with | some t => [("integration_time".toList, M.num t)] | none => []) ++
    (match bins with | some b => [("binning".toList, M.pair b)] | none => []) ++
    [("processing".toList, .dict [("shading_correction".toList, strBool (getKw "ShadingCorr".toList acq)),
      ("background_correction".toList, strBool (getKw "BacksubCorr".toList acq)), ("curvature_correction".toList, strBool (getKw "CurveCorr".toList acq)),
      ("defect_correction".toList, strBool (getKw "DefectCorrection".toList acq))]),
     ("detector_type".toList, .text "StreakCamera".toList), ("model".toList, mText (getKw "DeviceName".toList streak)),
     ("mcp_gain".toList, mNum (strFloat float (getKw "MCP Gain".toList streak)))] ++
    (match getKw "Time Range".toList streak with
      | none => []
      | some r => match splitChar ' ' r with
        | [t, u] => [("time_range".toList, mNum (float t)), ("time_range_units".toList, M.text (if u = "us".toList then "µs".toList else u))]
        | _ => [("time_range".toList, mNum (float r))]) ++
    [("acquisition_mode".toList, .text (acqMode mode))])

/-- `_map_spectrometer_md`, lines 448-481. `Blaze` is compared with a number, and never equal to it. -/
def spectrometer (float : Text → Option Rat) (md : List (Text × Sec)) : Py (List (Text × M)) := do
  let s ← sectionOf md "Spectrograph"
  let groove : Option Rat := match getKw "Grating".toList s with
    | none => none
    | some g => match splitChar ' ' g with
      | [a, _] => (strInt (some a)).map fun (i : Int) => (i : Rat)
      | _ => float g
  .ok ((if getKw "Ruling".toList s ≠ some "0".toList then
      [("Grating".toList, M.dict [("blazing_wavelength".toList, mNum (strFloat float (getKw "Blaze".toList s))), ("groove_density".toList, mNum groove)])]
    else []) ++
    [("model".toList, mText (getKw "DeviceName".toList s)),
     ("entrance_slit_width".toList, mNum (strFloat float (getKw "Side Ent. Slitw.".toList s))),
     ("central_wavelength".toList, mNum (strFloat float (getKw "Wavelength".toList s)))])

/-- `map_metadata`, lines 483-501. -/
def mapMetadata (float : Text → Option Rat) (filename : Text) (md : List (Text × Sec)) : Py (List (Text × M)) := do
  let g ← general filename md
  let q ← signal md
  let d ← detector float md
  let s ← spectrometer float md
  .ok (clean [("Acquisition_instrument".toList, .dict [("Detector".toList, .dict d), ("Spectrometer".toList, .dict s)]), ("General".toList, .dict g),
    ("Signal".toList, .dict q)])

end Verif.Hamamatsu
