import Verif.Model.DigitalsurfComment
import Verif.Py.Dec
import Verif.Py.Lines
/-!
Model of the metadata of `rsciio/digitalsurf/_api.py`: the generic metadata made of a header, the date, the name and the units
that are written, the comments that count as metadata, the choice of what is written as comment, and the metadata of
cathodoluminescence; and of `get_date_time_from_metadata` of `rsciio/utils/_date_time.py`.

External: `dateutil` (`Parser`: the numbers of a date and time in a text, and whether a zone is known) and `datetime.weekday`.
Simplifications: `\d` stands for ASCII digits; keys of the original metadata are texts.
-/
namespace Verif.DigitalsurfMeta
open Verif Verif.DigitalsurfComment

/-! ### Generic metadata -/

/-- The fields of a header that metadata is made of. -/
structure Head where
  seconds : Int
  minutes : Int
  hours : Int
  day : Int
  month : Int
  year : Int
  operator : Text
  zName : Text
  zUnit : Text

/-- `{:02d}`. -/
def two (n : Int) : Text :=
  let d := decChars n.natAbs
  if n < 0 then '-' :: List.replicate (1 - d.length) '0' ++ d else List.replicate (2 - d.length) '0' ++ d

/-- `{:4d}`. -/
def four (n : Int) : Text :=
  let d := if n < 0 then '-' :: decChars n.natAbs else decChars n.natAbs
  List.replicate (4 - d.length) ' ' ++ d

/-- Date, lines 1655-1663. -/
def dateText (h : Head) : Text :=
  if h.year = 0 ∧ h.month = 0 ∧ h.day = 0 then [] else four h.year ++ '-' :: two h.month ++ '-' :: two h.day

/-- Time, lines 1665-1674. -/
def timeText (h : Head) : Text :=
  if h.hours = 0 ∧ h.minutes = 0 ∧ h.seconds = 0 then [] else two h.hours ++ ':' :: two h.minutes ++ ':' :: two h.seconds

/-- Units in parentheses, lines 1644-1649. -/
def unitText (u : Text) : Text :=
  let u := stripBy (fun c => decide (c ∈ [' ', '\t', '\n', '(', ')', '[', ']'])) u
  if u = [] then [] else '(' :: u ++ [')']

/-- The quantity, line 1651. -/
def quantityText (h : Head) : Text := stripBy isSpace (h.zName ++ ' ' :: unitText h.zUnit)

/-- `_choose_signal_type`, lines 1620-1626. -/
def signalType (h : Head) : Text := if h.zName = "CL Intensity".toList then "CL".toList else []

/-- Generic metadata. -/
structure Meta where
  authors : Text
  date : Text
  filename : Text
  time : Text
  quantity : Text
  signalType : Text

/-- `_build_generic_metadata`, lines 1628-1692. -/
def generic (filename : Text) (h : Head) : Meta :=
  ⟨h.operator, dateText h, (splitChar '/' filename).getLastD [], timeText h, quantityText h, signalType h⟩

/-! ### Writing -/

/-- `_get_Zname_Zunit`, lines 1013-1031. -/
def zNameUnit (quantity : Option Text) : Text × Text :=
  let q := splitChar ' ' (stripBy isSpace (quantity.getD []))
  if 1 < q.length then (joinWith [' '] q.dropLast, stripBy (fun c => decide (c ∈ ['(', ')'])) (q.getLastD []))
  else (q.getLastD [], [])

/-- Date and time of `datetime`. -/
structure DateTime where
  year : Int
  month : Int
  day : Int
  hour : Int
  minute : Int
  second : Int

/-- `dateutil`. -/
structure Parser where
  parse : Text → Py DateTime
  zone : Text → Bool
  weekday : Int → Int → Int → Int

/-- `datetime`, `date` or `time`. -/
inductive Stamp | full (t : DateTime) | date (t : DateTime) | time (t : DateTime)

/-- The value of an entry that is there and not empty. -/
def given (t : Option Text) : Option Text := match t with | some [] => none | t => t

/-- Date and time together, `utils/_date_time.py` lines 92-99. -/
def together (P : Parser) (date time : Text) (zone : Option Text) : Py DateTime := do
  let t ← P.parse (date ++ 'T' :: time)
  match given zone with
  | none => return t
  | some z => if P.zone z then return t else P.parse (date ++ 'T' :: time ++ z)

/-- `get_date_time_from_metadata` with the formatting `datetime`, `utils/_date_time.py` lines 71-115. -/
def stampOf (P : Parser) (date time zone : Option Text) : Py (Option Stamp) :=
  match given date, given time with
  | some d, some t => do return some (.full (← together P d t zone))
  | none, some t => do return some (.time (← P.parse t))
  | some d, none => do return some (.date (← P.parse d))
  | none, none => .ok none

/-- The fields 40 to 46, lines 1116-1126. -/
def dateFields (P : Parser) (date time zone : Option Text) : Py (List Int) := do
  match ← stampOf P date time zone with
  | none => return [0, 0, 0, 0, 0, 0, 0]
  | some (.full t) => return [t.second, t.minute, t.hour, t.day, t.month, t.year, P.weekday t.year t.month t.day]
  | some _ => .error .attributeError

/-! ### Comments -/

section
variable {V : Type}

/-- `_check_comments`, lines 1888-1908, for one line: whether all is valid so far and the number of valid lines. -/
def checkLine (pre : Text) (delim : Char) (s : Bool × Nat) (line : Text) : Bool × Nat :=
  if stripBy isSpace line = [] ∨ ['@', '@'] <+: line then s
  else if pre ++ ['_'] <+: line then (s.1, s.2 + 1)
  else if delim ∈ line ∧ pre <+: line then (s.1, s.2 + 1)
  else (false, s.2)

/-- `_check_comments`, lines 1861-1916. -/
def checkComments (pre : Text) (delim : Char) (cmt : Text) : Bool :=
  let s := (pyLines cmt).foldl (checkLine pre delim) (true, 0)
  s.1 && decide (s.2 ≠ 0)

/-- The entry `Parsed` of the original metadata, lines 1720-1726. -/
def parsedOf (lit : Text → Option V) (ofText : Text → V) (cmt : Text) : Option (List (Text × List (Text × V))) :=
  if checkComments ['$'] '=' cmt then
    some ((parse lit ofText ['$'] '=' cmt).foldl (fun d e => setKw (lstripBy (· = '_') e.1) e.2 d) [])
  else none

/-- `re.match(r"Object_\d*_Channel_\d*", key)`, line 1954. -/
def isObject (key : Text) : Bool :=
  "Object_".toList.isPrefixOf key && "_Channel_".toList.isPrefixOf ((key.drop 7).dropWhile isDigit)

/-- The dictionaries of objects, lines 1957-1961. -/
def fields (omd : List (Text × Node V)) : List (List (Text × Node V)) :=
  omd.filterMap fun e => match e.2 with | .dict l => if isObject e.1 then some l else none | .leaf _ => none

/-- The first entry `Parsed`, lines 1966-1978. -/
def firstParsed (isNone : V → Bool) : List (List (Text × Node V)) → List (Text × Node V)
  | [] => []
  | l :: r => match getKw "Parsed".toList l with
    | none => firstParsed isNone r
    | some (.dict []) => [("Parsed".toList, .dict [])]
    | some (.dict c) => c
    | some (.leaf v) => if isNone v then firstParsed isNone r else [("Parsed".toList, .leaf v)]

inductive Method | raw | custom | off | auto | other
  deriving DecidableEq

/-- `_get_comment_dict`, lines 1918-1982. -/
def commentDict (isNone : V → Bool) (method : Method) (custom omd : List (Text × Node V)) : Py (List (Text × Node V)) :=
  match method with
  | .raw => .ok omd
  | .custom => .ok custom
  | .off => .ok []
  | .auto => if fields omd = [] then .ok omd else .ok (firstParsed isNone (fields omd))
  | .other => .error .valueError

/-! ### Cathodoluminescence -/

/-- Values of metadata: entries of the comment (or `None`), texts, pairs and dictionaries. -/
inductive Item (V : Type)
  | entry (v : Option V)
  | text (t : Text)
  | pair (a b : Option V)
  | dict (l : List (Text × Item V))

/-- `parsed.get(section, {}).get(key)`. -/
def lookup (parsed : List (Text × List (Text × V))) (sec key : String) : Option V :=
  getKw key.toList ((getKw sec.toList parsed).getD [])

/-- `_map_SEM_metadata`, lines 1741-1777. -/
def sem (parsed : List (Text × List (Text × V))) : List (Text × Item V) :=
  let get := fun s k => Item.entry (lookup parsed s k)
  if parsed.isEmpty then [] else
  [("beam_energy".toList, get "SEM" "Beam Energy"),
   ("beam_energy_units".toList, get "SEM" "Beam Energy_units"),
   ("magnification".toList, get "SEM" "Real Magnification"),
   ("microscope".toList, .text "Attolight Allalin".toList),
   ("Stage".toList, .dict
     [("rotation".toList, get "SITE IMAGE" "stage_rotation_z"), ("rotation_units".toList, .text "deg".toList),
      ("tilt_alpha".toList, get "SITE IMAGE" "stage_rotation_x"), ("tilt_alpha_units".toList, .text "deg".toList),
      ("tilt_beta".toList, get "SITE IMAGE" "stage_rotation_y"), ("tilt_beta_units".toList, .text "deg".toList),
      ("x".toList, get "SITE IMAGE" "stage_position_x"), ("x_units".toList, .text "mm".toList),
      ("y".toList, get "SITE IMAGE" "stage_position_y"), ("y_units".toList, .text "mm".toList),
      ("z".toList, get "SITE IMAGE" "stage_position_z"), ("z_units".toList, .text "mm".toList)])]

/-- `_map_Spectrometer_metadata`, lines 1779-1809. -/
def spectrometer (parsed : List (Text × List (Text × V))) : List (Text × Item V) :=
  let get := fun k => Item.entry (lookup parsed "SPECTROMETER" k)
  if parsed.isEmpty then [] else
  [("entrance_slit_width".toList, get "Entrance slit width"),
   ("entrance_slit_width_units".toList, get "Entrance slit width_units"),
   ("exit_slit_width".toList, get "Exit slit width"),
   ("exit_slit_width_units".toList, get "Exit slit width_units"),
   ("central_wavelength".toList, get "Central wavelength"),
   ("central_wavelength_units".toList, get "Central wavelength_units"),
   ("Grating".toList, get "Grating"),
   ("groove_density".toList, get "Grating - Groove Density"),
   ("groove_density_units".toList, get "Grating - Groove Density_units"),
   ("blazing_wavelength".toList, get "Grating - Blaze Angle"),
   ("blazing_wavelength_units".toList, get "Central wavelength_units"),
   ("Filter".toList, .dict [("filter_type".toList, get "Filter")])]

/-- `_map_spectral_detector_metadata`, lines 1811-1837. -/
def detector (parsed : List (Text × List (Text × V))) : List (Text × Item V) :=
  let get := fun k => Item.entry (lookup parsed "CCD" k)
  if parsed.isEmpty then [] else
  [("detector_type".toList, .text "CCD".toList),
   ("model".toList, get "Camera Model"),
   ("integration_time".toList, get "Exposure Time"),
   ("integration_time_units".toList, get "Exposure Time"),
   ("binning".toList, .pair (lookup parsed "CCD" "ReadMode") (lookup parsed "CCD" "Horizontal Binning")),
   ("pixel_size".toList, get "Pixel Width"),
   ("pixel_size_units".toList, get "Pixel Width_units")]

/-- `_build_signal_specific_metadata` and `_map_CL_metadata`, lines 1731-1739 and 1839-1850; `parsed` of the first object,
empty without it. -/
def specific (h : Head) (parsed : List (Text × List (Text × V))) : List (Text × Item V) :=
  if signalType h = "CL".toList then
    [("Acquisition_instrument".toList, .dict
      [("SEM".toList, .dict (sem parsed)), ("Spectrometer".toList, .dict (spectrometer parsed)), ("Detector".toList, .dict (detector parsed))])]
  else []

end

end Verif.DigitalsurfMeta
