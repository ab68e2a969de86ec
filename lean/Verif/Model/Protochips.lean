import Verif.Model.Genfromtxt
import Verif.Py.Assoc
/-!
Model of `rsciio/protochips/_api.py` (log files of Protochips holders).

Simplifications: cells are texts, and only those of the time column are converted (`num`, `none` if the text is no number); the date of the experiment (`strptime` and `np.datetime_as_string`) is the
parameter `dateOf`; notes are the cells of the column (without the conversion of an empty column); letters are ASCII for `lower`; the mapping and the file name in the metadata are left out.
-/
namespace Verif.Protochips
open Verif.Genfromtxt

/-- `s.replace(", ", ",")`. -/
def commaSpace : Text → Text
  | [] => []
  | [c] => [c]
  | c :: d :: t => if c = ',' ∧ d = ' ' then ',' :: commaSpace t else c :: commaSpace (d :: t)

/-- `_parse_metadata_header`, lines 259-260, as a pair. -/
def parseLine (line : Text) : Py (Text × Text) := match splitChar ',' (commaSpace line) with
  | _ :: cell :: _ => match splitSub " = ".toList cell with
    | [param, value] => .ok (param, value)
    | _ => .error .valueError
  | _ => .error .indexError

/-- `str.lower`, and spaces replaced. -/
def lower (t : Text) : Text := t.map Char.toLower
def attrName (param : Text) : Text := lower (param.map fun c => if c = ' ' then '_' else c)

/-- What the lines of the header say. -/
structure Header where
  calibration : Option Text
  date : Option Text
  time : Option Text
  attrs : List (Text × Text)
  /-- `self.user`: not set, `None`, or a name. -/
  user : Option (Option Text)
  last : Nat

/-- One line of the header, lines 232-240. -/
def store (h : Header) (param value : Text) : Header :=
  if contains "Calibration file".toList param then { h with calibration := some value }
  else if contains "Date (yyyy.mm.dd)".toList param then { h with date := some value }
  else if contains "Time (hh:mm:ss.ms)".toList param then { h with time := some value }
  else { h with attrs := setKw (attrName param) value h.attrs }

/-- The loop of `_read_all_metadata_header`, lines 229-253. -/
def loop (h : Header) (param value : Text) : List Text → Header
  | [] =>
    -- `readline` returns an empty text, which has no second cell
    if contains "User".toList param then { h with user := some (some value) } else { store h param value with last := h.last + 1 }
  | l :: rest =>
    if contains "User".toList param then { h with user := some (some value) }
    else match parseLine l with
      | .ok (p, v) => loop { store h param value with last := h.last + 1 } p v rest
      | .error .indexError => { store h param value with last := h.last + 1 }
      | .error _ => { store h param value with last := h.last + 1, user := some none }

/-- `_read_all_metadata_header`, lines 228-257; `lines` are those after the first line of the file. -/
def readHeader (dateOf : Text → Option (Text × Text)) (lines : List Text) : Py (Header × Text × Text) := match parseLine (lines.headD []) with
  | .error e => .error e
  | .ok (param, value) =>
    let h := loop ⟨none, none, none, [], none, 2⟩ param value lines.tail
    match h.date, h.time with
    | some d, some t => match dateOf (d ++ t) with
      | some (date, time) => .ok (h, date, time)
      | none => .error .valueError
    | _, _ => .error .nameError

/-- `quantity.split(" ")[-1]`. -/
def lastWord (q : Text) : Text := (splitChar ' ' q).getLastD []

structure Signal where
  title : Text
  quantity : Text
  date : Text
  time : Text
  data : List Text
  size : Nat
  scale : Rat
  offset : Rat
  user : Option Text
  calibration : Option Text
  units : List (Text × Text)
  notes : List (Text × Text)

/-- `_parse_quantity_units`, lines 224-226. -/
def unitsOf (h : Header) (q : Text) : Py Text := match getKw (lower (lastWord q) ++ "_units".toList) h.attrs with
  | some u => .ok u
  | none => .error .keyError

/-- The data dictionary, the times and the notes (`_read_data`, lines 150-168). -/
structure Data where
  dict : List (Text × List Text)
  times : Option (List Text)
  notes : Option (List Text)

def readColumn (t : Table) (d : Data) (name : Text) : Py Data := do
  let col ← column t (name.map fun c => if c = ' ' then '_' else c)
  if name = "Notes".toList then .ok { d with notes := some col }
  else if name = "Time".toList then .ok { d with times := some col }
  else .ok { d with dict := setKw name col d.dict }

def readData (lines : List Text) (skip : Nat) (columns : List Text) : Py Data := do
  let t ← genfromtxt lines skip (columns.map fun n => n.map fun c => if c = ' ' then '_' else c)
  columns.foldlM (readColumn t) ⟨[], none, none⟩

/-- The scale of the axis, lines 189-208. -/
def scaleOf (units : Text) (times : List Rat) : Py Rat := match meanStep times with
  | none => .error .valueError
  | some s => .ok (if units = "Milliseconds".toList then s / 1000 else s)

/-- The times as numbers. -/
def numbers (num : Text → Option Rat) (cells : List Text) : Py (List Rat) := cells.mapM fun c => match num c with
  | some r => .ok r
  | none => .error .typeError

/-- An attribute or a key that must be there. -/
def need {α : Type} (e : PyErr) : Option α → Py α
  | some a => .ok a
  | none => .error e

/-- `get_dictionary`, lines 102-135, and what it calls. -/
def dictionary (num : Text → Option Rat) (columns : List Text) (h : Header) (date time : Text) (d : Data) (q : Text) : Py Signal := do
  let data ← need .keyError (getKw q d.dict)
  let cells ← need .attributeError d.times
  let notes ← need .attributeError d.notes
  let times ← numbers num cells
  let timeUnits ← need .attributeError (getKw "time_units".toList h.attrs)
  let scale ← scaleOf timeUnits times
  let u ← unitsOf h q
  let us ← (columns.drop 2).mapM fun q => (unitsOf h q).map fun u => (q, u)
  let user ← need .attributeError h.user
  .ok ⟨q ++ " (".toList ++ u ++ ")".toList, lastWord q ++ " (".toList ++ u ++ ")".toList, date, time, data, cells.length, scale, 0, user, h.calibration, us, (cells.zip notes).filter fun e => e.2 ≠ []⟩

/-- Any exception of `get_dictionary` becomes an `IOError`, lines 63-70. -/
def orIOError {α : Type} : Py α → Py α
  | .ok a => .ok a
  | .error _ => .error .ioError

/-- The names of the columns, line 85. -/
def columnNames (line : Text) : List Text := splitChar ',' ((commaSpace line).filter (· ≠ '\n'))

/-- `file_reader`, lines 53-57 and 78-100. -/
def read (num : Text → Option Rat) (dateOf : Text → Option (Text × Text)) (file : Text) : Py (List Signal) :=
  let lines := fileLines file
  let columns := columnNames (lines.headD [])
  if "Time".toList ∈ columns ∧ "Notes".toList ∈ columns ∧ 3 ≤ columns.length then do
    let (h, date, time) ← readHeader dateOf lines.tail
    let d ← readData lines h.last columns
    (columns.drop 2).mapM fun q => orIOError (dictionary num columns h date time d q)
  else .error .ioError

end Verif.Protochips
