import Verif.Model.Genfromtxt
import Verif.Py.Assoc
import Verif.Py.IntLit
/-!
Model of `rsciio/impulse/_api.py` (log files of DENSsolutions Impulse).

Simplifications: cells are texts, except for the valve positions, which are numbers (`int32` does not overflow), and the times (`num`); the rows of the metadata file, as `csv.reader` returns them, are an
argument (`none` without a file); the file name in the metadata is left out.
-/
namespace Verif.Impulse
open Verif.Genfromtxt

/-- Lines 105-114: the name of a column for `genfromtxt`. -/
def degree : Text → Text
  | [] => []
  | [c] => [c]
  | c :: d :: t => if c = '°' ∧ d = 'C' then 'C' :: degree t else c :: degree (d :: t)

def special (c : Char) : Text :=
  if c = '#' then "No".toList else if c = '(' then [] else if c = ')' then [] else if c = '/' then ['_'] else if c = '%' then "Perc".toList else [c]

def fieldName (name : Text) : Text := (degree (name.map fun c => if c = ' ' then '_' else c)).flatMap special

/-- A quantity: cells as they are, or the positions of the valve. -/
inductive Values where
  | cells (l : List Text)
  | valve (l : List Int)
  deriving DecidableEq

/-- Lines 130-134: three positions as one number. -/
def valve (item : Text) : Py Int := match splitChar ';' item with
  | a :: b :: c :: _ => do
    let a ← intLit a
    let b ← intLit b
    let c ← intLit c
    .ok ((a + 2) * 100 + (b + 2) * 10 + (c + 2))
  | _ => .error .indexError

structure Data where
  dict : List (Text × Values)
  times : Option (List Text)

/-- One column, lines 124-138. -/
def readColumn (t : Table) (d : Data) (name : Text) : Py Data := do
  let col ← column t (fieldName name)
  if name = "Experiment time".toList then .ok { d with times := some col }
  else if name = "MixValve".toList then do
    let vs ← col.mapM valve
    .ok { d with dict := setKw name (.valve vs) d.dict }
  else .ok { d with dict := setKw name (.cells col) d.dict }

/-- `_read_data`, lines 104-138. -/
def readData (lines : List Text) (columns : List Text) : Py Data := do
  let t ← genfromtxt lines 1 (columns.map fieldName)
  columns.foldlM (readColumn t) ⟨[], none⟩

/-- A row of the metadata file, lines 155-164: the entries, and the notes (`none` before their section). -/
def metaRow (st : List (Text × Text) × Option (List Text)) (row : List Text) : Py (List (Text × Text) × Option (List Text)) := match st.2, row with
  | some notes, n :: _ => .ok (st.1, some (notes ++ [n]))
  | none, k :: v :: _ =>
    if k = "Live notes".toList then .ok (st.1, some [stripBy isSpace v])
    else .ok (setKw (k.map fun c => if c = ' ' then '_' else c) (stripBy isSpace v) st.1, none)
  | _, _ => .error .indexError

structure Meta where
  entries : List (Text × Text)
  notes : List Text

/-- The metadata file, lines 140-170. -/
def readMeta (filename : Text) (rows : Option (List (List Text))) : Py Meta :=
  if contains "_Synchronized data".toList filename || contains "raw".toList filename then
    match rows with
    | none => .ok ⟨[], []⟩
    | some rows => do
      let st ← rows.foldlM metaRow ([], none)
      .ok ⟨st.1, st.2.getD []⟩
  else .error .ioError

/-- The path of the metadata file, lines 149-151. -/
def metaPath (filename : Text) : Text := (joinWith ['_'] (splitChar '_' filename).dropLast ++ "_Metadata.log".toList).map fun c => if c = '\\' then '/' else c

/-- `_parse_quantity_units`, lines 93-102. -/
def unitsOf (q : Text) : Text :=
  let ws := splitChar ' ' (stripBy isSpace q)
  let w := ws.getLastD []
  if 1 < ws.length ∧ w.head? = some '(' ∧ w.getLast? = some ')' then w.filter fun c => c ≠ '(' ∧ c ≠ ')' else []

structure Signal where
  title : Text
  units : Text
  date : Text
  time : Text
  data : Values
  size : Nat
  /-- `none` is `nan`. -/
  scale : Option Rat
  offset : Rat
  header : Meta

def numbers (num : Text → Option Rat) (cells : List Text) : Py (List Rat) := cells.mapM fun c => match num c with
  | some r => .ok r
  | none => .error .typeError

def need {α : Type} (e : PyErr) : Option α → Py α
  | some a => .ok a
  | none => .error e

/-- `get_dictionary`, lines 72-91 and 172-183. With a single row the times are a single number, which has no slices. -/
def dictionary (num : Text → Option Rat) (m : Meta) (d : Data) (q : Text) : Py Signal := do
  let data ← need .keyError (getKw q d.dict)
  let cells ← need .attributeError d.times
  let times ← numbers num cells
  if cells.length < 2 then .error .indexError else do
  let date ← need .keyError (getKw "Experiment_date".toList m.entries)
  let time ← need .keyError (getKw "Experiment_time".toList m.entries)
  .ok ⟨q, unitsOf q, date, time, data, cells.length, meanStep times, 0, m⟩

/-- `file_reader`, lines 25-51 and 60-70. -/
def read (num : Text → Option Rat) (filename file : Text) (rows : Option (List (List Text))) : Py (List Signal) :=
  let lines := fileLines file
  let columns := splitChar ',' (stripBy isSpace (lines.headD []))
  if "TimeStamp".toList ∈ columns ∧ 3 ≤ columns.length then do
    let m ← readMeta filename rows
    let d ← readData lines columns
    (columns.drop 2).mapM (dictionary num m d)
  else .error .ioError

end Verif.Impulse
