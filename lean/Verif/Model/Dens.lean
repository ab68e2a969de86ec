import Verif.Py.Lines
import Verif.Py.Dec
import Verif.Model.RenishawData
/-!
Model of `rsciio/dens/_api.py` (log files of the DENSsolutions DigiHeater).

Simplifications: numbers are exact (`float(text)` is the parameter `num`, `none` for a `ValueError`); reading the date of the first line (`strptime` with `"%d/%m/'%y %H:%M"`) is the parameter `dateOf`;
digits are ASCII; `fitAxis` (`polyfit` of degree 1) is that of `Model/RenishawData`; the file name in the metadata is left out. The result is `none` when the code does not end.
-/
namespace Verif.Dens
open Verif.Renishaw (fitAxis)

/-- A number of one or two digits. -/
def field (s : Text) (limit : Nat) : Option Nat := if (s.length = 1 ∨ s.length = 2) ∧ s.all isDigit ∧ decVal s < limit then some (decVal s) else none

/-- The fraction of seconds (`%f`): one to six digits. -/
def fraction (s : Text) : Option Rat := if 1 ≤ s.length ∧ s.length ≤ 6 ∧ s.all isDigit then some ((decVal s : Rat) / 10 ^ s.length) else none

/-- Seconds with a fraction. -/
def seconds (r : Text) : Option Rat := match splitChar '.' r with
  | [s, f] => match field s 60, fraction f with
    | some s, some f => some (s + f)
    | _, _ => none
  | _ => none

/-- `datetime.strptime(timestr, "%H:%M:%S.%f")`, as seconds since midnight (lines 33-35). -/
def clock (t : Text) : Option Rat := match splitChar ':' t with
  | [h, m, r] => match field h 24, field m 60, seconds r with
    | some h, some m, some s => some (3600 * h + 60 * m + s)
    | _, _, _ => none
  | _ => none

/-- `_cnv_time`, lines 28-38. -/
def cnvTime (num : Text → Option Rat) (t : Text) : Option Rat := match clock t with
  | some r => some r
  | none => num t

/-- Lines 61-63: leading, empty lines; `none` if there is no other line, because at the end of the file `readline` returns empty texts again and again. -/
def skipBlank : List Text → Option (Text × List Text)
  | [] => none
  | l :: ls => if stripBy isSpace l = [] then skipBlank ls else some (l, ls)

/-- `f.readline()`. -/
def readline : List Text → Text × List Text
  | [] => ([], [])
  | l :: ls => (l, ls)

/-- Line 74: `float(v.split("=")[1])`. -/
def calibValue (num : Text → Option Rat) (v : Text) : Py Rat := match splitChar '=' v with
  | _ :: x :: _ => match num x with
    | some r => .ok r
    | none => .error .valueError
  | _ => .error .indexError

/-- `raise AssertionError` instead of a `ValueError` (`_bad_file`, lines 41-42). -/
def bad {α : Type} : Py α → Py α
  | .error .valueError => .error .assertion
  | r => r

/-- Line 74: the four constants. -/
def calibration (num : Text → Option Rat) (line : Text) : Py (List Rat) := do
  let vs ← (splitChar '\t' line).mapM (calibValue num)
  if vs.length = 4 then .ok vs else .error .valueError

/-- Lines 82-85. -/
def header : Text := "sample\ttime\tTset[C]\tTmeas[C]\tRheat[ohm]\tVheat[V]\tIheat[mA]\tPheat [mW]\tc".toList

/-- One line of `np.loadtxt` with `usecols=(1, 3)`. -/
def row (num : Text → Option Rat) (cells : List Text) : Py (Rat × Rat) := match cells with
  | _ :: t :: _ :: v :: _ => match cnvTime num t, num v with
    | some t, some v => .ok (t, v)
    | _, _ => .error .valueError
  | _ => .error .valueError

/-- `np.loadtxt`, lines 87-92: comments and empty lines are skipped. -/
def table (num : Text → Option Rat) (lines : List Text) : Py (List (Rat × Rat)) :=
  ((lines.map fun l => words (l.takeWhile (· ≠ '#'))).filter (· ≠ [])).mapM (row num)

/-- `1 + np.where(np.diff(times) < 0)[0]`, line 97. -/
def rollovers (times : List Rat) : List Nat := ((List.range (times.length - 1)).filter fun i => times.getD (i + 1) 0 - times.getD i 0 < 0).map (1 + ·)

/-- `times[rollover:] += 60 * 60 * 24`, line 98. -/
def addDay (times : List Rat) (r : Nat) : List Rat := times.take r ++ (times.drop r).map (· + 60 * 60 * 24)

/-- Lines 94-98. -/
def unroll (times : List Rat) : List Rat := (rollovers times).foldl addDay times

structure Log where
  data : List Rat
  size : Nat
  offset : Rat
  scale : Rat
  date : Text
  time : Text
  constants : List Rat
  version : Text

/-- The times, and the axis (lines 94-121). A single row is squeezed to two numbers, whose differences do not exist. -/
def logOf (rows : List (Rat × Rat)) (date time : Text) (constants : List Rat) (version : Text) : Py Log := match rows with
  | [] => .error .typeError
  | [_] => .error .valueError
  | rows =>
    let times := unroll (rows.map Prod.fst)
    .ok ⟨rows.map Prod.snd, times.length, (fitAxis times).1, (fitAxis times).2, date, time, constants, version⟩

/-- Lines 64-92, after the first line. -/
def parse (num : Text → Option Rat) (dateOf : Text → Option (Text × Text)) (first : Text) (rest : List Text) : Py Log := match splitChar '\t' first with
  | [date, version] =>
    if stripBy isSpace version ≠ "Digiheater 3.1".toList then .error .assertion
    else
      let (c, rest) := readline rest
      let (_, rest) := readline rest
      let (h, rest) := readline rest
      match bad (calibration num c) with
      | .error e => .error e
      | .ok cs => match dateOf date with
        | none => .error .assertion
        | some (date, time) =>
          if stripBy isSpace h ≠ header then .error .assertion
          else match bad (table num rest) with
            | .error e => .error e
            | .ok rows => logOf rows date time cs version
  | _ => .error .assertion

/-- `file_reader`, lines 45-134. -/
def read (num : Text → Option Rat) (dateOf : Text → Option (Text × Text)) (file : Text) : Option (Py Log) := match skipBlank (fileLines file) with
  | none => none
  | some (first, rest) => some (parse num dateOf first rest)

end Verif.Dens
