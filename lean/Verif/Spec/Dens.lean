import Verif.Py.Lines
import Verif.Py.Dec
import Verif.Spec.Hamamatsu
/-! Specification of C92: log files of the DigiHeater. -/
namespace Verif.Spec.Dens

/-- Two digits. -/
def two (n : Nat) : Text := [digitChar (n / 10), digitChar (n % 10)]

/-- A line of the table: the clock (hours, minutes, seconds, digits of the fraction), the measured temperature, and the other columns. -/
structure Entry where
  h : Nat
  m : Nat
  s : Nat
  frac : Text
  temp : Text
  sample : Text
  tset : Text
  others : List Text

/-- The clock as written. -/
def clockText (e : Entry) : Text := two e.h ++ ':' :: two e.m ++ ':' :: two e.s ++ '.' :: e.frac

/-- Seconds since midnight. -/
def clockValue (e : Entry) : Rat := 3600 * e.h + 60 * e.m + e.s + (decVal e.frac : Rat) / 10 ^ e.frac.length

def cells (e : Entry) : List Text := e.sample :: clockText e :: e.tset :: e.temp :: e.others

/-- Text of a cell: not empty, without spaces and `#`. -/
def Cell (t : Text) : Prop := t ≠ [] ∧ ∀ c ∈ t, isSpace c = false ∧ c ≠ '#'

structure EntryOk (num : Text → Option Rat) (e : Entry) (v : Rat) : Prop where
  h : e.h < 24
  m : e.m < 60
  s : e.s < 60
  frac : 1 ≤ e.frac.length ∧ e.frac.length ≤ 6 ∧ ∀ c ∈ e.frac, isDigit c = true
  cell : ∀ t ∈ e.sample :: e.tset :: e.temp :: e.others, Cell t
  value : num e.temp = some v

/-- Text of one line. -/
def Line (t : Text) : Prop := '\n' ∉ t ∧ '\r' ∉ t

/-- The lines of a log. -/
def logLines (blanks : List Text) (date : Text) (consts : List (Text × Text)) (delta : Text) (entries : List Entry) : List Text :=
  blanks ++ (date ++ "\tDigiheater 3.1".toList) :: joinWith ['\t'] (consts.map fun c => c.1 ++ '=' :: c.2) :: delta ::
    "sample\ttime\tTset[C]\tTmeas[C]\tRheat[ohm]\tVheat[V]\tIheat[mA]\tPheat [mW]\tc".toList :: entries.map fun e => joinWith ['\t'] (cells e)

structure HeadOk (num : Text → Option Rat) (dateOf : Text → Option (Text × Text)) (blanks : List Text) (date : Text) (consts : List (Text × Text)) (delta : Text) (d t : Text) (vs : List Rat) : Prop where
  blank : ∀ b ∈ blanks, Line b ∧ ∀ c ∈ b, isSpace c = true
  first : Line date ∧ '\t' ∉ date
  parsed : dateOf date = some (d, t)
  four : consts.length = 4
  name : ∀ c ∈ consts, Line c.1 ∧ '\t' ∉ c.1 ∧ '=' ∉ c.1 ∧ Line c.2 ∧ '\t' ∉ c.2 ∧ '=' ∉ c.2
  values : consts.map (fun c => num c.2) = vs.map some
  space : ∀ x : Text, num (x ++ ['\n']) = num x
  third : Line delta

/-- What really happened: the times of the measurements (in seconds) never go back, and follow each other within a day; the log holds the clock only. -/
structure Happened (T : List Rat) (day : List Nat) (clocks : List Rat) : Prop where
  length : T.length = clocks.length ∧ day.length = clocks.length
  clock : ∀ i, i < clocks.length → T.getD i 0 = 86400 * (day.getD i 0 : Rat) + clocks.getD i 0
  range : ∀ i, i < clocks.length → 0 ≤ clocks.getD i 0 ∧ clocks.getD i 0 < 86400
  forward : ∀ i, i + 1 < clocks.length → T.getD i 0 ≤ T.getD (i + 1) 0
  within : ∀ i, i + 1 < clocks.length → T.getD (i + 1) 0 < T.getD i 0 + 86400

end Verif.Spec.Dens
