import Verif.Spec.Tables
/-! Specification of C93: log files of Protochips holders. -/
namespace Verif.Spec.Protochips
open Verif.Spec.Tables

/-- The name of a column: letters, digits and spaces. -/
structure Name (n : Text) : Prop where
  ne : n ≠ []
  char : ∀ c ∈ n, c.isAlphanum = true ∨ c = ' '
  head : n.head? ≠ some ' '
  word : n ∉ ["return".toList, "file".toList, "print".toList]

/-- Cells after the first one, each with or without a space after the comma. -/
def spaced (l : List (Bool × Text)) : Text := l.flatMap fun e => ',' :: ((if e.1 then [' '] else []) ++ e.2)

/-- A line of the header: the first cell, the name and the value in the second cell, and the other cells. -/
structure Param where
  first : Text
  space : Bool
  name : Text
  value : Text
  rest : Text

def paramLine (p : Param) : Text := p.first ++ ',' :: ((if p.space then [' '] else []) ++ (p.name ++ " = ".toList ++ p.value) ++ ',' :: p.rest)

structure ParamOk (p : Param) : Prop where
  line : Line (paramLine p)
  first : ',' ∉ p.first
  name : ',' ∉ p.name ∧ '=' ∉ p.name ∧ p.name ≠ [] ∧ p.name.head? ≠ some ' '
  value : ',' ∉ p.value ∧ ¬ " = ".toList <:+: p.value

def IsUser (n : Text) : Prop := "User".toList <:+: n
def IsCalibration (n : Text) : Prop := "Calibration file".toList <:+: n
def IsDate (n : Text) : Prop := ¬ IsCalibration n ∧ "Date (yyyy.mm.dd)".toList <:+: n
def IsTime (n : Text) : Prop := ¬ IsCalibration n ∧ ¬ "Date (yyyy.mm.dd)".toList <:+: n ∧ "Time (hh:mm:ss.ms)".toList <:+: n
def IsOther (n : Text) : Prop := ¬ IsCalibration n ∧ ¬ "Date (yyyy.mm.dd)".toList <:+: n ∧ ¬ "Time (hh:mm:ss.ms)".toList <:+: n

/-- Small letters, and underscores for spaces. -/
def key (n : Text) : Text := n.map fun c => (if c = ' ' then '_' else c).toLower

/-- The header says one thing of a kind. -/
def Says (ps : List Param) (kind : Text → Prop) (v : Text) : Prop := (∃ p ∈ ps, kind p.name) ∧ ∀ p ∈ ps, kind p.name → p.value = v

/-- The last word of a name. -/
def LastWord (q w : Text) : Prop := ' ' ∉ w ∧ (q = w ∨ ∃ a, q = a ++ ' ' :: w)

/-- The units of a quantity: those of the line for the last word of its name ("Pressure units" for "Holder Pressure"). -/
def Units (ps : List Param) (q u : Text) : Prop := ∃ w, LastWord q w ∧ Says ps (fun n => IsOther n ∧ key n = key w ++ "_units".toList) u

/-- The lines of the file before the table. -/
def headLines (b : Bool) (cols : List (Bool × Text)) (ps : List Param) : List Text := ("Time".toList ++ spaced ((b, "Notes".toList) :: cols)) :: ps.map paramLine

structure HeadOk (dateOf : Text → Option (Text × Text)) (cols : List (Bool × Text)) (ps : List Param) (date time units : Text) : Prop where
  some : cols ≠ []
  names : ∀ c ∈ cols, Name c.2
  distinct : ("Time".toList :: "Notes".toList :: cols.map Prod.snd).Nodup
  params : ∀ p ∈ ps, ParamOk p ∧ ¬ IsUser p.name
  when_ : ∃ d t, Says ps IsDate d ∧ Says ps IsTime t ∧ dateOf (d ++ t) = .some (date, time)
  timeUnits : Says ps (fun n => IsOther n ∧ key n = "time_units".toList) units

end Verif.Spec.Protochips
