import Verif.Spec.Tables
import Verif.Py.IntLit
/-! Specification of C94: log files of DENSsolutions Impulse. -/
namespace Verif.Spec.Impulse
open Verif.Spec.Tables

/-- The name of a column in plain letters. -/
def plain (n : Text) : Text := n.flatMap fun c => if c = ' ' ∨ c = '/' then ['_'] else if c = '#' then "No".toList else if c = '%' then "Perc".toList else if c = '(' ∨ c = ')' then [] else [c]

/-- Names of columns: letters, digits, spaces, underscores and `#()/%`. -/
structure Name (n : Text) : Prop where
  char : ∀ c ∈ n, c.isAlphanum = true ∨ c ∈ " _#()/%".toList
  some : plain n ≠ []
  word : plain n ∉ ["return".toList, "file".toList, "print".toList]

/-- The columns of a log: the time stamp, the time since the start, and the quantities. -/
structure ColumnsOk (qs : List Text) : Prop where
  some : qs ≠ []
  name : ∀ q ∈ qs, Name q
  distinct : (("TimeStamp".toList :: "Experiment time".toList :: qs).map plain).Nodup
  last : ∀ q, qs.getLast? = .some q → q.getLast? ≠ .some ' '

/-- Positions of a valve: three numbers with semicolons. -/
def Positions (cell : Text) (a b c : Int) : Prop := ∃ x y z, cell = joinWith [';'] [x, y, z] ∧ (∀ t ∈ [x, y, z], ';' ∉ t) ∧ intLit x = .ok a ∧ intLit y = .ok b ∧ intLit z = .ok c

/-- The rows of the metadata file: entries, and notes. -/
def metaRows (entries : List (Text × Text)) (notes : List Text) : List (List Text) := (entries.map fun e => [e.1, e.2]) ++ match notes with
  | [] => []
  | n :: ns => ["Live notes".toList, n] :: ns.map fun n => [n]

/-- Names of entries with underscores for spaces. -/
def key (n : Text) : Text := n.map fun c => if c = ' ' then '_' else c

structure MetaOk (entries : List (Text × Text)) (date time : Text) : Prop where
  distinct : (entries.map fun e => key e.1).Nodup
  notes : ∀ e ∈ entries, e.1 ≠ "Live notes".toList
  date : ∃ d, ("Experiment date".toList, d) ∈ entries ∧ stripBy isSpace d = date
  time : ∃ t, ("Experiment time".toList, t) ∈ entries ∧ stripBy isSpace t = time

/-- The units at the end of a name, in parentheses. -/
def UnitsOf (q u : Text) : Prop := ∃ a, q = a ++ " (".toList ++ u ++ ")".toList ∧ a ≠ [] ∧ (∀ c ∈ a.head?, isSpace c = false) ∧ ∀ c ∈ u, c ≠ ' ' ∧ c ≠ '(' ∧ c ≠ ')'

end Verif.Spec.Impulse
