import Verif.Py.Lines
/-! Specification of C93 and C94: tables of log files. -/
namespace Verif.Spec.Tables

/-- A row of a table with `k` columns: no separators, comments or newlines in the cells, and no spaces around the row. -/
structure Row (k : Nat) (cells : List Text) : Prop where
  length : cells.length = k
  char : ∀ p ∈ cells, ∀ c ∈ p, c ≠ ',' ∧ c ≠ '#' ∧ c ≠ '\n' ∧ c ≠ '\r'
  ne : joinWith [','] cells ≠ []
  head : ∀ c ∈ (joinWith [','] cells).head?, c ≠ ' '
  last : ∀ c ∈ (joinWith [','] cells).getLast?, c ≠ ' '

/-- The text of rows. -/
def rowLines (rows : List (List Text)) : List Text := rows.map fun r => joinWith [','] r

/-- Text of one line. -/
def Line (t : Text) : Prop := '\n' ∉ t ∧ '\r' ∉ t

/-- The mean step of the times without the first and the last one. -/
def innerStep (T : List Rat) : Rat := (T.getD (T.length - 2) 0 - T.getD 1 0) / ((T.length - 3 : Nat) : Rat)

end Verif.Spec.Tables
