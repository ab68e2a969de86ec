import Verif.Py.Assoc
/-!
Specification of dictionaries that a Digital Surf comment can hold.
-/
namespace Verif.Spec.DigitalsurfComment

/-- A text in one line, without white space at its ends. -/
def Name (t : Text) : Prop :=
  (∀ c ∈ t, isSpace c = true → c = ' ') ∧ (∀ c ∈ t.head?, isSpace c = false) ∧ ∀ c ∈ t.getLast?, isSpace c = false

def Key (k : Text) : Prop := Name k ∧ '=' ∉ k ∧ k.head? ≠ some '_'

def Word (t : Text) : Prop := ∀ c ∈ t, isSpace c = false ∧ c ≠ '='

section
variable {V : Type} (str : V → Text) (lit : Text → Option V) (ofText : Text → V)

/-- Python reads the value from its text; gratings are texts. -/
def Reads (k : Text) (v : V) : Prop :=
  (lit (str v) = some v ∧ k ≠ "Grating".toList) ∨ ((lit (str v) = none ∨ k = "Grating".toList) ∧ ofText (str v) = v)

/-- A section: values of one word; units are not empty and belong to a value that is not empty. -/
def Section (l : List (Text × V)) : Prop :=
  (l.map Prod.fst).Nodup ∧ (∀ e ∈ l, Key e.1 ∧ Word (str e.2) ∧ Reads str lit ofText e.1 e.2) ∧
    ∀ e ∈ l, ∀ u ∈ l, u.1 = e.1 ++ "_units".toList → str e.2 ≠ [] ∧ str u.2 ≠ [] ∧ ofText (str u.2) = u.2

/-- A dictionary of sections; no title is the name of units. -/
def Sections (d : List (Text × List (Text × V))) : Prop :=
  (d.map Prod.fst).Nodup ∧ (∀ e ∈ d, Name e.1 ∧ Section str lit ofText e.2) ∧
    ∀ e ∈ d, ∀ x ∈ e.2, x.1 ++ "_units".toList ∉ d.map Prod.fst

end

end Verif.Spec.DigitalsurfComment
