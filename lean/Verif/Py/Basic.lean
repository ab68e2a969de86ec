/-!
Shared conventions of the model: Python exceptions as values.
-/
namespace Verif

/-- The exception classes that the modelled code raises (or lets escape). -/
inductive PyErr
  | valueError | indexError | keyError | typeError | ioError | structError
  | notImplemented | assertion | stopIteration | nameError | overflowError
  | runtimeError | zeroDivision | unicodeError | attributeError | byteOrderError
  deriving DecidableEq, Repr

/-- Result of a Python call that may raise. -/
abbrev Py (α : Type) := Except PyErr α

instance [DecidableEq α] : DecidableEq (Py α) := fun a b =>
  match a, b with
  | .ok x, .ok y => if h : x = y then isTrue (by rw [h]) else isFalse (by intro e; cases e; exact h rfl)
  | .error x, .error y => if h : x = y then isTrue (by rw [h]) else isFalse (by intro e; cases e; exact h rfl)
  | .ok _, .error _ => isFalse (by intro e; cases e)
  | .error _, .ok _ => isFalse (by intro e; cases e)

end Verif
