import Verif.Py.Basic
import Mathlib.Data.Rat.Floor
/-!
Model of the functions of `rsciio/digitalsurf/_api.py` that are applied to signals after reading: `post_process_RGB` (lines 2025-2040)
and `post_process_binary` (lines 2043-2045).

The data are a list of numbers without NaN; the transposition of the signal, which changes no values, is left out. `change_dtype` of
HyperSpy is taken as `astype` of NumPy followed by the view as colours: numbers lose their fraction and are taken modulo 2^8 or 2^16;
what becomes of negative numbers is a parameter.
-/
namespace Verif.DigitalsurfPost

/-- The type of the data. -/
inductive Kind
  | rgb8
  | rgb16
  | same
  deriving DecidableEq

/-- `astype` of an unsigned type with `b` bits; `neg` is used for negative numbers. -/
def asType (b : Nat) (neg : Rat → Rat) (q : Rat) : Rat := if q < 0 then neg q else ((⌊q⌋.toNat % 2 ^ b : Nat) : Rat)

def maxOf : Rat → List Rat → Rat
  | a, [] => a
  | a, b :: l => maxOf (max a b) l

/-- `post_process_RGB`, lines 2025-2040. `np.max` of nothing is an error. -/
def postRgb (neg : Rat → Rat) : List Rat → Py (Kind × List Rat)
  | [] => .error .valueError
  | a :: l =>
    if maxOf a l ≤ 255 then .ok (.rgb8, (a :: l).map (asType 8 neg))
    else if maxOf a l ≤ 65536 then .ok (.rgb16, (a :: l).map (asType 16 neg))
    else .ok (.same, a :: l)

/-- `post_process_binary`, lines 2043-2045. -/
def postBinary (l : List Rat) : List Bool := l.map fun q => decide (q ≠ 0)

end Verif.DigitalsurfPost
