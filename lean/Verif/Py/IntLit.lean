import Verif.Py.Text
import Verif.Py.Dec
/-! `int(text)`: digits with an optional sign and white space at the ends (underscores between digits, and digits beyond ASCII, are not modelled). -/
namespace Verif

/-- `int(text)`. -/
def intLit (s : Text) : Py Int :=
  let t := stripBy isSpace s
  let (neg, ds) : Bool × Text := match t with
    | '-' :: r => (true, r)
    | '+' :: r => (false, r)
    | r => (false, r)
  if ds ≠ [] ∧ ds.all isDigit then .ok (if neg then -(decVal ds : Int) else (decVal ds : Int)) else .error .valueError

theorem not_space_of_digit {c : Char} (h : isDigit c = true) : isSpace c = false := by
  unfold isDigit at h
  have h := of_decide_eq_true h
  unfold isSpace
  obtain ⟨h1, h2⟩ := h
  dsimp only
  generalize c.toNat = n at *
  have key : ∀ n < 58, 48 ≤ n → ((9 ≤ n && n ≤ 13) || (28 ≤ n && n ≤ 32) || n == 0x85 || n == 0xA0 || n == 0x1680 ||
    (0x2000 ≤ n && n ≤ 0x200A) || n == 0x2028 || n == 0x2029 || n == 0x202F || n == 0x205F || n == 0x3000) = false := by decide
  exact key n (by omega) h1

theorem strip_digits {s : Text} (h : ∀ c ∈ s, isDigit c = true) : stripBy isSpace s = s :=
  stripBy_id (fun c hc => not_space_of_digit (h c (List.mem_of_mem_head? hc))) (fun c hc => not_space_of_digit (h c (List.mem_of_mem_getLast? hc)))

/-- Whole numbers as they are written. -/
theorem intLit_dec (n : Nat) : intLit (decChars n) = .ok n := by
  have hs := strip_digits (decChars_digits n)
  have hne := decChars_ne_nil n
  have hall : (decChars n).all isDigit = true := List.all_eq_true.mpr (decChars_digits n)
  have hv := decVal_decChars n
  unfold intLit
  dsimp only
  rw [hs]
  cases hd : decChars n with
  | nil => exact absurd hd hne
  | cons c r =>
    have hc : isDigit c = true := decChars_digits n c (by rw [hd]; exact List.mem_cons_self)
    have h1 : c ≠ '-' := fun hh => by rw [hh] at hc; exact absurd hc (by decide)
    have h2 : c ≠ '+' := fun hh => by rw [hh] at hc; exact absurd hc (by decide)
    rw [hd] at hall hv
    split
    · rename_i hh; injection hh with hh _; exact absurd hh h1
    · rename_i hh; injection hh with hh _; exact absurd hh h2
    · dsimp only
      rw [if_pos ⟨by simp, hall⟩, hv]
      rfl

end Verif
