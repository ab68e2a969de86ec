import Verif.Py.Basic
/-! Decimal text of natural numbers: Python's `str(n)` and `int(text)` for `n ≥ 0`. -/
namespace Verif

/-- The digit character of `d < 10`. -/
def digitChar (d : Nat) : Char := Char.ofNat (48 + d)

/-- The decimal digits of `n`, for a bound on their number. -/
def decCharsAux : Nat → Nat → List Char
  | 0, _ => []
  | fuel + 1, n => if n < 10 then [digitChar n] else decCharsAux fuel (n / 10) ++ [digitChar (n % 10)]

/-- `str(n)`. -/
def decChars (n : Nat) : List Char := decCharsAux (n + 1) n

/-- `int(text)` for a text of decimal digits. -/
def decVal (cs : List Char) : Nat := cs.foldl (fun a c => 10 * a + (c.toNat - 48)) 0

/-- `c` is one of `0 … 9`. -/
def isDigit (c : Char) : Bool := decide (48 ≤ c.toNat ∧ c.toNat ≤ 57)

theorem decCharsAux_fuel : ∀ (f g n : Nat), n < f → n < g → decCharsAux f n = decCharsAux g n
  | 0, _, _, h, _ => by omega
  | _, 0, _, _, h => by omega
  | f + 1, g + 1, n, hf, hg => by
    unfold decCharsAux
    by_cases h : n < 10
    · simp [h]
    · simp only [h, if_false]
      rw [decCharsAux_fuel f g (n / 10) (by omega) (by omega)]

/-- The digits of a number: those of `n / 10` followed by the last digit. -/
theorem decChars_eq (n : Nat) : decChars n =
    if n < 10 then [digitChar n] else decChars (n / 10) ++ [digitChar (n % 10)] := by
  unfold decChars
  rw [decCharsAux]
  by_cases h : n < 10
  · simp [h]
  · simp only [h, if_false]
    rw [decCharsAux_fuel n (n / 10 + 1) (n / 10) (by omega) (by omega)]

theorem digitChar_toNat {d : Nat} (h : d < 10) : (digitChar d).toNat = 48 + d := by
  have : d = 0 ∨ d = 1 ∨ d = 2 ∨ d = 3 ∨ d = 4 ∨ d = 5 ∨ d = 6 ∨ d = 7 ∨ d = 8 ∨ d = 9 := by omega
  rcases this with h | h | h | h | h | h | h | h | h | h <;> subst h <;> rfl

theorem decVal_append (a : List Char) (c : Char) :
    decVal (a ++ [c]) = 10 * decVal a + (c.toNat - 48) := by
  simp [decVal, List.foldl_append]

theorem decVal_decChars (n : Nat) : decVal (decChars n) = n := by
  induction n using Nat.strongRecOn with
  | _ n ih =>
    rw [decChars_eq]
    split
    · rename_i h
      simp [decVal, digitChar_toNat h]
    · rw [decVal_append, ih (n / 10) (by omega), digitChar_toNat (Nat.mod_lt _ (by omega))]
      omega

theorem decChars_inj {m n : Nat} (h : decChars m = decChars n) : m = n := by
  rw [← decVal_decChars m, h, decVal_decChars]

theorem decChars_digits (n : Nat) : ∀ c ∈ decChars n, isDigit c = true := by
  induction n using Nat.strongRecOn with
  | _ n ih =>
    rw [decChars_eq]
    split
    · rename_i h
      intro c hc
      simp at hc
      subst hc
      simp [isDigit, digitChar_toNat h]; omega
    · intro c hc
      rcases List.mem_append.1 hc with hc | hc
      · exact ih (n / 10) (by omega) c hc
      · simp at hc
        subst hc
        simp [isDigit, digitChar_toNat (Nat.mod_lt n (show 10 > 0 by omega))]; omega

theorem decChars_ne_nil (n : Nat) : decChars n ≠ [] := by
  rw [decChars_eq]; split <;> simp

end Verif
