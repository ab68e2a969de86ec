import Verif.Model.DateTime
import Mathlib.Tactic.Linarith
import Mathlib.Tactic.FieldSimp
import Mathlib.Tactic.Ring
import Mathlib.Tactic.NormNum
/-! Property C14: serial dates. -/
namespace Verif.Props.DateTime
open Verif.DateTime

theorem serial_eq (secs : Int) (micro : Nat) :
    datetimeToSerial secs micro = (secs : ℚ) / 86400 := by
  unfold datetimeToSerial
  have h : secs = 86400 * (secs / 86400) + secs % 86400 := (Int.mul_ediv_add_emod secs 86400).symm
  have h' : (secs : ℚ) = 86400 * ((secs / 86400 : Int) : ℚ) + ((secs % 86400 : Int) : ℚ) := by
    exact_mod_cast h
  simp only
  rw [h']
  push_cast
  ring

/-- C14 (partial): from the origin 1899-12-30 on, converting to a serial date and back returns
the same second. Missing: dates before the origin, for which it is false
(`C14_fails_before_origin`). -/
theorem C14_roundtrip_partial (secs : Int) (micro : Nat) (h : 0 ≤ secs) :
    serialToDatetime (datetimeToSerial secs micro) = secs := by
  rw [serial_eq]
  unfold serialToDatetime pyInt pyMod1
  have h0 : (0 : ℚ) ≤ (secs : ℚ) / 86400 := by
    apply div_nonneg
    · exact_mod_cast h
    · norm_num
  rw [if_pos h0]
  ring_nf

/-- C14: whole days before the origin also convert back. -/
theorem C14_whole_days_partial (days : Int) (micro : Nat) :
    serialToDatetime (datetimeToSerial (86400 * days) micro) = (86400 * days : Int) := by
  rw [serial_eq]
  have e : ((86400 * days : Int) : ℚ) / 86400 = (days : ℚ) := by push_cast; ring
  rw [e]
  unfold serialToDatetime pyInt pyMod1
  rw [Int.floor_intCast, Int.ceil_intCast]
  push_cast
  split <;> ring

/-- The error before the origin is always exactly one day: for every time that is before the
origin and not a whole number of days from it, the date comes back one day late. -/
theorem C14_one_day_late_before_origin (secs : Int) (micro : Nat) (h : secs < 0)
    (hfrac : ¬ (86400 ∣ secs)) :
    serialToDatetime (datetimeToSerial secs micro) = secs + 86400 := by
  rw [serial_eq]
  unfold serialToDatetime pyInt pyMod1
  have h0 : ¬ (0 : ℚ) ≤ (secs : ℚ) / 86400 := by
    intro hh
    have : (0 : ℚ) ≤ (secs : ℚ) := by
      have := mul_nonneg hh (show (0 : ℚ) ≤ 86400 by norm_num)
      rwa [div_mul_cancel₀ _ (by norm_num)] at this
    have : 0 ≤ secs := by exact_mod_cast this
    omega
  rw [if_neg h0]
  have hc : ⌈(secs : ℚ) / 86400⌉ = ⌊(secs : ℚ) / 86400⌋ + 1 := by
    rw [Int.ceil_eq_iff]
    constructor
    · push_cast
      have hle := Int.floor_le ((secs : ℚ) / 86400)
      have hne : ((⌊(secs : ℚ) / 86400⌋ : Int) : ℚ) ≠ (secs : ℚ) / 86400 := by
        intro he
        apply hfrac
        refine ⟨⌊(secs : ℚ) / 86400⌋, ?_⟩
        have : (secs : ℚ) = 86400 * ((⌊(secs : ℚ) / 86400⌋ : Int) : ℚ) := by
          rw [he]; ring
        exact_mod_cast this
      have := lt_of_le_of_ne hle hne
      linarith
    · push_cast
      exact le_of_lt (Int.lt_floor_add_one _)
  rw [hc]
  push_cast
  ring

/-- C14 is false before the origin: noon of 1899-12-29 comes back as noon of 1899-12-30. -/
theorem C14_fails_before_origin :
    serialToDatetime (datetimeToSerial (-43200) 0) = 43200 := by
  rw [C14_one_day_late_before_origin _ _ (by norm_num) (by decide)]
  norm_num

example : serialToDatetime (datetimeToSerial 3951849600 5) = 3951849600 := by
  rw [C14_roundtrip_partial _ _ (by norm_num)]; norm_num

end Verif.Props.DateTime
