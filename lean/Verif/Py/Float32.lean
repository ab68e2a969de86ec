import Mathlib.Data.Int.Log
import Mathlib.Data.Rat.Floor
import Mathlib.Algebra.Order.Field.Power
import Mathlib.Tactic.Linarith
import Mathlib.Tactic.Ring
import Mathlib.Tactic.Positivity
import Mathlib.Tactic.FieldSimp
import Mathlib.Tactic.NormNum
/-!
IEEE 754 single precision, as in `struct.pack("<f", x)` and `struct.unpack`, for finite numbers. A number is a rational; a bit pattern
is a natural number below `2 ^ 32`. The bit patterns of infinities and NaN are not modelled: `f32Dec` continues its
formula there.
-/
namespace Verif

/-- Rounding to an integer, ties to even (`np.round`, and the rounding of IEEE 754). -/
def roundEven (r : Rat) : Int :=
  if r - ⌊r⌋ < 1 / 2 then ⌊r⌋
  else if 1 / 2 < r - ⌊r⌋ then ⌊r⌋ + 1
  else if ⌊r⌋ % 2 = 0 then ⌊r⌋ else ⌊r⌋ + 1

/-- The exponent that is used for a positive number. -/
def f32Exp (a : Rat) : Int := max (Int.log 2 a) (-126)

/-- The significand, up to `2 ^ 24`. -/
def f32Mant (a : Rat) : Int := roundEven (a / (2 : Rat) ^ (f32Exp a - 23))

/-- Bit pattern of a number that is not negative. -/
def f32Bits (a : Rat) : Nat := if a = 0 then 0 else ((f32Exp a + 126) * 2 ^ 23 + f32Mant a).toNat

/-- `struct.pack("<f", r)` as a number; none: `OverflowError`. -/
def f32Enc (r : Rat) : Option Nat :=
  let n := f32Bits |r|
  if n < 255 * 2 ^ 23 then some (if r < 0 then n + 2 ^ 31 else n) else none

/-- Value of a bit pattern without the sign. -/
def f32Abs (n : Nat) : Rat :=
  if n / 2 ^ 23 = 0 then (n : Rat) * (2 : Rat) ^ (-149 : Int)
  else ((2 ^ 23 + n % 2 ^ 23 : Nat) : Rat) * (2 : Rat) ^ ((n / 2 ^ 23 : Nat) - 150 : Int)

/-- `struct.unpack("<f", ..)`. -/
def f32Dec (n : Nat) : Rat := if n < 2 ^ 31 then f32Abs n else -f32Abs (n - 2 ^ 31)

/-- The single-precision number next to a number (arithmetic of `np.float32`). -/
def round32 (r : Rat) : Rat := match f32Enc r with
  | none => 0
  | some n => f32Dec n

theorem roundEven_int (i : Int) : roundEven (i : Rat) = i := by
  unfold roundEven
  simp

theorem roundEven_err (r : Rat) : |(roundEven r : Rat) - r| ≤ 1 / 2 := by
  have h1 := Int.floor_le r
  have h2 := Int.lt_floor_add_one r
  unfold roundEven
  rw [abs_le]
  split
  · constructor <;> linarith
  · split
    · push_cast
      constructor <;> linarith
    · split
      · constructor <;> linarith
      · push_cast
        constructor <;> linarith

theorem roundEven_mono_int {r : Rat} {i : Int} (h : (i : Rat) ≤ r) : i ≤ roundEven r := by
  have h1 : i ≤ ⌊r⌋ := Int.le_floor.2 h
  unfold roundEven
  split
  · exact h1
  · split
    · omega
    · split <;> omega

theorem roundEven_le_int {r : Rat} {i : Int} (h : r ≤ i) : roundEven r ≤ i := by
  have h2 := Int.lt_floor_add_one r
  have h1 := Int.floor_le r
  have hf : ⌊r⌋ ≤ i := by exact_mod_cast h1.trans h
  rcases hf.lt_or_eq with hlt | heq
  · unfold roundEven
    split
    · exact hf
    · split
      · omega
      · split <;> omega
  · have : r = ⌊r⌋ := le_antisymm (by rw [heq]; exact h) h1
    rw [this, roundEven_int]
    omega

theorem f32Exp_ge (a : Rat) : -126 ≤ f32Exp a := le_max_right _ _

theorem f32_scaled_lt {a : Rat} (ha : 0 < a) : a / (2 : Rat) ^ (f32Exp a - 23) ≤ (2 ^ 24 : Int) := by
  have h := Int.lt_zpow_succ_log_self (b := 2) (by norm_num) a
  have h2 : (2 : Rat) ^ (Int.log 2 a + 1) ≤ (2 : Rat) ^ (f32Exp a + 1) :=
    zpow_le_zpow_right₀ (by norm_num) (by have := le_max_left (Int.log 2 a) (-126); unfold f32Exp; omega)
  have h3 : (0 : Rat) < (2 : Rat) ^ (f32Exp a - 23) := by positivity
  rw [div_le_iff₀ h3]
  have h4 : (2 : Rat) ^ (f32Exp a + 1) = ((2 ^ 24 : Int) : Rat) * (2 : Rat) ^ (f32Exp a - 23) := by
    have : f32Exp a + 1 = 24 + (f32Exp a - 23) := by ring
    rw [this, zpow_add₀ (by norm_num)]
    norm_num
  rw [← h4]
  have h5 : ((2 : Nat) : Rat) = 2 := by norm_num
  rw [h5] at h
  exact (h.trans_le h2).le

theorem f32_scaled_ge {a : Rat} (ha : 0 < a) (hn : f32Exp a ≠ -126) : ((2 ^ 23 : Int) : Rat) ≤ a / (2 : Rat) ^ (f32Exp a - 23) := by
  have hl : f32Exp a = Int.log 2 a := by
    unfold f32Exp at hn ⊢
    omega
  have h := Int.zpow_log_le_self (b := 2) (by norm_num) ha
  have h5 : ((2 : Nat) : Rat) = 2 := by norm_num
  rw [h5, ← hl] at h
  have h3 : (0 : Rat) < (2 : Rat) ^ (f32Exp a - 23) := by positivity
  rw [le_div_iff₀ h3]
  have : f32Exp a = 23 + (f32Exp a - 23) := by ring
  have h4 : (2 : Rat) ^ (f32Exp a) = ((2 ^ 23 : Int) : Rat) * (2 : Rat) ^ (f32Exp a - 23) := by
    conv_lhs => rw [this]
    rw [zpow_add₀ (by norm_num)]
    norm_num
  rw [← h4]
  exact h

theorem f32Abs_bits {a : Rat} (ha : 0 < a) : f32Abs (f32Bits a) = (f32Mant a : Rat) * (2 : Rat) ^ (f32Exp a - 23) := by
  have hge := f32Exp_ge a
  have hle : f32Mant a ≤ 2 ^ 24 := roundEven_le_int (f32_scaled_lt ha)
  have h0 : 0 ≤ f32Mant a := roundEven_mono_int (by push_cast; positivity)
  have hm : f32Exp a ≠ -126 → 2 ^ 23 ≤ f32Mant a := fun h => roundEven_mono_int (f32_scaled_ge ha h)
  unfold f32Bits
  rw [if_neg ha.ne']
  generalize f32Mant a = m at *
  generalize f32Exp a = e at *
  obtain ⟨m, rfl⟩ := Int.eq_ofNat_of_zero_le h0
  obtain ⟨k, rfl⟩ : ∃ k : Nat, e = (k : Int) - 126 := ⟨(e + 126).toNat, by omega⟩
  have hn : (((k : Int) - 126 + 126) * 2 ^ 23 + (m : Int)).toNat = k * 2 ^ 23 + m := by omega
  rw [hn]
  unfold f32Abs
  by_cases hk : k = 0 ∧ m < 2 ^ 23
  · obtain ⟨rfl, hm'⟩ := hk
    rw [if_pos (by omega)]
    norm_num
  · have hm1 : 2 ^ 23 ≤ m := by
      by_cases hk0 : k = 0
      · omega
      · have := hm (by omega)
        omega
    rw [if_neg (by omega)]
    by_cases hm2 : m = 2 ^ 24
    · subst hm2
      have e1 : (k * 2 ^ 23 + 2 ^ 24) / 2 ^ 23 = k + 2 := by omega
      have e2 : (k * 2 ^ 23 + 2 ^ 24) % 2 ^ 23 = 0 := by omega
      rw [e1, e2]
      have e3 : ((k + 2 : Nat) - 150 : Int) = 1 + ((k : Int) - 126 - 23) := by push_cast; ring
      rw [e3, zpow_add₀ (by norm_num)]
      push_cast
      ring
    · have e1 : (k * 2 ^ 23 + m) / 2 ^ 23 = k + 1 := by omega
      have e2 : (k * 2 ^ 23 + m) % 2 ^ 23 = m - 2 ^ 23 := by omega
      rw [e1, e2]
      have e3 : ((k + 1 : Nat) - 150 : Int) = ((k : Int) - 126 - 23) := by push_cast; ring
      rw [e3]
      have e4 : 2 ^ 23 + (m - 2 ^ 23) = m := by omega
      rw [e4]
      push_cast
      ring

theorem f32Enc_lt {r : Rat} {n : Nat} (h : f32Enc r = some n) : n < 256 ^ 4 := by
  unfold f32Enc at h
  dsimp only at h
  split at h
  · cases h
    split <;> omega
  · cases h

/-- A number that is read is the one that was written, rounded to the significand. -/
theorem f32Dec_enc {r : Rat} {n : Nat} (h : f32Enc r = some n) :
    f32Dec n = if r = 0 then 0 else (if r < 0 then -1 else 1) * (f32Mant |r| * (2 : Rat) ^ (f32Exp |r| - 23)) := by
  unfold f32Enc at h
  dsimp only at h
  split at h
  next hlt =>
    cases h
    by_cases h0 : r = 0
    · subst h0
      rw [if_pos rfl]
      norm_num [f32Bits, f32Dec, f32Abs]
    · rw [if_neg h0]
      have hb := f32Abs_bits (abs_pos.2 h0)
      by_cases hn : r < 0
      · rw [if_pos hn, if_pos hn]
        unfold f32Dec
        rw [if_neg (by omega)]
        rw [Nat.add_sub_cancel, hb]
        ring
      · rw [if_neg hn, if_neg hn]
        unfold f32Dec
        rw [if_pos (by omega), hb]
        ring
  · cases h

theorem f32_abs_err {r : Rat} {n : Nat} (h : f32Enc r = some n) (h0 : r ≠ 0) :
    |f32Dec n - r| ≤ (2 : Rat) ^ (f32Exp |r| - 24) := by
  rw [f32Dec_enc h, if_neg h0]
  have hp : (0 : Rat) < (2 : Rat) ^ (f32Exp |r| - 23) := by positivity
  have he := roundEven_err (|r| / (2 : Rat) ^ (f32Exp |r| - 23))
  change |(f32Mant |r| : Rat) - _| ≤ _ at he
  have hmul : |(f32Mant |r| : Rat) * (2 : Rat) ^ (f32Exp |r| - 23) - (|r|)| ≤ (2 : Rat) ^ (f32Exp |r| - 24) := by
    have : (f32Mant |r| : Rat) * (2 : Rat) ^ (f32Exp |r| - 23) - |r| =
        ((f32Mant |r| : Rat) - |r| / (2 : Rat) ^ (f32Exp |r| - 23)) * (2 : Rat) ^ (f32Exp |r| - 23) := by
      field_simp
    rw [this, abs_mul, abs_of_pos hp]
    have e : (2 : Rat) ^ (f32Exp |r| - 24) = 1 / 2 * (2 : Rat) ^ (f32Exp |r| - 23) := by
      have : f32Exp |r| - 23 = 1 + (f32Exp |r| - 24) := by ring
      rw [this, zpow_add₀ (by norm_num), zpow_one]
      ring
    rw [e]
    exact mul_le_mul_of_nonneg_right he hp.le
  rcases lt_or_gt_of_ne h0 with hn | hn
  · rw [if_pos hn]
    rw [abs_of_neg hn] at hmul ⊢
    rw [← abs_neg]
    convert hmul using 2
    ring
  · rw [if_neg hn.not_gt]
    rw [abs_of_pos hn] at hmul ⊢
    convert hmul using 2
    ring

/-- Relative error of a number in the normal range. -/
theorem f32_rel_err {r : Rat} {n : Nat} (h : f32Enc r = some n) (hr : r = 0 ∨ (2 : Rat) ^ (-126 : Int) ≤ |r|) :
    |f32Dec n - r| ≤ 1 / 2 ^ 24 * |r| := by
  by_cases h0 : r = 0
  · subst h0
    rw [f32Dec_enc h]
    simp
  · have hp := abs_pos.2 h0
    have hr := hr.resolve_left h0
    refine (f32_abs_err h h0).trans ?_
    have hl : -126 ≤ Int.log 2 |r| := by
      have := (Int.zpow_le_iff_le_log (b := 2) (by norm_num) (x := -126) hp).1 (by exact_mod_cast hr)
      exact this
    have he : f32Exp |r| = Int.log 2 |r| := by unfold f32Exp; omega
    have h1 := Int.zpow_log_le_self (b := 2) (by norm_num) hp
    have h5 : ((2 : Nat) : Rat) = 2 := by norm_num
    rw [h5, ← he] at h1
    have : f32Exp |r| = 24 + (f32Exp |r| - 24) := by ring
    rw [this, zpow_add₀ (by norm_num)] at h1
    have h24 : (2 : Rat) ^ (24 : Int) = 2 ^ 24 := by norm_num
    rw [h24] at h1
    rw [div_mul_eq_mul_div, one_mul, le_div_iff₀ (by positivity)]
    linarith

/-- Multiples of a power of two with a significand of 24 bits are kept. -/
theorem f32_exact {m e : Int} {n : Nat} (h : f32Enc ((m : Rat) * (2 : Rat) ^ e) = some n) (hm : |m| ≤ 2 ^ 24) (he : -149 ≤ e) :
    f32Dec n = (m : Rat) * (2 : Rat) ^ e := by
  have hm24 : |m| = 2 ^ 24 ∨ |m| < 2 ^ 24 := by omega
  rcases hm24 with hm24 | hm24
  · -- a power of two
    have hz : (m : Rat) * (2 : Rat) ^ e ≠ 0 := by
      have : m ≠ 0 := by rintro rfl; norm_num at hm24
      exact mul_ne_zero (by exact_mod_cast this) (by positivity)
    have hab : |(m : Rat) * (2 : Rat) ^ e| = (2 : Rat) ^ (e + 24) := by
      rw [abs_mul, abs_of_pos (by positivity : (0 : Rat) < (2 : Rat) ^ e), ← Int.cast_abs, hm24, zpow_add₀ (by norm_num)]
      norm_num
      ring
    rw [f32Dec_enc h, if_neg hz]
    have hexp : f32Exp |(m : Rat) * (2 : Rat) ^ e| = e + 24 := by
      rw [hab]
      unfold f32Exp
      have := Int.log_zpow (R := Rat) (b := 2) (by norm_num) (e + 24)
      norm_num at this
      rw [this]
      omega
    have hmant : f32Mant |(m : Rat) * (2 : Rat) ^ e| = 2 ^ 23 := by
      unfold f32Mant
      rw [hexp, hab]
      have : (2 : Rat) ^ (e + 24) / (2 : Rat) ^ (e + 24 - 23) = ((2 ^ 23 : Int) : Rat) := by
        rw [← zpow_sub₀ (by norm_num)]
        have : e + 24 - (e + 24 - 23) = 23 := by ring
        rw [this]
        norm_num
      rw [this, roundEven_int]
    rw [hexp, hmant]
    have hs : (if (m : Rat) * (2 : Rat) ^ e < 0 then (-1 : Rat) else 1) * |(m : Rat) * (2 : Rat) ^ e| = (m : Rat) * (2 : Rat) ^ e := by
      split
      next hn => rw [abs_of_neg hn]; ring
      next hn => rw [abs_of_nonneg (not_lt.1 hn)]; ring
    have : ((2 ^ 23 : Int) : Rat) * (2 : Rat) ^ (e + 24 - 23) = |(m : Rat) * (2 : Rat) ^ e| := by
      rw [hab]
      have : e + 24 = 23 + (e + 24 - 23) := by ring
      conv_rhs => rw [this]
      rw [zpow_add₀ (by norm_num)]
      norm_num
    rw [this, hs]
  · by_cases hz : m = 0
    · subst hz
      rw [f32Dec_enc h]
      simp
    · have hz' : (m : Rat) * (2 : Rat) ^ e ≠ 0 := mul_ne_zero (by exact_mod_cast hz) (by positivity)
      have hab : |(m : Rat) * (2 : Rat) ^ e| = ((|m| : Int) : Rat) * (2 : Rat) ^ e := by
        rw [abs_mul, abs_of_pos (by positivity : (0 : Rat) < (2 : Rat) ^ e), ← Int.cast_abs]
      have hp : (0 : Rat) < ((|m| : Int) : Rat) * (2 : Rat) ^ e := by rw [← hab]; exact abs_pos.2 hz'
      rw [f32Dec_enc h, if_neg hz']
      have hle : f32Exp |(m : Rat) * (2 : Rat) ^ e| - 23 ≤ e := by
        rw [hab]
        unfold f32Exp
        have hlog : Int.log 2 (((|m| : Int) : Rat) * (2 : Rat) ^ e) < e + 24 := by
          have := (Int.lt_zpow_iff_log_lt (b := 2) (by norm_num) (x := e + 24) hp).1 (by
            push_cast
            rw [zpow_add₀ (by norm_num), mul_comm]
            have : |(m : Rat)| < (2 : Rat) ^ (24 : Int) := by
              have h24 : (2 : Rat) ^ (24 : Int) = ((2 ^ 24 : Int) : Rat) := by norm_num
              rw [h24, ← Int.cast_abs]
              exact_mod_cast hm24
            exact mul_lt_mul_of_pos_left this (by positivity))
          exact this
        omega
      generalize hE : f32Exp |(m : Rat) * (2 : Rat) ^ e| - 23 = E at hle
      obtain ⟨d, hd⟩ : ∃ d : Nat, e = E + d := ⟨(e - E).toNat, by omega⟩
      have hmant : f32Mant |(m : Rat) * (2 : Rat) ^ e| = |m| * 2 ^ d := by
        unfold f32Mant
        rw [hE, hab]
        have : ((|m| : Int) : Rat) * (2 : Rat) ^ e / (2 : Rat) ^ E = ((|m| * 2 ^ d : Int) : Rat) := by
          rw [hd, zpow_add₀ (by norm_num)]
          push_cast
          field_simp
          rw [zpow_natCast]
        rw [this, roundEven_int]
      rw [hmant]
      have hv : ((|m| * 2 ^ d : Int) : Rat) * (2 : Rat) ^ E = |(m : Rat) * (2 : Rat) ^ e| := by
        rw [hab, hd, zpow_add₀ (by norm_num)]
        push_cast
        rw [zpow_natCast]
        ring
      rw [hv]
      split
      next hn => rw [abs_of_neg hn]; ring
      next hn => rw [abs_of_nonneg (not_lt.1 hn)]; ring

/-- Integers up to `2 ^ 24` are kept. -/
theorem f32_exact_int {i : Int} {n : Nat} (h : f32Enc (i : Rat) = some n) (hi : |i| ≤ 2 ^ 24) : f32Dec n = i := by
  have := f32_exact (m := i) (e := 0) (n := n) (by simpa using h) hi (by norm_num)
  simpa using this

/-- Integers stay integers. -/
theorem f32_int {i : Int} {n : Nat} (h : f32Enc (i : Rat) = some n) : ∃ j : Int, f32Dec n = j := by
  by_cases hi : |i| ≤ 2 ^ 24
  · exact ⟨i, f32_exact_int h hi⟩
  · have hz : (i : Rat) ≠ 0 := by
      have : i ≠ 0 := by rintro rfl; norm_num at hi
      exact_mod_cast this
    rw [f32Dec_enc h, if_neg hz]
    have hE : 0 ≤ f32Exp |(i : Rat)| - 23 := by
      have : (24 : Int) ≤ Int.log 2 |(i : Rat)| := by
        refine (Int.zpow_le_iff_le_log (b := 2) (by norm_num) (abs_pos.2 hz)).1 ?_
        have h24 : ((2 : Nat) : Rat) ^ (24 : Int) = ((2 ^ 24 : Int) : Rat) := by norm_num
        rw [h24, ← Int.cast_abs]
        exact_mod_cast (by omega : (2 ^ 24 : Int) ≤ |i|)
      unfold f32Exp
      omega
    obtain ⟨d, hd⟩ := Int.eq_ofNat_of_zero_le hE
    rw [hd]
    refine ⟨(if (i : Rat) < 0 then -1 else 1) * (f32Mant |(i : Rat)| * 2 ^ d), ?_⟩
    push_cast
    rfl

/-- Numbers of ordinary size can be stored. -/
theorem f32Enc_some {r : Rat} (h : |r| ≤ 2 ^ 126) : ∃ n, f32Enc r = some n := by
  unfold f32Enc
  dsimp only
  refine ⟨_, if_pos ?_⟩
  unfold f32Bits
  split
  · norm_num
  next hne =>
    have hp : 0 < |r| := lt_of_le_of_ne (abs_nonneg _) (Ne.symm hne)
    have hle : f32Mant |r| ≤ 2 ^ 24 := roundEven_le_int (f32_scaled_lt hp)
    have h0 : 0 ≤ f32Mant |r| := roundEven_mono_int (by push_cast; positivity)
    have hl : Int.log 2 |r| < 127 := by
      refine (Int.lt_zpow_iff_log_lt (b := 2) (by norm_num) hp).1 (lt_of_le_of_lt h ?_)
      norm_num
    have : f32Exp |r| < 127 := by unfold f32Exp; omega
    have := f32Exp_ge |r|
    omega

example : f32Enc (3 / 2) = some 0x3fc00000 := by decide +kernel
example : f32Enc (-1 / 10) = some 0xbdcccccd := by decide +kernel
example : f32Dec 0x3dcccccd = 13421773 / 134217728 := by decide +kernel
example : f32Enc 16777217 = some 0x4b800000 := by decide +kernel

end Verif
