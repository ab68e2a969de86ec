import Verif.Py.Bytes
import Verif.Spec.Bytes
namespace Verif
open Verif.BytesSpec

theorem digits_foldl (bs : List UInt8) (a : Nat) :
    bs.foldl (fun acc b => 256 * acc + b.toNat) a = a * 256 ^ bs.length + leVal bs.reverse := by
  induction bs generalizing a with
  | nil => simp [leVal]
  | cons b bs ih =>
    rw [List.foldl_cons, ih, List.reverse_cons, leVal_append]
    simp only [List.length_cons, List.length_reverse, leVal, Nat.pow_succ]
    ring

theorem digits_eq (bs : List UInt8) : digits bs = beVal bs := by
  unfold digits; rw [digits_foldl]; simp [beVal]

theorem stored_eq (big : Bool) (bs : List UInt8) :
    stored big bs = if big then beVal bs else leVal bs := by
  unfold stored
  simp only [digits_eq, beVal, List.reverse_reverse]

theorem stored_lt (big : Bool) (bs : List UInt8) : stored big bs < 256 ^ bs.length := by
  rw [stored_eq]; split
  · exact beVal_lt bs
  · exact leVal_lt bs

theorem pow_bytes (w : Nat) : (2 : Int) ^ (8 * w) = ((256 ^ w : Nat) : Int) := by
  rw [pow_mul]; norm_num

theorem encodes_toSigned (big : Bool) (bs : List UInt8) :
    Encodes big true bs (toSigned bs.length (stored big bs)) := by
  have h := stored_lt big bs
  unfold Encodes toSigned
  rw [pow_bytes]
  generalize (256 ^ bs.length : Nat) = M at *
  simp only [if_true]
  by_cases h2 : 2 * stored big bs < M
  · rw [if_pos h2]
    exact ⟨⟨0, by omega⟩, by omega, by omega⟩
  · rw [if_neg h2]
    exact ⟨⟨-1, by omega⟩, by omega, by omega⟩

theorem encodes_unsigned (big : Bool) (bs : List UInt8) :
    Encodes big false bs (stored big bs) := by
  have h := stored_lt big bs
  unfold Encodes
  rw [pow_bytes]
  generalize (256 ^ bs.length : Nat) = M at *
  refine ⟨⟨0, by omega⟩, ?_⟩
  simp only [Bool.false_eq_true, if_false]
  omega

theorem encodes_unique {big signed : Bool} {bs : List UInt8} {v v' : Int}
    (h : Encodes big signed bs v) (h' : Encodes big signed bs v') : v = v' := by
  unfold Encodes at h h'
  rw [pow_bytes] at h h'
  have hM : 0 < 256 ^ bs.length := Nat.pow_pos (by omega)
  generalize (256 ^ bs.length : Nat) = M at *
  obtain ⟨⟨k, hk⟩, hr⟩ := h
  obtain ⟨⟨k', hk'⟩, hr'⟩ := h'
  have e : v - v' = (k - k') * M := by rw [hk, hk', Int.sub_mul]; omega
  have hb : -(M : Int) < v - v' ∧ v - v' < M := by
    cases signed
    · simp at hr hr'; omega
    · simp at hr hr'; omega
  have : k - k' = 0 := by
    by_contra hne
    rcases Int.lt_or_gt_of_ne hne with h1 | h1
    · have : (k - k') * M ≤ -1 * M := Int.mul_le_mul_of_nonneg_right (by omega) (by omega)
      omega
    · have : 1 * (M : Int) ≤ (k - k') * M := Int.mul_le_mul_of_nonneg_right (by omega) (by omega)
      omega
  rw [this] at e
  omega

end Verif
