import Verif.Model.DigitalsurfPost
import Mathlib.Tactic.Linarith
/-!
C170: colours and binary images of Digital Surf files.
-/
namespace Verif.Props.DigitalsurfPost
open Verif Verif.DigitalsurfPost

/-- A list of whole numbers from 0 to `m`. -/
def Whole (l : List Rat) (m : Nat) : Prop := ∀ q ∈ l, ∃ n : Nat, q = n ∧ n ≤ m

private theorem maxOf_le (a : Rat) (l : List Rat) (m : Rat) : maxOf a l ≤ m ↔ a ≤ m ∧ ∀ q ∈ l, q ≤ m := by
  induction l generalizing a with
  | nil => simp [maxOf]
  | cons b l ih => rw [maxOf, ih, max_le_iff]; simp [and_assoc]

private theorem asType_whole {b : Nat} {neg : Rat → Rat} {l : List Rat} (h : Whole l (2 ^ b - 1)) : l.map (asType b neg) = l := by
  conv_rhs => rw [← List.map_id l]
  refine List.map_congr_left fun q hq => ?_
  obtain ⟨n, rfl, hn⟩ := h q hq
  have : 0 < 2 ^ b := Nat.two_pow_pos b
  rw [asType, if_neg (by simp), Int.floor_natCast, Int.toNat_natCast, Nat.mod_eq_of_lt (by omega)]
  rfl

/-- C170, colours. Data of whole numbers from 0 to 255 become colours of 8 bits with these values; from 0 to 65535, with one above 255,
colours of 16 bits; and with a number above 65536 they stay as they are.

The full claim is that values are never changed and the number of bits is that of the image. Missing: the number 65536
(`C170_fails_limit`), negative numbers (`C170_fails_negative`), fractions (`C170_fails_fraction`), and dark images of 16 bits
(`C170_fails_dark`). -/
theorem C170_colours_partial (neg : Rat → Rat) (l : List Rat) (hl : l ≠ []) :
    (Whole l 255 → postRgb neg l = .ok (.rgb8, l)) ∧
    (Whole l 65535 → (∃ q ∈ l, 255 < q) → postRgb neg l = .ok (.rgb16, l)) ∧
    ((∃ q ∈ l, 65536 < q) → postRgb neg l = .ok (.same, l)) := by
  obtain ⟨a, t, rfl⟩ := List.exists_cons_of_ne_nil hl
  have key : ∀ m : Rat, maxOf a t ≤ m ↔ ∀ q ∈ a :: t, q ≤ m := by
    intro m
    rw [maxOf_le, List.forall_mem_cons]
  refine ⟨fun h => ?_, fun h hb => ?_, fun hb => ?_⟩
  · have h1 : maxOf a t ≤ 255 := by
      rw [key]
      intro q hq
      obtain ⟨n, rfl, hn⟩ := h q hq
      exact_mod_cast hn
    rw [postRgb, if_pos h1, asType_whole (b := 8) h]
  · have h1 : ¬ maxOf a t ≤ 255 := by
      rw [key]
      intro h'
      obtain ⟨q, hq, hb⟩ := hb
      linarith [h' q hq]
    have h2 : maxOf a t ≤ 65536 := by
      rw [key]
      intro q hq
      obtain ⟨n, rfl, hn⟩ := h q hq
      have : n ≤ 65536 := by omega
      exact_mod_cast this
    rw [postRgb, if_neg h1, if_pos h2, asType_whole (b := 16) h]
  · have h2 : ∀ m : Rat, m ≤ 65536 → ¬ maxOf a t ≤ m := by
      intro m hm
      rw [key]
      intro h'
      obtain ⟨q, hq, hb⟩ := hb
      linarith [h' q hq]
    rw [postRgb, if_neg (h2 _ (by norm_num)), if_neg (h2 _ le_rfl)]

/-- C170: there is an error just for no data. -/
theorem C170_reads (neg : Rat → Rat) (l : List Rat) : (∃ r, postRgb neg l = .ok r) ↔ l ≠ [] := by
  cases l with
  | nil => simp [postRgb]
  | cons a l =>
    refine ⟨fun _ => by simp, fun _ => ?_⟩
    rw [postRgb]
    by_cases h1 : maxOf a l ≤ 255
    · exact ⟨_, if_pos h1⟩
    · by_cases h2 : maxOf a l ≤ 65536
      · exact ⟨_, by rw [if_neg h1, if_pos h2]⟩
      · exact ⟨_, by rw [if_neg h1, if_neg h2]⟩

/-- C170, binary images: a point is set just if its number is not zero. -/
theorem C170_binary (l : List Rat) : (postBinary l).length = l.length ∧
    ∀ i (h : i < l.length), (postBinary l)[i]? = some true ↔ l[i] ≠ 0 := by
  refine ⟨by simp [postBinary], fun i h => ?_⟩
  simp [postBinary, h]

example : Whole [0, 17, 255] 255 ∧ Whole [0, 300] 65535 ∧ (∃ q ∈ [(0 : Rat), 300], 255 < q) ∧
    postRgb (fun _ => 0) [0, 300] = .ok (.rgb16, [0, 300]) := by
  refine ⟨?_, ?_, ⟨300, by simp, by norm_num⟩, by decide +kernel⟩
  · simp only [Whole, List.forall_mem_cons]
    exact ⟨⟨0, by norm_num, by omega⟩, ⟨17, by norm_num, by omega⟩, ⟨255, by norm_num, by omega⟩, by simp⟩
  · simp only [Whole, List.forall_mem_cons]
    exact ⟨⟨0, by norm_num, by omega⟩, ⟨300, by norm_num, by omega⟩, by simp⟩

/-- The number 65536 is taken for one of 16 bits and becomes 0. -/
theorem C170_fails_limit (neg : Rat → Rat) : postRgb neg [65536, 1] = .ok (.rgb16, [0, 1]) := by
  simp [postRgb, maxOf, asType]
  norm_num

/-- Negative numbers are converted without a look at them. -/
theorem C170_fails_negative (neg : Rat → Rat) (q : Rat) (h : q < 0) : postRgb neg [q] = .ok (.rgb8, [neg q]) := by
  have : q ≤ 255 := by linarith
  simp [postRgb, maxOf, asType, h, this]

/-- Fractions are lost. -/
theorem C170_fails_fraction : postRgb id [1 / 2] = .ok (.rgb8, [0]) := by decide +kernel

/-- An image of 16 bits without values above 255 becomes one of 8 bits, and its brightest values the brightest of all. -/
theorem C170_fails_dark (neg : Rat → Rat) : ∃ l, Whole l 65535 ∧ postRgb neg l = .ok (.rgb8, l) :=
  ⟨[255], by simpa [Whole] using ⟨255, by norm_num, by omega⟩,
    (C170_colours_partial neg [255] (by simp)).1 (by simpa [Whole] using ⟨255, by norm_num, le_rfl⟩)⟩

end Verif.Props.DigitalsurfPost
