import Verif.Model.QuantumDetector
/-!
C37-C39: Merlin (Quantum Detectors) files.
-/
namespace Verif.Props.QuantumDetector
open Verif Verif.QuantumDetector

theorem clampIndex_le (n : Nat) (i : Int) : clampIndex n i ≤ n := by
  unfold clampIndex
  split <;> omega

theorem range_le (n : Nat) (first last : Option Int) :
    (frameRange n first last).1 ≤ n ∧ (frameRange n first last).2 ≤ n := by
  unfold frameRange
  constructor
  · cases first with
    | none => simp
    | some i => simpa using clampIndex_le n i
  · cases last with
    | none => simp
    | some i => simpa using clampIndex_le n i

theorem prod_append : ∀ a b : List Int, prod (a ++ b) = prod a * prod b
  | [], b => by simp [prod]
  | x :: a, b => by simp only [List.cons_append, prod, prod_append a b, Int.mul_assoc]

theorem prod_reverse : ∀ a : List Int, prod a.reverse = prod a
  | [] => rfl
  | x :: a => by rw [List.reverse_cons, prod_append, prod_reverse a, prod, prod, prod, Int.mul_one,
      Int.mul_comm]

/-- Line length of a navigation shape: must not be zero or negative. -/
def Positive (nav : Option (List Int)) : Prop := ∀ s ∈ nav, ∀ n ∈ s, 0 < n

theorem prod_nonneg : ∀ {s : List Int}, (∀ n ∈ s, 0 < n) → 0 < prod s
  | [], _ => by simp [prod]
  | n :: s, h => by
    have := h n (List.mem_cons_self ..)
    have h2 := prod_nonneg (fun m hm => h m (List.mem_cons_of_mem _ hm))
    exact Int.mul_pos this h2

/-! ### C37 -/

/-- C37, proved part: for every number of frames, shape and range, the frames asked for lie inside the
file. -/
theorem C37_inside_file (n : Nat) (nav : Option (List Int)) (first last : Option Int)
    (hnav : Positive nav) (hr : (frameRange n first last).1 ≤ (frameRange n first last).2) :
    0 ≤ prod (navShape n nav (frameRange n first last).1 (frameRange n first last).2) ∧
    ((frameRange n first last).1 : Int) +
      prod (navShape n nav (frameRange n first last).1 (frameRange n first last).2) ≤ n := by
  obtain ⟨h1, h2⟩ := range_le n first last
  generalize (frameRange n first last).1 = a at *
  generalize (frameRange n first last).2 = b at *
  unfold navShape
  dsimp only
  cases nav with
  | none => simp only [prod]; omega
  | some shape =>
    dsimp only
    have hp := prod_nonneg (hnav shape rfl)
    split
    · split
      · rename_i h
        have ha : a = 0 := h.1
        subst ha
        have hh : 0 < shape.headD 0 := by
          cases shape with
          | nil => simp at h
          | cons m s => exact hnav _ rfl m (List.mem_cons_self ..)
        simp only [prod, Int.mul_one]
        have := Int.ediv_mul_le (n : Int) (show shape.headD 0 ≠ 0 by omega)
        have h3 : 0 ≤ (n : Int) / shape.headD 0 := Int.ediv_nonneg (by omega) (by omega)
        exact ⟨Int.mul_nonneg h3 (by omega), by omega⟩
      · simp only [prod]; omega
    · split
      · simp only [prod]; omega
      · rw [prod_reverse]; omega

/-- C37, partial: they also lie inside the requested range, unless an interrupted acquisition is read
from its first frame on with several navigation dimensions and a last frame. -/
theorem C37_inside_range_partial (n : Nat) (nav : Option (List Int)) (first last : Option Int)
    (hr : (frameRange n first last).1 ≤ (frameRange n first last).2)
    (hnav : Positive nav)
    (h : (frameRange n first last).2 = n ∨ (frameRange n first last).1 ≠ 0 ∨
      ∀ s ∈ nav, prod s ≤ n ∨ s.length ≤ 1) :
    ((frameRange n first last).1 : Int) +
      prod (navShape n nav (frameRange n first last).1 (frameRange n first last).2) ≤
      (frameRange n first last).2 := by
  have hin := (C37_inside_file n nav first last hnav hr).2
  rcases h with h | h
  · omega
  · generalize (frameRange n first last).1 = a at *
    generalize (frameRange n first last).2 = b at *
    unfold navShape
    dsimp only
    cases nav with
    | none => simp only [prod]; omega
    | some shape =>
      dsimp only
      split
      · rename_i hbig
        rw [if_neg]
        · simp only [prod]; omega
        · rintro ⟨h1, h2⟩
          rcases h with h | h
          · exact h h1
          · rcases h shape rfl with h | h <;> omega
      · split
        · simp only [prod]; omega
        · rw [prod_reverse]; omega

/-- C37: an interrupted acquisition read from the start gives the complete lines, and all of them. -/
theorem C37_interrupted (n : Nat) (line : Int) (s : List Int) (hs : s ≠ [])
    (h : prod (line :: s) > n) (b : Nat) (hl : 0 < line) :
    ∃ lines, navShape n (some (line :: s)) 0 b = [lines, line] ∧ lines * line ≤ n ∧
      n < (lines + 1) * line := by
  have hlen : (line :: s).length > 1 := by
    have := List.length_pos_iff.2 hs
    simp; omega
  refine ⟨(n : Int) / line, ?_, Int.ediv_mul_le _ (by omega), ?_⟩
  · unfold navShape
    dsimp only
    rw [if_pos h, if_pos ⟨rfl, hlen⟩]
    rfl
  · exact Int.lt_ediv_add_one_mul_self _ hl

/-- C37: if the range has at least as many frames as the shape and the shape fits the file, the shape
is used (in array order); if the range has fewer frames, they are returned as a line. -/
theorem C37_shape (n : Nat) (shape : List Int) (a b : Nat) (h : prod shape ≤ n) :
    (prod shape ≤ (b : Int) - a → navShape n (some shape) a b = shape.reverse) ∧
    ((b : Int) - a < prod shape → navShape n (some shape) a b = [(b : Int) - a]) := by
  unfold navShape
  dsimp only
  rw [if_neg (by omega)]
  exact ⟨fun h => if_neg (by omega), fun h => if_pos h⟩

/-- A complete scan of 3 × 2 points. -/
example : navShape 6 (some [3, 2]) 0 6 = [2, 3] := by decide

example : navShape 10 (some [4, 4]) 0 10 = [2, 4] := by decide

/-- With `last_frame=3` of an interrupted acquisition more frames are loaded than asked for. -/
theorem C37_fails_interrupted_range :
    frameRange 10 none (some 3) = (0, 3) ∧ prod (navShape 10 (some [4, 4]) 0 3) = 8 := by decide

/-- An empty range (first after last) is an error instead of no frames. -/
theorem C37_fails_reversed_range :
    loadFile 2 none (some 3) (some 1) [1, 2, 3, 4, 5, 6, 7, 8] = .error .valueError := by decide

/-! ### C38 -/

/-- C38, partial: loading from memory equals loading from disk if the range starts with the first
frame. Missing: other ranges and detectors of four chips. -/
theorem C38_buffer_partial (recSize : Nat) (nav : Option (List Int)) (first last : Option Int)
    (f : List UInt8) (h : (frameRange (f.length / recSize) first last).1 = 0) :
    loadBuffer false recSize nav first last f = loadFile recSize nav first last f := by
  unfold loadBuffer loadFile
  dsimp only
  rw [h]
  rfl

/-- C38: what is loaded from a file are the frames of the range. -/
theorem C38_file_frames (recSize : Nat) (first last : Option Int) (f : List UInt8)
    (hr : (frameRange (f.length / recSize) first last).1 ≤
      (frameRange (f.length / recSize) first last).2) :
    loadFile recSize none first last f =
      .ok ((List.range ((frameRange (f.length / recSize) first last).2 -
        (frameRange (f.length / recSize) first last).1)).map fun j =>
          frame recSize f ((frameRange (f.length / recSize) first last).1 + j)) := by
  have h2 := (range_le (f.length / recSize) first last).2
  unfold loadFile
  dsimp only
  generalize (frameRange (f.length / recSize) first last).1 = a at *
  generalize (frameRange (f.length / recSize) first last).2 = b at *
  unfold frames navShape
  have e : (prod [(b : Int) - a]).toNat = b - a := by simp only [prod]; omega
  dsimp only
  rw [e, if_neg (by simp; omega), if_neg]
  have : (a + (b - a)) * recSize ≤ f.length / recSize * recSize :=
    Nat.mul_le_mul_right _ (by omega)
  have := Nat.div_mul_le_self f.length recSize
  omega

/-- Frame `k` of `n` is not before `first`, not after the frames up to `last` in the sense of Python
slices: negative numbers count from the end. -/
def selected (n : Nat) (first last : Option Int) (k : Nat) : Bool :=
  (first.all fun i => decide (if 0 ≤ i then i ≤ (k : Int) else n + i ≤ (k : Int))) &&
    last.all fun i => decide (if 0 ≤ i then (k : Int) < i else (k : Int) < n + i)

theorem filter_range (n a b : Nat) (hb : b ≤ n) (p : Nat → Bool)
    (h : ∀ k < n, p k = decide (a ≤ k ∧ k < b)) :
    (List.range n).filter p = (List.range (b - a)).map fun j => a + j := by
  have h1 : (List.range n).filter p = (List.range n).filter fun k => decide (a ≤ k ∧ k < b) := by
    apply List.filter_congr
    intro k hk
    exact h k (List.mem_range.1 hk)
  rw [h1]
  clear h1 h
  induction n with
  | zero =>
    have : b - a = 0 := by omega
    simp [this]
  | succ n ih =>
    rw [List.range_succ, List.filter_append]
    by_cases hbn : b ≤ n
    · rw [ih hbn]
      have : ¬ (a ≤ n ∧ n < b) := by omega
      simp [this]
    · have hb' : b = n + 1 := by omega
      subst hb'
      by_cases han : a ≤ n
      · have e : (List.range n).filter (fun k => decide (a ≤ k ∧ k < n + 1)) =
            (List.range n).filter (fun k => decide (a ≤ k ∧ k < n)) := by
          apply List.filter_congr
          intro k hk
          have := List.mem_range.1 hk
          rw [decide_eq_decide]; omega
        rw [e]
        have key : ∀ n, (List.range n).filter (fun k => decide (a ≤ k ∧ k < n)) =
            (List.range (n - a)).map fun j => a + j := by
          intro n
          induction n with
          | zero => simp
          | succ n ih2 =>
            rw [List.range_succ, List.filter_append]
            have e : (List.range n).filter (fun k => decide (a ≤ k ∧ k < n + 1)) =
                (List.range n).filter (fun k => decide (a ≤ k ∧ k < n)) := by
              apply List.filter_congr
              intro k hk
              have := List.mem_range.1 hk
              rw [decide_eq_decide]; omega
            rw [e, ih2]
            by_cases h : a ≤ n
            · rw [show n + 1 - a = (n - a) + 1 by omega, List.range_succ, List.map_append]
              simp [h]
            · rw [show n + 1 - a = 0 by omega, show n - a = 0 by omega]
              simp [h]
        rw [key, show n + 1 - a = (n - a) + 1 by omega, List.range_succ, List.map_append]
        simp [han]
      · rw [show n + 1 - a = 0 by omega]
        have : ∀ k, k ≤ n → ¬ (a ≤ k ∧ k < n + 1) := by omega
        rw [List.filter_eq_nil_iff.2]
        · simp [han]
        · intro k hk
          have := List.mem_range.1 hk
          simp; omega

theorem selected_iff (n : Nat) (first last : Option Int) (k : Nat) (hk : k < n) :
    selected n first last k =
      decide ((frameRange n first last).1 ≤ k ∧ k < (frameRange n first last).2) := by
  have h1 : ∀ i : Int, (if 0 ≤ i then i ≤ (k : Int) else n + i ≤ (k : Int)) ↔ clampIndex n i ≤ k := by
    intro i
    unfold clampIndex
    split <;> split <;> omega
  have h2 : ∀ i : Int, (if 0 ≤ i then (k : Int) < i else (k : Int) < n + i) ↔ k < clampIndex n i := by
    intro i
    unfold clampIndex
    split <;> split <;> omega
  unfold selected frameRange
  rw [Bool.eq_iff_iff]
  cases first <;> cases last <;> simp [h1, h2, hk]

/-- C38: what is loaded from a file are the frames of the Python slice, in order. Only a range that
ends before it begins (which selects no frame) is an error. -/
theorem C38_slice (recSize : Nat) (first last : Option Int) (f : List UInt8) :
    loadFile recSize none first last f =
      .ok (((List.range (f.length / recSize)).filter (selected (f.length / recSize) first last)).map
        (frame recSize f)) ∨
    loadFile recSize none first last f = .error .valueError ∧
      (List.range (f.length / recSize)).filter (selected (f.length / recSize) first last) = [] := by
  have hsel : ∀ k < f.length / recSize, selected (f.length / recSize) first last k =
      decide ((frameRange (f.length / recSize) first last).1 ≤ k ∧
        k < (frameRange (f.length / recSize) first last).2) := by
    intro k hk
    exact selected_iff _ first last k hk
  have h2 := (range_le (f.length / recSize) first last).2
  have hf := filter_range (f.length / recSize) _ _ h2 _ hsel
  by_cases hr : (frameRange (f.length / recSize) first last).1 ≤
      (frameRange (f.length / recSize) first last).2
  · left
    rw [C38_file_frames recSize first last f hr, hf, List.map_map]
    rfl
  · right
    constructor
    · unfold loadFile
      dsimp only
      generalize (frameRange (f.length / recSize) first last).1 = a at *
      generalize (frameRange (f.length / recSize) first last).2 = b at *
      unfold frames navShape
      dsimp only
      rw [if_pos (by simp; omega)]
    · rw [hf, Nat.sub_eq_zero_of_le (by omega)]
      rfl

/-- The last but one frame of four. -/
example : (List.range 4).filter (selected 4 (some (-2)) (some (-1))) = [2] := by decide

/-- From the second frame on: the first frames are loaded from a buffer. -/
theorem C38_fails_first_frame :
    loadFile 2 none (some 1) none [1, 2, 3, 4, 5, 6, 7, 8] = .ok [[3, 4], [5, 6], [7, 8]] ∧
    loadBuffer false 2 none (some 1) none [1, 2, 3, 4, 5, 6, 7, 8] =
      .ok [[1, 2], [3, 4], [5, 6]] := by decide

/-- Data of four chips cannot be loaded from a buffer. -/
theorem C38_fails_quad (recSize : Nat) (nav : Option (List Int)) (first last : Option Int)
    (f : List UInt8) : loadBuffer true recSize nav first last f = .error .typeError := rfl

/-! ### C39 -/

/-- C39, partial: the first `max_index` entries, in order. Missing: `max_index=-1`. -/
theorem C39_first_partial {α β : Type} (parse : α → β) (headers : List α) (m : Nat) :
    parseHeaders parse headers m = (headers.take m).map parse := by
  unfold parseHeaders takeSlice
  dsimp only
  congr 1
  split
  · rw [if_pos (by omega)]
    by_cases h : m ≤ headers.length
    · rw [show (min (m : Int) headers.length).toNat = m by omega]
    · rw [show (min (m : Int) headers.length).toNat = headers.length by omega,
        List.take_length, List.take_of_length_le (by omega)]
  · rw [if_pos (by omega), Int.toNat_natCast]

/-- With -1 the last header is left out, always. -/
theorem C39_fails_all {α β : Type} (parse : α → β) (headers : List α) :
    parseHeaders parse headers (-1) = (headers.dropLast).map parse := by
  unfold parseHeaders takeSlice
  dsimp only
  rw [if_neg (by omega), if_neg (by omega), List.dropLast_eq_take]
  rfl

/-- All headers are not parsed, of any non-empty list. -/
theorem C39_fails_count {α β : Type} (parse : α → β) (headers : List α) (h : headers ≠ []) :
    (parseHeaders parse headers (-1)).length ≠ headers.length := by
  have := List.length_pos_iff.2 h
  rw [C39_fails_all, List.length_map, List.length_dropLast]
  omega

end Verif.Props.QuantumDetector
