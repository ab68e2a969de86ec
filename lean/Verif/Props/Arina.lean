import Verif.Model.Arina
import Mathlib.Algebra.BigOperators.Group.Finset.Basic
import Mathlib.Tactic.Ring
import Mathlib.Tactic.NormNum
import Mathlib.Tactic.FieldSimp
/-!
C102: 4D-STEM data of Arina detectors keep every count at its scan position and detector pixel.
-/
namespace Verif.Props.Arina
open Verif.Arina

/-- `x × y` is the scan the user asked for. -/
def Fits (nav : Nav) (n x y : Nat) : Prop :=
  x * y = n ∧ match nav with
    | .none => x = y
    | .scalar k => x = k ∧ 0 < k
    | .pair (.n a) (.n b) => x = a ∧ y = b
    | .pair .auto (.n b) => y = b ∧ 0 < b
    | .pair (.n a) .auto => x = a ∧ 0 < a
    | .pair .auto .auto => False

/-- C102, scan shape. The scan has the given shape, or is square without one; missing lengths follow
from the number of frames; nothing else is accepted. -/
theorem C102_scan (n : Nat) (nav : Nav) (x y : Nat) :
    navShape n nav = .ok (x, y) ↔ Fits nav n x y := by
  have fin : ∀ a b : Nat, (if n ≠ a * b then (.error .valueError : Py (Nat × Nat)) else .ok (a, b)) =
      .ok (x, y) ↔ x * y = n ∧ x = a ∧ y = b := by
    intro a b
    by_cases h : n = a * b
    · rw [if_neg (by simpa using h)]
      constructor
      · intro e
        cases e
        exact ⟨h.symm, rfl, rfl⟩
      · rintro ⟨_, rfl, rfl⟩
        rfl
    · rw [if_pos h]
      constructor
      · intro e
        cases e
      · rintro ⟨e, rfl, rfl⟩
        exact absurd e.symm h
  have hx : ∀ k : Nat, checkNav n (if k = 0 then .error .zeroDivision else .ok (k, n / k)) =
      .ok (x, y) ↔ x * y = n ∧ x = k ∧ 0 < k := by
    intro k
    by_cases hk : k = 0
    · rw [if_pos hk]
      exact ⟨fun e => (by cases e), fun e => by omega⟩
    · rw [if_neg hk]
      show (if n ≠ k * (n / k) then _ else _) = _ ↔ _
      rw [fin]
      constructor
      · rintro ⟨h1, h2, _⟩
        exact ⟨h1, h2, by omega⟩
      · rintro ⟨h1, rfl, h3⟩
        exact ⟨h1, rfl, by rw [← h1, Nat.mul_div_cancel_left _ h3]⟩
  have hy : ∀ k : Nat, checkNav n (if k = 0 then .error .zeroDivision else .ok (n / k, k)) =
      .ok (x, y) ↔ x * y = n ∧ y = k ∧ 0 < k := by
    intro k
    by_cases hk : k = 0
    · rw [if_pos hk]
      exact ⟨fun e => (by cases e), fun e => by omega⟩
    · rw [if_neg hk]
      show (if n ≠ n / k * k then _ else _) = _ ↔ _
      rw [fin]
      constructor
      · rintro ⟨h1, _, h2⟩
        exact ⟨h1, h2, by omega⟩
      · rintro ⟨h1, rfl, h3⟩
        exact ⟨h1, by rw [← h1, Nat.mul_div_cancel _ h3], rfl⟩
  cases nav with
  | none =>
    show (if n ≠ n.sqrt * n.sqrt then _ else _) = _ ↔ _
    rw [fin]
    constructor
    · rintro ⟨h1, h2, h3⟩
      exact ⟨h1, h2.trans h3.symm⟩
    · rintro ⟨h1, h2⟩
      dsimp only at h2
      subst h2
      rw [← h1, Nat.sqrt_eq]
      exact ⟨rfl, rfl, rfl⟩
  | scalar k => exact hx k
  | pair a b =>
    cases a with
    | n a =>
      cases b with
      | n b => exact fin a b
      | auto => exact hx a
    | auto =>
      cases b with
      | n b => exact hy b
      | auto => simp [navShape, checkNav, Fits]

example : Fits (.pair .auto (.n 3)) 12 4 3 ∧ navShape 12 (.pair .auto (.n 3)) = .ok (4, 3) ∧
    navShape 13 (.pair .auto (.n 3)) = .error .valueError :=
  ⟨⟨rfl, rfl, by decide⟩, by decide, by decide⟩

private theorem px_build {h w : Nat} {g : Nat → Nat → ℚ} {r c : Nat} (hr : r < h) (hc : c < w) :
    px (build h w g) r c = g r c := by
  simp [px, build, hr, hc]

private theorem build_congr {h w : Nat} {g g' : Nat → Nat → ℚ}
    (H : ∀ r < h, ∀ c < w, g r c = g' r c) : build h w g = build h w g' := by
  unfold build
  rw [List.map_inj_left]
  intro r hr
  rw [List.map_inj_left]
  intro c hc
  exact H r (List.mem_range.1 hr) c (List.mem_range.1 hc)

/-- The correction factor of a detector pixel. -/
def gain (flat : Option (ℚ × Frame)) (r c : Nat) : ℚ :=
  match flat with
  | none => 1
  | some (med, ff) => if (ff.getD r []).getD c 0 = 0 then 1 else med / (ff.getD r []).getD c 0

/-- The mean of the corrected counts over a block of `b × b` detector pixels. -/
def blockMean (flat : Option (ℚ × Frame)) (b : Nat) (f : Frame) (r c : Nat) : ℚ :=
  (∑ i ∈ Finset.range b, ∑ j ∈ Finset.range b,
    (f.getD (r * b + i) []).getD (c * b + j) 0 * gain flat (r * b + i) (c * b + j)) / (b * b : ℚ)

/-- The counts can be represented: they are natural numbers below `2 ^ bits`, if the result is of an
integer type. -/
def Representable (dt : DType) (v : ℚ) : Prop :=
  ∀ bits, dt = .uint bits → ∃ m : Nat, m < 2 ^ bits ∧ v = m

private theorem cast_of {dt : DType} {v : ℚ} (h : Representable dt v) : Arina.cast dt v = v := by
  cases dt with
  | float => rfl
  | uint b =>
    obtain ⟨m, hm, rfl⟩ := h b rfl
    have : ((m : Int) % (2 ^ b : Int)) = m := Int.emod_eq_of_lt (by omega) (by exact_mod_cast hm)
    rw [Arina.cast, Int.floor_natCast, this]
    simp

private theorem sum_range (b : Nat) (g : Nat → ℚ) :
    ((List.range b).map g).sum = ∑ i ∈ Finset.range b, g i := by
  rfl

private theorem block_lt {n b r i : Nat} (hr : r < n / b) (hi : i < b) (hd : b ∣ n) : r * b + i < n := by
  calc r * b + i < r * b + b := by omega
    _ = (r + 1) * b := by ring
    _ ≤ n / b * b := Nat.mul_le_mul_right _ hr
    _ = n := Nat.div_mul_cancel hd

private theorem process_frame (d : Dataset) (flat : Option (ℚ × Frame)) (dt : DType) (n b : Nat)
    (f : Frame) (hh : d.height = n) (hw : d.width = n) (hb : 0 < b) (hd : b ∣ n)
    (hflat : flat ≠ none → dt = .float) (hdt : b = 1 ∨ dt = .float)
    (hv : ∀ r < n, ∀ c < n, Representable dt ((f.getD r []).getD c 0)) :
    processFrame d flat dt (n / b) (n / b) b f =
      .ok (build (n / b) (n / b) (blockMean flat b f)) := by
  have hcor : correct flat dt n n f = build n n fun r c => px f r c * gain flat r c := by
    unfold correct
    cases flat with
    | none =>
      exact build_congr fun r hr c hc => by
        show _ = px f r c * 1
        rw [mul_one]; exact cast_of (hv r hr c hc)
    | some q =>
      obtain ⟨med, ff⟩ := q
      rw [hflat (by simp)]
      rfl
  unfold processFrame
  rw [hh, hw, hcor]
  by_cases h1 : b = 1
  · subst h1
    rw [bin2D, if_pos rfl]
    simp only [if_true, Nat.div_one, and_self]
    congr 1
    apply build_congr
    intro r hr c hc
    rw [px_build hr hc]
    have e : px f r c * gain flat r c = blockMean flat 1 f r c := by
      simp [blockMean, px]
    rw [← e]
    by_cases hf : flat = none
    · subst hf
      show Arina.cast dt (px f r c * 1) = _ * 1
      rw [mul_one]
      exact cast_of (hv r hr c hc)
    · rw [hflat hf]
      rfl
  · have hfl : dt = .float := hdt.resolve_left h1
    have hs : ¬ (n / b * b * (n / b * b) ≠ n * n) := by
      rw [Nat.div_mul_cancel hd]; simp
    rw [bin2D, if_neg h1, if_neg hs]
    simp only [h1, if_false, and_self, if_true]
    congr 1
    apply build_congr
    intro r hr c hc
    rw [px_build hr hc, hfl]
    show blockSum _ b r c / _ = _
    rw [blockSum, blockMean, sum_range]
    congr 1
    apply Finset.sum_congr rfl
    intro i hi
    rw [sum_range]
    apply Finset.sum_congr rfl
    intro j hj
    rw [Finset.mem_range] at hi hj
    rw [px_build (block_lt hr hi hd) (block_lt hc hj hd)]
    rfl

private theorem mapM_ok {β γ : Type} {f : β → Py γ} {g : β → γ} : ∀ {l : List β},
    (∀ a ∈ l, f a = .ok (g a)) → l.mapM f = .ok (l.map g)
  | [], _ => rfl
  | a :: l, h => by
    rw [List.mapM_cons, h a (by simp), mapM_ok fun x hx => h x (by simp [hx])]
    rfl

private theorem process_ok (flat : Option (ℚ × Frame)) (dt : DType) (n b : Nat)
    (hb : 0 < b) (hd : b ∣ n) (hflat : flat ≠ none → dt = .float) (hdt : b = 1 ∨ dt = .float) :
    ∀ ds : List Dataset, (∀ d ∈ ds, d.height = n ∧ d.width = n ∧
      ∀ f ∈ d.frames, ∀ r < n, ∀ c < n, Representable dt ((f.getD r []).getD c 0)) →
    process flat dt (n / b) (n / b) b ds =
      .ok ((ds.flatMap Dataset.frames).map fun f => build (n / b) (n / b) (blockMean flat b f))
  | [], _ => rfl
  | d :: ds, h => by
    obtain ⟨h1, h2, h3⟩ := h d (by simp)
    rw [process, mapM_ok fun f hf => process_frame d flat dt n b f h1 h2 hb hd hflat hdt (h3 f hf),
      process_ok flat dt n b hb hd hflat hdt ds fun d hd => h d (by simp [hd])]
    simp

/-- The data type of the result: float with a flat field, the one asked for, or that of the file,
where 32 bits are reduced to 16. -/
def resultType (stored : DType) (dtype : Option DType) (flat : Option (ℚ × Frame)) : DType :=
  if flat ≠ none then .float else dtype.getD (if stored = .uint 32 then .uint 16 else stored)

/-- C102. `data[i, j, r, c]` is the count of the frame number `i * y + j`, all datasets taken
together, at row `r` and column `c` of the detector, multiplied by the correction factor of the
pixel; with binning, it is the mean over the block. The axes have the sizes of the data and the pixel
size of the companion file in ångströms.

The full claim has none of the hypotheses on the detector (`hsq`), the counts (`hv`), the binning
(`hdt`). Missing: detectors that are not square (`C102_fails_detector`), counts above 65535
(`C102_fails_counts`) and means of integers (`C102_fails_mean`). -/
theorem C102_frames_partial (ds : List Dataset) (last : Dataset) (nav : Nav) (b : Nat)
    (dtype : Option DType) (flat : Option (ℚ × Frame)) (ps : Option ℚ) (n x y : Nat)
    (hl : ds.getLast? = some last) (hb : 0 < b) (hd : b ∣ n)
    (hsq : ∀ d ∈ ds, d.height = n ∧ d.width = n)
    (hv : ∀ d ∈ ds, ∀ f ∈ d.frames, ∀ r < n, ∀ c < n,
      Representable (resultType last.dtype dtype flat) ((f.getD r []).getD c 0))
    (hdt : b = 1 ∨ resultType last.dtype dtype flat = .float)
    (hfit : Fits nav (ds.flatMap Dataset.frames).length x y) :
    ∃ res, read ds false nav b dtype flat ps = .ok res ∧ res.shape = (x, y, n / b, n / b) ∧
      res.dtype = resultType last.dtype dtype flat ∧
      (∀ i < x, ∀ j < y, ∀ r < n / b, ∀ c < n / b, ∃ f,
        (ds.flatMap Dataset.frames)[i * y + j]? = some f ∧
        res.at i j r c = blockMean flat b f r c) ∧
      res.axes.map (fun a => (a.name, a.size)) =
        [("x", x), ("y", y), ("qx", n / b), ("qy", n / b)] ∧
      res.axes.map (fun a => (a.scale, a.units)) =
        match ps with
        | none => [(1, "1"), (1, "1"), (1, "1"), (1, "1")]
        | some p => [(10 * p, "A"), (10 * p, "A"), (1, "1"), (1, "1")] := by
  have hdtype : dtypeOf last.dtype dtype flat = resultType last.dtype dtype flat := by
    unfold dtypeOf resultType
    cases flat <;> cases dtype <;> rfl
  have hmem : last ∈ ds := List.mem_of_getLast? hl
  have hn : (ds.map fun d => d.frames.length).sum = (ds.flatMap Dataset.frames).length := by
    rw [List.length_flatMap]
  have hp := process_ok flat (resultType last.dtype dtype flat) n b hb hd
    (fun h => by simp [resultType, h]) hdt ds fun d hd => ⟨(hsq d hd).1, (hsq d hd).2, hv d hd⟩
  have hread : read ds false nav b dtype flat ps = .ok ⟨(x, y, n / b, n / b),
      resultType last.dtype dtype flat,
      (ds.flatMap Dataset.frames).map fun f => build (n / b) (n / b) (blockMean flat b f),
      [⟨"x", (scanScale ps).1, (scanScale ps).2, x⟩, ⟨"y", (scanScale ps).1, (scanScale ps).2, y⟩,
        ⟨"qx", 1, "1", n / b⟩, ⟨"qy", 1, "1", n / b⟩]⟩ := by
    unfold Verif.Arina.read
    rw [hl]
    simp only [Bool.false_eq_true, if_false, show b ≠ 0 by omega]
    rw [hn, (C102_scan _ nav x y).2 hfit, (hsq last hmem).1, (hsq last hmem).2, hdtype]
    simp only []
    rw [hp]
  refine ⟨_, hread, rfl, rfl, ?_, rfl, ?_⟩
  · intro i hi j hj r hr c hc
    have hk : i * y + j < (ds.flatMap Dataset.frames).length := by
      rw [← hfit.1]
      calc i * y + j < i * y + y := by omega
        _ = (i + 1) * y := by ring
        _ ≤ x * y := Nat.mul_le_mul_right _ hi
    refine ⟨_, List.getElem?_eq_getElem hk, ?_⟩
    unfold Result.at
    dsimp only
    rw [List.getD_eq_getElem?_getD, List.getElem?_map, List.getElem?_eq_getElem hk, Option.map_some,
      Option.getD_some, px_build hr hc]
  · cases ps <;> simp [scanScale, mul_comm]

/-- Two datasets of two frames of 2 × 2 pixels. -/
def sample : List Dataset :=
  [⟨2, 2, .uint 32, [[[1, 2], [3, 4]], [[5, 6], [7, 8]]]⟩,
   ⟨2, 2, .uint 32, [[[9, 10], [11, 12]], [[13, 14], [15, 16]]]⟩]

example : ∃ res, read sample false (.scalar 2) 1 none none (some (1 / 5)) = .ok res ∧
    res.shape = (2, 2, 2, 2) ∧ res.dtype = .uint 16 ∧ res.at 1 0 1 1 = 12 ∧
    res.axes.map (fun a => (a.scale, a.units)) = [(2, "A"), (2, "A"), (1, "1"), (1, "1")] := by
  refine ⟨_, rfl, ?_, ?_, ?_, ?_⟩ <;> decide +kernel

/-- Lazy loading, and binning that does not fit, are rejected. -/
theorem C102_rejects (ds : List Dataset) (nav : Nav) (b : Nat) (dtype : Option DType)
    (flat : Option (ℚ × Frame)) (ps : Option ℚ) :
    read ds true nav b dtype flat ps = .error .notImplemented ∧
    (∀ d f fs, ds = [d] → d.frames = f :: fs → 0 < d.height → 0 < d.width → 1 < b →
      (¬ b ∣ d.height ∨ ¬ b ∣ d.width) →
      ∀ r, read ds false nav b dtype flat ps ≠ .ok r) := by
  refine ⟨rfl, ?_⟩
  rintro d f fs rfl hf hh hw hb hnd r hr
  have key : ∀ dt W H, processFrame d flat dt W H b f = .error .valueError := by
    intro dt W H
    have hs : d.height / b * b * (d.width / b * b) ≠ d.height * d.width := by
      have h1 := Nat.div_mul_le_self d.height b
      have h2 := Nat.div_mul_le_self d.width b
      rcases hnd with h | h
      · have : d.height / b * b ≠ d.height := fun e => h ⟨d.height / b, by rw [Nat.mul_comm]; exact e.symm⟩
        have : d.height / b * b < d.height := by omega
        have := Nat.mul_lt_mul_of_lt_of_le this h2 (by omega)
        omega
      · have : d.width / b * b ≠ d.width := fun e => h ⟨d.width / b, by rw [Nat.mul_comm]; exact e.symm⟩
        have : d.width / b * b < d.width := by omega
        have := Nat.mul_lt_mul_of_le_of_lt h1 this (by omega)
        omega
    rw [processFrame, bin2D, if_neg (by omega), if_pos hs]
  unfold Verif.Arina.read at hr
  rw [if_neg (by simp)] at hr
  simp only [List.getLast?_singleton, show b ≠ 0 by omega, if_false] at hr
  split at hr
  · cases hr
  rw [process, hf, List.mapM_cons, key] at hr
  simp only [bind, Except.bind] at hr
  cases hr

/-- No data of a detector that is not square can be loaded, since the array is made with exchanged
width and height. -/
theorem C102_fails_detector (d : Dataset) (f : Frame) (fs : List Frame) (nav : Nav)
    (dtype : Option DType) (flat : Option (ℚ × Frame)) (ps : Option ℚ)
    (hf : d.frames = f :: fs) (hne : d.height ≠ d.width) :
    ∀ r, read [d] false nav 1 dtype flat ps ≠ .ok r := by
  intro r hr
  unfold Verif.Arina.read at hr
  rw [if_neg (by simp)] at hr
  simp only [List.getLast?_singleton, Nat.one_ne_zero, if_false, Nat.div_one] at hr
  split at hr
  · cases hr
  have key : ∀ dt, processFrame d flat dt d.width d.height 1 f = .error .valueError := by
    intro dt
    rw [processFrame, bin2D, if_pos rfl]
    simp [hne]
  rw [process, hf, List.mapM_cons, key] at hr
  simp only [bind, Except.bind] at hr
  cases hr

/-- A count of 65536 in a file of 32-bit integers becomes 0. -/
theorem C102_fails_counts : ∃ res,
    read [⟨1, 1, .uint 32, [[[65536]]]⟩] false (.scalar 1) 1 none none none = .ok res ∧
    res.at 0 0 0 0 = 0 := by
  refine ⟨_, rfl, ?_⟩
  decide +kernel

/-- Binning keeps the integer type: the mean 3/4 of the block 0, 1, 1, 1 becomes 0. -/
theorem C102_fails_mean : ∃ res,
    read [⟨2, 2, .uint 16, [[[0, 1], [1, 1]]]⟩] false (.scalar 1) 2 none none none = .ok res ∧
    res.at 0 0 0 0 = 0 := by
  refine ⟨_, rfl, ?_⟩
  decide +kernel

end Verif.Props.Arina
