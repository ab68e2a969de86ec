import Verif.Model.ImageFile
import Mathlib.Tactic.Ring
import Mathlib.Tactic.NormNum
import Mathlib.Tactic.IntervalCases
/-!
C101: images keep their pixels, their colours and their calibration.
-/
namespace Verif.Props.ImageFile
open Verif.ImageFile Verif.Rgb

/-- All colour channels of all pixels are equal. -/
def Grey (n k : Nat) (flat : List Nat) : Prop :=
  ∀ p < n, flat[p * k]? = flat[p * k + 1]? ∧ flat[p * k + 1]? = flat[p * k + 2]?

private theorem bound {p n k c : Nat} (hp : p < n) (hc : c < k) : p * k + c < n * k := by
  calc p * k + c < p * k + k := by omega
    _ = (p + 1) * k := by ring
    _ ≤ n * k := Nat.mul_le_mul_right _ hp

private theorem getD_of {l : List Nat} {i : Nat} (h : i < l.length) : l.getD i 0 = l[i] := by
  simp [h]

private theorem chan_flat (flat : List Nat) (n k c : Nat) (hl : flat.length = n * k) (hc : c < k) :
    ((List.range n).flatMap fun p => (flat.drop ((p * k + c) * 1)).take 1) =
      (List.range n).map fun p => flat.getD (p * k + c) 0 := by
  rw [List.map_eq_flatMap, List.flatMap, List.flatMap]
  congr 1
  rw [List.map_inj_left]
  intro p hp
  rw [List.mem_range] at hp
  have hb : p * k + c < flat.length := by rw [hl]; exact bound hp hc
  rw [Nat.mul_one, List.drop_eq_getElem_cons hb, List.take_succ_cons, List.take_zero,
    getD_of hb]

private theorem chan_ok (dt : Scalar) (h w k c : Nat) (flat : List Nat)
    (hl : flat.length = h * w * k) (hc : c < k) :
    chan ⟨dt, [h, w, k], flat⟩ c =
      .ok ⟨dt, [h, w], (List.range (h * w)).map fun p => flat.getD (p * k + c) 0⟩ := by
  rw [chan]
  simp only [hc, if_true, List.foldr]
  rw [chan_flat flat (h * w) k c hl hc]

private theorem chans_eq (n k a b : Nat) (flat : List Nat) (hl : flat.length = n * k) (ha : a < k)
    (hb : b < k) :
    ((List.range n).map fun p => flat.getD (p * k + a) 0) =
      ((List.range n).map fun p => flat.getD (p * k + b) 0) ↔
    ∀ p < n, flat[p * k + a]? = flat[p * k + b]? := by
  rw [List.map_inj_left]
  constructor
  · intro h p hp
    have := h p (List.mem_range.2 hp)
    have h1 : p * k + a < flat.length := by rw [hl]; exact bound hp ha
    have h2 : p * k + b < flat.length := by rw [hl]; exact bound hp hb
    rw [getD_of h1, getD_of h2] at this
    rw [List.getElem?_eq_getElem h1, List.getElem?_eq_getElem h2, this]
  · intro h p hp
    rw [List.getD_eq_getElem?_getD, List.getD_eq_getElem?_getD, h p (List.mem_range.1 hp)]

private theorem squeeze_id {dt : Scalar} {h w k : Nat} {flat : List Nat} (hh : h ≠ 1) (hw : w ≠ 1)
    (hk : k ≠ 1) : squeeze ⟨dt, [h, w, k], flat⟩ = ⟨dt, [h, w, k], flat⟩ := by
  simp [squeeze, hh, hw, hk]

private theorem read_eq (dt : Scalar) (h w k : Nat) (flat : List Nat) (hh : h ≠ 1) (hw : w ≠ 1)
    (hk : k = 3 ∨ k = 4) (hl : flat.length = h * w * k) :
    readData ⟨dt, [h, w, k], flat⟩ =
      if ∀ p < h * w, flat[p * k + 1]? = flat[p * k + 2]? then
        .ok (.reg ⟨dt, [h, w], (List.range (h * w)).map fun p => flat.getD (p * k + 0) 0⟩)
      else (regular2rgbx false ⟨dt, [h, w, k], flat⟩).map .rgb := by
  unfold readData
  rw [squeeze_id hh hw (by omega)]
  simp only [List.length_cons, List.length_nil, gt_iff_lt, Nat.reduceAdd, Nat.lt_add_one, if_true]
  rw [chan_ok dt h w k 1 flat hl (by omega), chan_ok dt h w k 2 flat hl (by omega),
    chan_ok dt h w k 0 flat hl (by omega)]
  simp only [bind, Except.bind, pure, Except.pure, and_self]
  have e := chans_eq (h * w) k 1 2 flat hl (by omega) (by omega)
  by_cases hg : ∀ p < h * w, flat[p * k + 1]? = flat[p * k + 2]?
  · rw [if_pos hg, if_pos (e.2 hg)]
  · rw [if_neg hg, if_neg (fun q => hg (e.1 q))]
    cases regular2rgbx false ⟨dt, [h, w, k], flat⟩ <;> rfl

private theorem groups_get (k n : Nat) (flat : List Nat) (hl : flat.length = n * k) (p : Nat)
    (hp : p < n) : ∃ l, (groups k n flat)[p]? = some l ∧ l.length = k ∧
      ∀ c < k, l[c]? = flat[p * k + c]? := by
  refine ⟨(flat.drop (p * k)).take k, by simp [groups, hp], ?_, fun c hc => ?_⟩
  · have : p * k + k ≤ n * k := by
      calc p * k + k = (p + 1) * k := by ring
        _ ≤ n * k := Nat.mul_le_mul_right _ hp
    simp only [List.length_take, List.length_drop]
    omega
  · rw [List.getElem?_take, if_pos hc, List.getElem?_drop]

/-- C101, colours. An image whose colour channels are all equal is loaded as a greyscale image with
these values. An image where green and blue differ somewhere is loaded with all its channels.

The full claim is the second one for all images whose colour channels differ somewhere. Missing:
images where only the red channel differs (`C101_fails_red`). The alpha channel of greyscale images
is lost (`C101_fails_alpha`); images with one row or column, greyscale images with an alpha channel
and animations are in `C101_fails_thin`, `C101_fails_la`, `C101_fails_frames`. -/
theorem C101_colours_partial (dt : Scalar) (h w k : Nat) (flat : List Nat) (hh : h ≠ 1) (hw : w ≠ 1)
    (hk : k = 3 ∨ k = 4) (hl : flat.length = h * w * k) :
    (Grey (h * w) k flat → ∃ g, readData ⟨dt, [h, w, k], flat⟩ = .ok (.reg ⟨dt, [h, w], g⟩) ∧
      g.length = h * w ∧ ∀ p < h * w, ∀ c < 3, g[p]? = flat[p * k + c]?) ∧
    ((∃ p < h * w, flat[p * k + 1]? ≠ flat[p * k + 2]?) → dt ≠ .other →
      ∃ px, readData ⟨dt, [h, w, k], flat⟩ = .ok (.rgb ⟨dt = .u2, k = 4, [h, w], px⟩) ∧
        px.length = h * w ∧ ∀ p < h * w, ∃ l, px[p]? = some l ∧ l.length = k ∧
          ∀ c < k, l[c]? = flat[p * k + c]?) := by
  constructor
  · intro hg
    refine ⟨_, by rw [read_eq dt h w k flat hh hw hk hl, if_pos fun p hp => (hg p hp).2], by simp, ?_⟩
    intro p hp c hc
    have hb : p * k + 0 < flat.length := by rw [hl]; exact bound hp (by omega)
    rw [List.getElem?_map, List.getElem?_range hp, Option.map_some, getD_of hb,
      ← List.getElem?_eq_getElem hb]
    interval_cases c
    · rfl
    · exact (hg p hp).1
    · exact (hg p hp).1.trans (hg p hp).2
  · rintro ⟨p, hp, hne⟩ hdt
    refine ⟨groups k (h * w) flat, ?_, by simp [groups], fun q hq =>
      groups_get k (h * w) flat hl q hq⟩
    rw [read_eq dt h w k flat hh hw hk hl, if_neg fun q => hne (q p hp), regular2rgbx]
    have hk' : ¬ (k ≠ 3 ∧ k ≠ 4) := by omega
    cases dt <;> simp [hk', Except.map] at hdt ⊢

/-- A 2 × 2 image with one blue pixel; the same without it. -/
example : readData ⟨.u1, [2, 2, 3], [1, 1, 1, 2, 2, 2, 3, 3, 3, 0, 0, 9]⟩ =
      .ok (.rgb ⟨false, false, [2, 2], [[1, 1, 1], [2, 2, 2], [3, 3, 3], [0, 0, 9]]⟩) ∧
    Grey 4 3 [1, 1, 1, 2, 2, 2, 3, 3, 3, 9, 9, 9] ∧
    readData ⟨.u1, [2, 2, 3], [1, 1, 1, 2, 2, 2, 3, 3, 3, 9, 9, 9]⟩ =
      .ok (.reg ⟨.u1, [2, 2], [1, 2, 3, 9]⟩) :=
  ⟨by decide, by unfold Grey; decide, by decide⟩

/-- C101, axes. For a two-dimensional array: `y` along the first and `x` along the second dimension,
with the fields of view and the origins of the EXIF tags (x first), or one pixel and zero without
them. Reading a greyscale image returns it as it is, with these axes. -/
theorem C101_axes (dt : Scalar) (h w : Nat) (flat : List Nat) (exif : Option Exif) (u : Option String)
    (hh : h ≠ 1) (hw : w ≠ 1) (hh0 : h ≠ 0) (hw0 : w ≠ 0)
    (hu : (exif = none ∧ u = none) ∨ ∃ e, exif = some e ∧ (e.unit, u) ∈
      [(none, none), (some 1, none), (some 2, some "inches"), (some 3, some "cm"), (some 4, some "mm"),
        (some 5, some "µm")]) :
    ∃ ax ay, read ⟨dt, [h, w], flat⟩ exif false = .ok (.reg ⟨dt, [h, w], flat⟩, [ay, ax]) ∧
      ay.name = "y" ∧ ax.name = "x" ∧ ay.size = h ∧ ax.size = w ∧ ay.units = u ∧ ax.units = u ∧
      ax.scale * w = ((exif.bind Exif.xRes).getD w) ∧ ay.scale * h = ((exif.bind Exif.yRes).getD h) ∧
      (ax.offset, ay.offset) = (exif.bind Exif.origins).getD (0, 0) := by
  have hq : (h : ℚ) ≠ 0 := by exact_mod_cast hh0
  have wq : (w : ℚ) ≠ 0 := by exact_mod_cast hw0
  have e1 : readData ⟨dt, [h, w], flat⟩ = .ok (.reg ⟨dt, [h, w], flat⟩) := by
    simp [readData, squeeze, hh, hw, pure, Except.pure]
  have e2 : ∀ r, parseAxes exif [h, w] = .ok r →
      read ⟨dt, [h, w], flat⟩ exif false = .ok (.reg ⟨dt, [h, w], flat⟩, r) := by
    intro r hr
    unfold Verif.ImageFile.read
    simp only [Bool.false_eq_true, if_false, bind, Except.bind, e1, shapeOf, hr]
    rfl
  have hne : ¬ (h = 0 ∨ w = 0) := by omega
  rcases hu with ⟨rfl, rfl⟩ | ⟨e, rfl, hm⟩
  · refine ⟨_, _, e2 [_, _] (by rw [parseAxes]; dsimp only; rw [if_neg hne]), rfl, rfl, rfl, rfl, rfl,
      rfl, ?_, ?_, rfl⟩
    · simp [wq]
    · simp [hq]
  · have hu : unitOf e.unit = .ok u := by
      simp only [List.mem_cons, Prod.mk.injEq, List.not_mem_nil, or_false] at hm
      rcases hm with h | h | h | h | h | h <;> rw [h.1, h.2] <;> rfl
    refine ⟨_, _, e2 [_, _] (by
      rw [parseAxes]; simp only [hu, Except.map]; rw [if_neg hne]), rfl, rfl, rfl, rfl, rfl,
      rfl, ?_, ?_, rfl⟩
    · simp [wq]
    · simp [hq]

/-- An image of 480 by 752 pixels with fields of view. -/
example : ∃ ax ay, read ⟨.u1, [480, 752], []⟩ (some ⟨some (10, -20), some 376, some 960, some 5⟩)
      false = .ok (.reg ⟨.u1, [480, 752], []⟩, [ay, ax]) ∧
    ax.scale = 1 / 2 ∧ ay.scale = 2 ∧ ax.offset = 10 ∧ ay.offset = -20 ∧ ax.units = some "µm" :=
  ⟨_, _, rfl, by norm_num, by norm_num, rfl, rfl, rfl⟩

/-- An image with a single red pixel is taken for greyscale because the code compares green with
blue twice: the other channels of all pixels are lost. -/
theorem C101_fails_red :
    readData ⟨.u1, [2, 2, 3], [1, 1, 1, 2, 2, 2, 3, 3, 3, 255, 0, 0]⟩ =
      .ok (.reg ⟨.u1, [2, 2], [1, 2, 3, 255]⟩) := by decide

/-- The alpha channel of a greyscale image is lost. -/
theorem C101_fails_alpha :
    readData ⟨.u1, [2, 2, 4], [1, 1, 1, 0, 2, 2, 2, 50, 3, 3, 3, 100, 4, 4, 4, 255]⟩ =
      .ok (.reg ⟨.u1, [2, 2], [1, 2, 3, 4]⟩) := by decide

/-- An image with a single row cannot be loaded. -/
theorem C101_fails_thin :
    read ⟨.u1, [1, 3], [1, 2, 3]⟩ none false = .error .indexError := by rfl

/-- An image with a greyscale and an alpha channel cannot be loaded. -/
theorem C101_fails_la :
    read ⟨.u1, [2, 2, 2], [1, 2, 3, 4, 5, 6, 7, 8]⟩ none false = .error .indexError := by rfl

/-- Two colour frames of 3 × 3 pixels: the first two axes are those of the frames and of the rows,
and there is no third one. -/
theorem C101_fails_frames : ∃ px ay ax,
    read ⟨.u1, [2, 3, 3, 3], List.range 54⟩ none false = .ok (.rgb ⟨false, false, [2, 3, 3], px⟩, [ay, ax]) ∧
    ay.name = "y" ∧ ay.size = 2 :=
  ⟨_, _, _, rfl, rfl, rfl⟩

/-- `index_in_array` of the axes is the wrong way round: the `y` axis of a 2 × 3 image has size 2 and
index 1, but dimension 1 of the array has length 3. -/
theorem C101_fails_index : ∃ ay ax,
    read ⟨.u1, [2, 3], [1, 2, 3, 4, 5, 6]⟩ none false =
      .ok (.reg ⟨.u1, [2, 3], [1, 2, 3, 4, 5, 6]⟩, [ay, ax]) ∧
    ay.index = 1 ∧ ay.size = 2 ∧ [2, 3][ay.index]? = some 3 :=
  ⟨_, _, rfl, rfl, rfl, rfl⟩

/-- Images cannot be loaded lazily: the shape that is given to dask is a delayed object. -/
theorem C101_fails_lazy : ∀ img exif, read img exif true = .error .typeError := fun _ _ => rfl

end Verif.Props.ImageFile
