import Verif.Spec.Topspin
import Verif.Lemmas.Empad
import Mathlib.Tactic.Linarith
import Mathlib.Data.List.Perm.Basic
import Mathlib.Algebra.Order.Field.Basic
/-! Lemmas on TopSpin files. -/
namespace Verif.Topspin
open Verif.Spec.Topspin
open Verif.Xml (El)

theorem foldl_min : ∀ (l : List Rat) (a : Rat), (l.foldl min a = a ∨ l.foldl min a ∈ l) ∧ l.foldl min a ≤ a ∧ ∀ v ∈ l, l.foldl min a ≤ v
  | [], a => by simp
  | b :: l, a => by
    obtain ⟨h1, h2, h3⟩ := foldl_min l (min a b)
    rw [List.foldl_cons]
    refine ⟨?_, h2.trans (min_le_left _ _), ?_⟩
    · rcases h1 with h1 | h1
      · rcases min_choice a b with h | h
        · left; rw [h1, h]
        · right; rw [h1, h]; exact List.mem_cons_self ..
      · right; exact List.mem_cons_of_mem _ h1
    · intro v hv
      rcases List.mem_cons.1 hv with rfl | hv
      · exact h2.trans (min_le_right _ _)
      · exact h3 v hv

theorem foldl_max : ∀ (l : List Rat) (a : Rat), (l.foldl max a = a ∨ l.foldl max a ∈ l) ∧ a ≤ l.foldl max a ∧ ∀ v ∈ l, v ≤ l.foldl max a
  | [], a => by simp
  | b :: l, a => by
    obtain ⟨h1, h2, h3⟩ := foldl_max l (max a b)
    rw [List.foldl_cons]
    refine ⟨?_, (le_max_left _ _).trans h2, ?_⟩
    · rcases h1 with h1 | h1
      · rcases max_choice a b with h | h
        · left; rw [h1, h]
        · right; rw [h1, h]; exact List.mem_cons_self ..
      · right; exact List.mem_cons_of_mem _ h1
    · intro v hv
      rcases List.mem_cons.1 hv with rfl | hv
      · exact (le_max_right _ _).trans h2
      · exact h3 v hv

/-- Values in equal steps. -/
theorem affine {l : List Rat} {a d : Rat} {m : Nat} (hd : 0 < d) (hm : 1 ≤ m) (h : ∀ v, v ∈ l ↔ ∃ i : Nat, i < m ∧ v = a + i * d) :
    count l = m ∧ minOf l = a ∧ maxOf l = a + (m - 1 : Nat) * d := by
  have hne : l ≠ [] := by
    intro e
    have := (h a).2 ⟨0, by omega, by simp⟩
    rw [e] at this
    simp at this
  obtain ⟨b, t, rfl⟩ := List.exists_cons_of_ne_nil hne
  refine ⟨?_, ?_, ?_⟩
  · have hn : ((List.range m).map fun i : Nat => a + i * d).Nodup := by
      refine List.Nodup.map ?_ List.nodup_range
      intro i j hij
      dsimp only at hij
      have : (i : Rat) * d = j * d := by linarith
      exact_mod_cast mul_right_cancel₀ hd.ne' this
    have hp : (b :: t).dedup.Perm ((List.range m).map fun i : Nat => a + i * d) := by
      rw [List.perm_ext_iff_of_nodup (List.nodup_dedup _) hn]
      intro v
      rw [List.mem_dedup, h]
      simp [eq_comm]
    unfold count
    rw [hp.length_eq, List.length_map, List.length_range]
  · unfold minOf
    rw [List.tail_cons, List.headD_cons]
    obtain ⟨h1, h2, h3⟩ := foldl_min t b
    have hmem : t.foldl min b ∈ b :: t := by
      rcases h1 with h1 | h1
      · rw [h1]; exact List.mem_cons_self ..
      · exact List.mem_cons_of_mem _ h1
    obtain ⟨i, _, hi⟩ := (h _).1 hmem
    have hle : t.foldl min b ≤ a := by
      rcases List.mem_cons.1 ((h a).2 ⟨0, by omega, by simp⟩) with ha | ha
      · rw [ha]; exact h2
      · exact h3 a ha
    have : 0 ≤ (i : Rat) * d := by positivity
    linarith
  · unfold maxOf
    rw [List.tail_cons, List.headD_cons]
    obtain ⟨h1, h2, h3⟩ := foldl_max t b
    have hmem : t.foldl max b ∈ b :: t := by
      rcases h1 with h1 | h1
      · rw [h1]; exact List.mem_cons_self ..
      · exact List.mem_cons_of_mem _ h1
    obtain ⟨i, hi', hi⟩ := (h _).1 hmem
    have hle : a + (m - 1 : Nat) * d ≤ t.foldl max b := by
      rcases List.mem_cons.1 ((h (a + (m - 1 : Nat) * d)).2 ⟨m - 1, by omega, rfl⟩) with ha | ha
      · rw [ha]; exact h2
      · exact h3 _ ha
    have hc : (i : Rat) ≤ (m - 1 : Nat) := by exact_mod_cast (by omega : i ≤ m - 1)
    have := mul_le_mul_of_nonneg_right hc hd.le
    linarith

theorem affine_step {l : List Rat} {a d : Rat} {m : Nat} (hd : 0 < d) (hm : 2 ≤ m) (h : ∀ v, v ∈ l ↔ ∃ i : Nat, i < m ∧ v = a + i * d) : step l = some d := by
  obtain ⟨h1, h2, h3⟩ := affine hd (by omega) h
  unfold step
  rw [h1, if_neg (by omega), h2, h3]
  have e : (((m : Int) - 1 : Int) : Rat) = ((m - 1 : Nat) : Rat) := by
    rw [Nat.cast_sub (by omega)]
    push_cast
    ring
  rw [e]
  have hz : ((m - 1 : Nat) : Rat) ≠ 0 := by exact_mod_cast (by omega : m - 1 ≠ 0)
  congr 1
  field_simp
  ring

/-- The positions that are read at first. -/
theorem firstRow_take {y0 : Rat} : ∀ {fs : List Frame} {n : Nat}, (∀ k f, k < n → fs[k]? = some f → ¬ f.y > y0) → (∀ f, fs[n]? = some f → f.y > y0) → firstRow y0 fs = fs.take (n + 1)
  | [], n, _, _ => by simp [firstRow]
  | f :: fs, 0, _, h => by
    have := h f rfl
    unfold firstRow
    rw [if_pos this]
    simp
  | f :: fs, n + 1, h, h' => by
    unfold firstRow
    rw [if_neg (h 0 f (by omega) rfl), List.take_succ_cons, firstRow_take (n := n)]
    · intro k g hk hg
      exact h (k + 1) g (by omega) (by simpa using hg)
    · intro g hg
      exact h' g (by simpa using hg)

variable {fs : List Frame} {nx ny : Nat} {x0 y0 dx dy : Rat}

theorem raster_get (h : Raster fs nx ny x0 y0 dx dy) {k : Nat} {f : Frame} (hk : fs[k]? = some f) : k / nx < ny ∧ k % nx < nx ∧ f.x = x0 + (k % nx : Nat) * dx ∧ f.y = y0 + (k / nx : Nat) * dy := by
  have hlt : k < nx * ny := by
    rw [← h.length]
    exact (List.getElem?_eq_some_iff.1 hk).1
  have h1 : k / nx < ny := by rw [Nat.div_lt_iff_lt_mul h.px, Nat.mul_comm]; exact hlt
  have h2 : k % nx < nx := Nat.mod_lt _ h.px
  obtain ⟨g, hg, hx, hy⟩ := h.at' (k / nx) (k % nx) h1 h2
  rw [Nat.mul_comm, Nat.div_add_mod, hk] at hg
  simp only [Option.some.injEq] at hg
  subst hg
  exact ⟨h1, h2, hx, hy⟩

/-- The values of `x` and `y` of the first `n` rows, and one more frame. -/
theorem take_x (h : Raster fs nx ny x0 y0 dx dy) {m : Nat} (hm : nx ≤ m) (v : Rat) : v ∈ (fs.take m).map Frame.x ↔ ∃ i : Nat, i < nx ∧ v = x0 + i * dx := by
  rw [List.mem_map]
  constructor
  · rintro ⟨f, hf, rfl⟩
    obtain ⟨k, hk⟩ := List.mem_iff_getElem?.1 (List.mem_of_mem_take hf)
    obtain ⟨_, h2, h3, _⟩ := raster_get h hk
    exact ⟨_, h2, h3⟩
  · rintro ⟨i, hi, rfl⟩
    obtain ⟨f, hf, hx, _⟩ := h.at' 0 i h.py hi
    refine ⟨f, ?_, hx⟩
    rw [List.mem_iff_getElem?]
    refine ⟨i, ?_⟩
    rw [List.getElem?_take_of_lt (by omega)]
    simpa using hf

theorem all_x (h : Raster fs nx ny x0 y0 dx dy) (v : Rat) : v ∈ fs.map Frame.x ↔ ∃ i : Nat, i < nx ∧ v = x0 + i * dx := by
  have := take_x h (m := nx + fs.length) (by omega) v
  rwa [List.take_of_length_le (by omega)] at this

theorem all_y (h : Raster fs nx ny x0 y0 dx dy) (v : Rat) : v ∈ fs.map Frame.y ↔ ∃ j : Nat, j < ny ∧ v = y0 + j * dy := by
  rw [List.mem_map]
  constructor
  · rintro ⟨f, hf, rfl⟩
    obtain ⟨k, hk⟩ := List.mem_iff_getElem?.1 hf
    obtain ⟨h1, _, _, h4⟩ := raster_get h hk
    exact ⟨_, h1, h4⟩
  · rintro ⟨j, hj, rfl⟩
    obtain ⟨f, hf, _, hy⟩ := h.at' j 0 hj h.px
    exact ⟨f, List.mem_iff_getElem?.2 ⟨_, hf⟩, hy⟩

theorem take_y (h : Raster fs nx ny x0 y0 dx dy) (h2 : 2 ≤ ny) (v : Rat) : v ∈ (fs.take (nx + 1)).map Frame.y ↔ ∃ j : Nat, j < 2 ∧ v = y0 + j * dy := by
  rw [List.mem_map]
  constructor
  · rintro ⟨f, hf, rfl⟩
    obtain ⟨k, hk⟩ := List.mem_iff_getElem?.1 hf
    have hk' : k < nx + 1 := by
      have := (List.getElem?_eq_some_iff.1 hk).1
      rw [List.length_take] at this
      omega
    rw [List.getElem?_take_of_lt hk'] at hk
    obtain ⟨_, _, _, h4⟩ := raster_get h hk
    refine ⟨_, ?_, h4⟩
    rw [Nat.div_lt_iff_lt_mul h.px]
    have := h.px
    omega
  · rintro ⟨j, hj, rfl⟩
    obtain ⟨f, hf, _, hy⟩ := h.at' j 0 (by omega) h.px
    refine ⟨f, List.mem_iff_getElem?.2 ⟨j * nx, ?_⟩, hy⟩
    have : j * nx ≤ 1 * nx := Nat.mul_le_mul_right _ (by omega)
    rw [List.getElem?_take_of_lt (by omega)]
    simpa using hf

/-- Sizes, steps and starts of a scan. -/
theorem scanAxes_raster (h : Raster fs nx ny x0 y0 dx dy) : ∃ sy sx, scanAxes fs = .ok ((ny, sy, y0), (nx, sx, x0)) ∧ (2 ≤ nx → sx = some dx) ∧ (2 ≤ ny → sy = some dy) := by
  obtain ⟨f, hf, _, hfy⟩ := h.at' 0 0 h.py h.px
  have hhead : fs[0]? = some f := by simpa using hf
  have hfy0 : f.y = y0 := by simpa using hfy
  have hpos : 0 < nx * ny := Nat.mul_pos h.px h.py
  have hr : firstRow f.y fs = fs.take (nx + 1) := by
    apply firstRow_take
    · intro k g hk hg
      obtain ⟨_, _, _, h4⟩ := raster_get h hg
      rw [Nat.div_eq_of_lt hk] at h4
      rw [h4, hfy0]
      simp
    · intro g hg
      obtain ⟨_, _, _, h4⟩ := raster_get h hg
      rw [Nat.div_self h.px] at h4
      rw [h4, hfy0]
      have := h.hy
      push_cast
      linarith
  obtain ⟨c1, c2, c3⟩ := affine h.hx h.px (take_x h (m := nx + 1) (by omega))
  obtain ⟨a1, a2, a3⟩ := affine h.hx h.px (all_x h)
  obtain ⟨b1, b2, b3⟩ := affine h.hy h.py (all_y h)
  have hcase : ∃ t, fs = f :: t := by
    cases fs with
    | nil => simp at hhead
    | cons g t => simp only [List.getElem?_cons_zero, Option.some.injEq] at hhead; exact ⟨t, by rw [hhead]⟩
  obtain ⟨t, ht⟩ := hcase
  have hdef : scanAxes fs = if fs.length % count ((firstRow f.y fs).map Frame.y) ≠ 0 then .ok ((count (fs.map Frame.y), step (fs.map Frame.y), minOf (fs.map Frame.y)), (count (fs.map Frame.x), step (fs.map Frame.x), minOf (fs.map Frame.x)))
      else .ok ((fs.length / count ((firstRow f.y fs).map Frame.x), some (maxOf ((firstRow f.y fs).map Frame.y) - minOf ((firstRow f.y fs).map Frame.y)), minOf ((firstRow f.y fs).map Frame.y)),
        (count ((firstRow f.y fs).map Frame.x), step ((firstRow f.y fs).map Frame.x), minOf ((firstRow f.y fs).map Frame.x))) := by
    rw [ht]
    rfl
  rw [hdef, hr]
  split
  · rw [a1, a2, b1, b2]
    exact ⟨_, _, rfl, fun h2 => affine_step h.hx h2 (all_x h), fun h2 => affine_step h.hy h2 (all_y h)⟩
  · rw [c1, c2, h.length, Nat.mul_div_cancel_left _ h.px]
    by_cases h2 : 2 ≤ ny
    · obtain ⟨d1, d2, d3⟩ := affine h.hy (by decide) (take_y h h2)
      rw [d2, d3]
      exact ⟨_, _, rfl, fun h2 => affine_step h.hx h2 (take_x h (by omega)), fun _ => by simp⟩
    · have hny : ny = 1 := by have := h.py; omega
      have hall : fs.take (nx + 1) = fs := List.take_of_length_le (by rw [h.length, hny]; omega)
      rw [hall, b2, b3]
      exact ⟨_, _, rfl, fun h2 => affine_step h.hx h2 (all_x h), fun hh => absurd hh h2⟩

theorem toNm_spec (d : Rat) : Nm d (some (toNm d)) := by
  refine ⟨_, rfl, ?_, ?_⟩
  · have h := roundEven_err (d * 10 ^ 12)
    unfold toNm
    have e : (roundEven (d * 10 ^ 12) : Rat) / 10 ^ 12 * 10 ^ 9 - d * 10 ^ 9 = ((roundEven (d * 10 ^ 12) : Rat) - d * 10 ^ 12) / 1000 := by ring
    rw [e, abs_div, abs_of_pos (by norm_num : (0 : Rat) < 1000)]
    rw [div_le_iff₀ (by norm_num)]
    linarith
  · rintro ⟨n, rfl⟩
    unfold toNm
    have e : (n : Rat) / 10 ^ 12 * 10 ^ 12 = n := by ring
    rw [e, roundEven_int]

/-- The frames one after the other. -/
theorem frames_data (ky kx : Nat) : ∀ (fs : List Frame), (fs.flatMap fun f => ravel [ky, kx] f.img).length = fs.length * (ky * kx) ∧
    ∀ k f r c, fs[k]? = some f → r < ky → c < kx → (fs.flatMap fun f => ravel [ky, kx] f.img)[k * (ky * kx) + (r * kx + c)]? = some (f.img [r, c])
  | [] => ⟨by simp, fun k f r c h => by simp at h⟩
  | g :: fs => by
    obtain ⟨h1, h2⟩ := frames_data ky kx fs
    have hl : (ravel [ky, kx] g.img).length = ky * kx := by rw [length_ravel]; simp [size]
    rw [List.flatMap_cons]
    refine ⟨by rw [List.length_append, h1, hl, List.length_cons]; ring, fun k f r c hk hr hc => ?_⟩
    have hb : r * kx + c < ky * kx := by
      calc r * kx + c < r * kx + kx := by omega
        _ = (r + 1) * kx := by ring
        _ ≤ ky * kx := Nat.mul_le_mul_right _ hr
    cases k with
    | zero =>
      simp only [List.getElem?_cons_zero, Option.some.injEq] at hk
      subst hk
      rw [Nat.zero_mul, Nat.zero_add, List.getElem?_append_left (by omega)]
      have := ravel_getElem (shape := [ky, kx]) (idx := [r, c]) g.img (.cons hr (.cons hc .nil))
      simpa [flatIndex, size] using this
    | succ k =>
      rw [List.getElem?_append_right (by rw [hl, Nat.succ_mul]; omega), hl]
      have e : (k + 1) * (ky * kx) + (r * kx + c) - ky * kx = k * (ky * kx) + (r * kx + c) := by rw [Nat.succ_mul]; omega
      rw [e]
      exact h2 k f r c (by simpa using hk) hr hc

end Verif.Topspin
