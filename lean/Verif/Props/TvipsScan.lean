import Verif.Lemmas.TvipsScan
/-! C95: scans of TVIPS recordings from rotator indices, and axes. -/
namespace Verif.Props.TvipsScan
open Verif.TvipsScan Verif.Spec.TvipsScan Verif.Lemmas.TvipsScan
open Verif.Tvips (Header Winding)

theorem placed_facts {r : List Nat} {p f : Nat} (h : Placed r p f) : f < r.length ∧ r.getD f 0 ≤ p ∧ (∀ j, j < r.length → r.getD j 0 ≤ p → r.getD j 0 ≤ r.getD f 0) ∧
    ((∃ j, j < r.length ∧ r.getD j 0 = p) → r.getD f 0 = p ∧ ∀ j, j < f → r.getD j 0 ≠ p) := by
  obtain ⟨v, first, last, h1, h2, h3, h4, h5, rfl⟩ := h
  have hf : r.getD (min (first + (p - v)) last) 0 = v := (h3 _ (by omega)).2 (by omega)
  refine ⟨by omega, by omega, fun j hj hp => by rw [hf]; exact h5 j hj hp, ?_⟩
  rintro ⟨j, hj, hjp⟩
  have hv : v = p := by
    have := h5 j hj (by omega)
    omega
  refine ⟨by omega, ?_⟩
  intro k hk hkp
  have := (h3 k (by omega)).1 (by omega)
  omega

theorem placed_mono {r : List Nat} (hs : Sorted r) {p q f g : Nat} (hpq : p ≤ q) (hf : Placed r p f) (hg : Placed r q g) : f ≤ g := by
  obtain ⟨v, a, b, h1, h2, h3, h4, h5, rfl⟩ := hf
  obtain ⟨v', a', b', k1, k2, k3, k4, k5, rfl⟩ := hg
  have ha := (h3 a (by omega)).2 ⟨Nat.le_refl _, h1⟩
  have hb := (h3 b h2).2 ⟨h1, Nat.le_refl _⟩
  have ha' := (k3 a' (by omega)).2 ⟨Nat.le_refl _, k1⟩
  have hb' := (k3 b' k2).2 ⟨k1, Nat.le_refl _⟩
  have hvv : v ≤ v' := by
    have := k5 a (by omega) (by omega)
    omega
  by_cases e : v = v'
  · subst e
    have e1 := (k3 a (by omega)).1 ha
    have e2 := (h3 a' (by omega)).1 ha'
    have e3 := (k3 b h2).1 hb
    have e4 := (h3 b' k2).1 hb'
    omega
  · have : b < a' := by
      by_contra hno
      have := hs a' b (by omega) h2
      omega
    omega

/-- What is known of the frame at each position of a scan. -/
structure GridOk (rot g : List Nat) : Prop where
  /-- Frames are those of the recording. -/
  inside : ∀ p, 1 ≤ p → p ≤ g.length → g.getD (p - 1) 0 < rot.length
  /-- Where a frame was recorded, it is used. -/
  recorded : ∀ p, 1 ≤ p → p ≤ g.length → (∃ j, j < rot.length ∧ rot.getD j 0 = p) → rot.getD (g.getD (p - 1) 0) 0 = p
  /-- Of several frames, the first one (except at the first position, if the recording starts there). -/
  first : ∀ p, 1 ≤ p → p ≤ g.length → (∃ j, j < rot.length ∧ rot.getD j 0 = p) → rot.getD 0 0 ≠ p → ∀ j, j < g.getD (p - 1) 0 → rot.getD j 0 ≠ p
  /-- Where no frame was recorded, there is one of the nearest position before. -/
  missing : ∀ p, 1 ≤ p → p ≤ g.length → ∀ j, j < rot.length → 1 ≤ rot.getD j 0 → rot.getD j 0 ≤ p → 1 ≤ rot.getD (g.getD (p - 1) 0) 0 ∧ rot.getD (g.getD (p - 1) 0) 0 ≤ p ∧ rot.getD j 0 ≤ rot.getD (g.getD (p - 1) 0) 0
  /-- Before the first recorded position, there is a frame of it. -/
  early : ∀ p, 1 ≤ p → p ≤ g.length → (∀ j, j < rot.length → 1 ≤ rot.getD j 0 → p < rot.getD j 0) → 1 ≤ rot.getD (g.getD (p - 1) 0) 0 ∧ ∀ j, j < rot.length → 1 ≤ rot.getD j 0 → rot.getD (g.getD (p - 1) 0) 0 ≤ rot.getD j 0
  /-- Frames are in the order of the recording. -/
  mono : ∀ p q, 1 ≤ p → p ≤ q → q ≤ g.length → g.getD (p - 1) 0 ≤ g.getD (q - 1) 0

/-- **C95.** A recording that ends with the scan, with a square number of positions: each position shows the frame recorded there, or a frame of the nearest position before.
Missing for the full claim: frames after the scan (`C95_fails_after`). -/
theorem C95_auto_partial {rot : List Nat} (hs : Sorted rot) (hb : ∀ j, j < rot.length → rot.getD j 0 < 2 ^ 32) (hne : ∃ j, j < rot.length ∧ rot.getD j 0 ≠ rot.getD 0 0) {d : Nat}
    (hd : rot.getD (rot.length - 1) 0 = d * d) : ∃ g, autoScan rot = .ok (d, g) ∧ g.length = d * d ∧ GridOk rot g := by
  obtain ⟨s, e, h1, h2, h3, h4, h5, h6⟩ := startStop_ok hb hne
  obtain ⟨start, hstart⟩ : ∃ start, (if rot.getD s 0 = 0 then s + 1 else s) = start := ⟨_, rfl⟩
  rw [hstart] at h1
  have hcase : (rot.getD s 0 = 0 ∧ start = s + 1) ∨ (rot.getD s 0 ≠ 0 ∧ start = s) := by
    by_cases e0 : rot.getD s 0 = 0
    · rw [if_pos e0] at hstart
      exact Or.inl ⟨e0, hstart.symm⟩
    · rw [if_neg e0] at hstart
      exact Or.inr ⟨e0, hstart.symm⟩
  have hpos : 1 ≤ rot.getD start 0 := by
    rcases hcase with ⟨e0, es⟩ | ⟨e0, es⟩
    · rw [es]
      omega
    · rw [es]
      omega
  obtain ⟨r, hr⟩ : ∃ r, r = (rot.drop start).take (e + 1 + 1 - start) := ⟨_, rfl⟩
  have hsl : start ≤ e + 1 := by omega
  have hrlen : r.length = e + 1 + 1 - start := by
    rw [hr, List.length_take, List.length_drop]
    omega
  have hget : ∀ j, j < r.length → r.getD j 0 = rot.getD (start + j) 0 := by
    intro j hj
    rw [hrlen] at hj
    rw [hr, List.getD_eq_getElem?_getD, List.getElem?_take, if_pos hj, List.getElem?_drop, ← List.getD_eq_getElem?_getD]
  have hrs : Sorted r := by
    intro i j hij hj
    rw [hget i (by omega), hget j hj]
    exact hs _ _ (by omega) (by omega)
  have hr0 : r.getD 0 0 = rot.getD start 0 := by
    rw [hget 0 (by omega)]
    rfl
  have hN : rot.getD (e + 1) 0 = d * d := by
    rw [h6 (e + 1) (Nat.le_refl _) h3, hd]
  obtain ⟨g, hg1, hg2, hg3, hg4⟩ := grid_ok hr hsl h3 hrs (by omega) (hb _ h3)
  rw [hN] at hg2 hg3 hg4
  rw [hr0] at hg3 hg4
  -- every recorded index is found among the frames of the scan
  have hfind : ∀ j, j < rot.length → 1 ≤ rot.getD j 0 → ∃ k, k < r.length ∧ r.getD k 0 = rot.getD j 0 := by
    intro j hj hj1
    by_cases c1 : j < start
    · have hjs : j ≤ s := by omega
      refine ⟨0, by omega, ?_⟩
      rw [hr0]
      rcases hcase with ⟨e0, es⟩ | ⟨e0, es⟩
      · have := h5 j hjs
        have := h5 s (Nat.le_refl _)
        omega
      · rw [es, h5 j hjs, h5 s (Nat.le_refl _)]
    · by_cases c2 : j ≤ e + 1
      · refine ⟨j - start, by omega, ?_⟩
        rw [hget _ (by omega)]
        congr 1
        omega
      · refine ⟨e + 1 - start, by omega, ?_⟩
        rw [hget _ (by omega), h6 j (by omega) hj]
        have : start + (e + 1 - start) = e + 1 := by omega
        rw [this, h6 (e + 1) (Nat.le_refl _) h3]
  have hmin : ∀ j, j < rot.length → 1 ≤ rot.getD j 0 → rot.getD start 0 ≤ rot.getD j 0 := by
    intro j hj hj1
    obtain ⟨k, hk, hkj⟩ := hfind j hj hj1
    rw [← hkj, ← hr0]
    exact hrs 0 k (Nat.zero_le _) hk
  have hrot : ∀ f, f < r.length → rot.getD (f + start) 0 = r.getD f 0 := by
    intro f hf
    rw [hget f hf, Nat.add_comm]
  refine ⟨g, ?_, hg2, ⟨?_, ?_, ?_, ?_, ?_, ?_⟩⟩
  · unfold autoScan
    rw [h1]
    dsimp only
    rw [hN, Nat.sqrt_eq, if_neg (by simp), hg1]
  · intro p hp1 hp2
    rw [hg2] at hp2
    by_cases c : rot.getD start 0 ≤ p
    · obtain ⟨f, hf, hgf⟩ := hg4 p c hp2
      have := (placed_facts hf).1
      omega
    · rw [hg3 p hp1 (by omega) hp2]
      omega
  · intro p hp1 hp2 hrec
    rw [hg2] at hp2
    obtain ⟨j, hj, hjp⟩ := hrec
    obtain ⟨k, hk, hkj⟩ := hfind j hj (by omega)
    obtain ⟨f, hf, hgf⟩ := hg4 p (by rw [← hjp]; exact hmin j hj (by omega)) hp2
    obtain ⟨f1, _, _, f4⟩ := placed_facts hf
    rw [hgf, hrot f f1]
    exact (f4 ⟨k, hk, by omega⟩).1
  · intro p hp1 hp2 hrec hp0 i hi hip
    rw [hg2] at hp2
    obtain ⟨j, hj, hjp⟩ := hrec
    obtain ⟨k, hk, hkj⟩ := hfind j hj (by omega)
    obtain ⟨f, hf, hgf⟩ := hg4 p (by rw [← hjp]; exact hmin j hj (by omega)) hp2
    obtain ⟨f1, _, _, f4⟩ := placed_facts hf
    rw [hgf] at hi
    by_cases c : i < start
    · have := h5 i (by omega)
      omega
    · apply (f4 ⟨k, hk, by omega⟩).2 (i - start) (by omega)
      rw [hget _ (by omega)]
      have : start + (i - start) = i := by omega
      rw [this]
      exact hip
  · intro p hp1 hp2 j hj hj1 hjp
    rw [hg2] at hp2
    obtain ⟨k, hk, hkj⟩ := hfind j hj hj1
    have hmj := hmin j hj hj1
    obtain ⟨f, hf, hgf⟩ := hg4 p (by omega) hp2
    obtain ⟨f1, f2, f3, _⟩ := placed_facts hf
    rw [hgf, hrot f f1]
    have := f3 k hk (by omega)
    exact ⟨by omega, f2, by omega⟩
  · intro p hp1 hp2 hall
    rw [hg2] at hp2
    rw [hg3 p hp1 (hall start (by omega) hpos) hp2]
    exact ⟨hpos, hmin⟩
  · intro p q hp1 hpq hq
    rw [hg2] at hq
    by_cases c : rot.getD start 0 ≤ p
    · obtain ⟨f, hf, hgf⟩ := hg4 p c (by omega)
      obtain ⟨f', hf', hgf'⟩ := hg4 q (by omega) hq
      have := placed_mono hrs hpq hf hf'
      omega
    · rw [hg3 p hp1 (by omega) (by omega)]
      by_cases c2 : rot.getD start 0 ≤ q
      · obtain ⟨f', hf', hgf'⟩ := hg4 q c2 hq
        omega
      · rw [hg3 q (by omega) (by omega) hq]

/-- **C95.** With one frame for each position, in order, and any frames before the scan: the position (y, x) shows its frame. -/
theorem C95_complete {α : Type} {z d y x : Nat} (hd : 1 < d) (hbig : d * d < 2 ^ 32) (hy : y < d) (hx : x < d) (before frames : List α) (hz : before.length = z) (hf : frames.length = d * d) :
    ∃ g, autoScan (List.replicate z 0 ++ (List.range (d * d)).map (· + 1)) = .ok (d, g) ∧ autoFrame (before ++ frames) d g .none 0 y x = frames[y * d + x]? := by
  obtain ⟨rot, hrot⟩ : ∃ rot, rot = List.replicate z 0 ++ (List.range (d * d)).map (· + 1) := ⟨_, rfl⟩
  have hdd : 2 * 2 ≤ d * d := Nat.mul_le_mul hd hd
  have hlen : rot.length = z + d * d := by rw [hrot]; simp
  have hget : ∀ j, j < rot.length → rot.getD j 0 = if j < z then 0 else j - z + 1 := by
    intro j hj
    rw [hlen] at hj
    rw [hrot, List.getD_eq_getElem?_getD]
    by_cases c : j < z
    · rw [if_pos c, List.getElem?_append_left (by simpa using c), List.getElem?_replicate, if_pos c]
      rfl
    · rw [if_neg c, List.getElem?_append_right (by simpa using c), List.length_replicate, List.getElem?_map, List.getElem?_range (by omega)]
      rfl
  rw [← hrot]
  obtain ⟨g, h1, h2, h3⟩ := C95_auto_partial (rot := rot) (d := d) (by
      intro i j hij hj
      rw [hget i (by omega), hget j hj]
      split
      · omega
      · rw [if_neg (by omega)]
        omega) (by
      intro j hj
      rw [hget j hj]
      split
      · omega
      · omega) ⟨rot.length - 1, by omega, by
      rw [hget _ (by omega), hget 0 (by omega), if_neg (by omega)]
      split <;> omega⟩ (by
      rw [hget _ (by omega), if_neg (by omega)]
      omega)
  have hyx : y * d + x < d * d := by
    have : (y + 1) * d ≤ d * d := Nat.mul_le_mul_right d hy
    rw [Nat.add_mul] at this
    omega
  refine ⟨g, h1, ?_⟩
  have hk := h3.recorded (y * d + x + 1) (by omega) (by omega) ⟨z + (y * d + x), by omega, by
    rw [hget _ (by omega), if_neg (by omega)]
    omega⟩
  have hin := h3.inside (y * d + x + 1) (by omega) (by omega)
  rw [Nat.add_sub_cancel] at hk hin
  have hgv : g.getD (y * d + x) 0 = z + (y * d + x) := by
    rw [hget _ hin] at hk
    split at hk
    · omega
    · omega
  have hgl : y * d + x < g.length := by omega
  unfold autoFrame Verif.Tvips.windingIndex Verif.Tvips.scanIndex
  dsimp only
  have e1 : 0 + ((0 * d + y) * d + x) = y * d + x := by
    rw [Nat.zero_mul, Nat.zero_add, Nat.zero_add]
  have e2 : g[y * d + x]? = some (z + (y * d + x)) := by
    rw [List.getD_eq_getElem?_getD, List.getElem?_eq_getElem hgl, Option.getD_some] at hgv
    rw [List.getElem?_eq_getElem hgl, hgv]
  rw [e1, e2]
  dsimp only
  rw [List.getElem?_append_right (by omega), hz]
  congr 1
  omega

/-- **C95.** Scans that are not square, and recordings without any change of the index, are rejected. -/
theorem C95_square {rot : List Nat} (hb : ∀ j, j < rot.length → rot.getD j 0 < 2 ^ 32) (h : ∀ d, rot.getD (rot.length - 1) 0 ≠ d * d) : autoScan rot = .error .valueError := by
  by_cases hne : ∃ j, j < rot.length ∧ rot.getD j 0 ≠ rot.getD 0 0
  · obtain ⟨s, e, h1, _, h3, _, _, h6⟩ := startStop_ok hb hne
    unfold autoScan
    rw [h1]
    dsimp only
    rw [if_pos]
    intro he
    apply h (Nat.sqrt (rot.getD (e + 1) 0))
    rw [he, h6 (e + 1) (Nat.le_refl _) h3]
  · have hc : changes rot = [] := by
      rw [List.eq_nil_iff_forall_not_mem]
      intro i hi
      have := (mem_changes hb).1 hi
      apply hne
      by_cases c : rot.getD i 0 = rot.getD 0 0
      · exact ⟨i + 1, this.1, by rw [← c]; exact this.2⟩
      · exact ⟨i, by omega, c⟩
    unfold autoScan startStop
    rw [hc]

/-- **C95.** The axes of a scan with at least two dimensions: the scan axes first, then rows and columns of the images with the pixel size and the units of the mode. -/
theorem C95_axes (lead : List Nat) (ny nx : Nat) (h : Header) (mode : Nat) : ∃ front, scanAxes (lead ++ [ny, nx]) h mode = front ++ [⟨ny, "y", 1, 0, "nm", true⟩, ⟨nx, "x", 1, 0, "nm", true⟩,
      ⟨h.dimy, "dy", h.pixelsize, h.offy, if mode = 2 then "1/nm" else "nm", false⟩, ⟨h.dimx, "dx", h.pixelsize, h.offx, if mode = 2 then "1/nm" else "nm", false⟩] ∧
    front.map (fun a => (a.size, a.navigate)) = lead.map fun n => (n, true) := by
  obtain ⟨k, hk⟩ : ∃ k, lead.length = k := ⟨_, rfl⟩
  have hlen : (lead ++ [ny, nx]).length = k + 2 := by simp [hk]
  have hl2 : (lead ++ [ny, nx]).length - 2 = k := by omega
  have hsz : (lead ++ [ny, nx] ++ [h.dimy, h.dimx]).length = k + 4 := by simp [hk]
  have key : ∀ {α : Type} (z : α) (a : List α) (l : List α) (i : Nat), a.length = k → (a ++ l).getD (k + i) z = l.getD i z := by
    intro α z a l i ha
    rw [List.getD_eq_getElem?_getD, List.getElem?_append_right (by omega), List.getD_eq_getElem?_getD]
    congr 2
    omega
  have hrep : ∀ {α : Type} (z : α), (List.replicate k z).length = k := by simp
  refine ⟨(List.range k).map fun i => ⟨lead.getD i 0, "", 1, 0, "", true⟩, ?_, ?_⟩
  · unfold scanAxes
    dsimp only
    rw [hsz, hl2, hlen]
    have hr : List.range (k + 4) = List.range k ++ [k, k + 1, k + 2, k + 3] := by
      rw [List.range_succ, List.range_succ, List.range_succ, List.range_succ]
      simp
    rw [hr, List.map_append]
    congr 1
    · apply List.map_congr_left
      intro i hi
      rw [List.mem_range] at hi
      have lo : ∀ {α : Type} (z : α) (a : List α) (l : List α), a.length = k → (a ++ l).getD i z = a.getD i z := by
        intro α z a l ha
        rw [List.getD_eq_getElem?_getD, List.getElem?_append_left (by omega), List.getD_eq_getElem?_getD]
      have rp : ∀ {α : Type} (z w : α), (List.replicate k z).getD i w = z := by
        intro α z w
        rw [List.getD_eq_getElem?_getD, List.getElem?_replicate, if_pos hi]
        rfl
      rw [List.append_assoc, lo 0 lead _ hk, lo "" _ _ (hrep _), lo 0 _ _ (hrep _), lo 0 _ _ (hrep _), lo "" _ _ (hrep _), rp, rp, rp]
      rw [Axis.mk.injEq]
      exact ⟨rfl, rfl, rfl, rfl, rfl, by simp; omega⟩
    · have e0 : k = k + 0 := rfl
      simp only [List.map_cons, List.map_nil]
      rw [List.append_assoc]
      conv_lhs => rw [e0]
      rw [key 0 lead _ 0 hk, key 0 lead _ 1 hk, key 0 lead _ 2 hk, key 0 lead _ 3 hk]
      simp only [Nat.add_zero, List.cons_append, List.nil_append]
      have n0 := fun (l : List String) => key "" (List.replicate k "") l 0 (hrep _)
      have q0 := fun (l : List Rat) => key 0 (List.replicate k (1 : Rat)) l 0 (hrep _)
      have z0 := fun (l : List Rat) => key 0 (List.replicate k (0 : Rat)) l 0 (hrep _)
      rw [Nat.add_zero] at n0 q0 z0
      rw [n0, n0, q0, z0]
      rw [key "" _ _ 1 (hrep _), key "" _ _ 2 (hrep _), key "" _ _ 3 (hrep _), key "" _ _ 1 (hrep _), key "" _ _ 2 (hrep _), key "" _ _ 3 (hrep _),
        key 0 _ _ 1 (hrep _), key 0 _ _ 2 (hrep _), key 0 _ _ 3 (hrep _), key 0 _ _ 1 (hrep _), key 0 _ _ 2 (hrep _), key 0 _ _ 3 (hrep _)]
      unfold dpu
      simp
  · rw [List.map_map]
    have : lead = (List.range k).map fun i => lead.getD i 0 := by
      apply List.ext_getElem
      · simp [hk]
      · intro i h1 h2
        simp [List.getD_eq_getElem?_getD, List.getElem?_eq_getElem h1]
    conv_rhs => rw [this, List.map_map]
    rfl

/-- **C95.** The axes of a stack: the first frame is at its time, and equal time steps are the scale; the images have the sizes, the pixel size and the offsets of the header. -/
theorem C95_stack {times : List (Nat × Nat)} {h : Header} {mode : Nat} {t0 dt : Rat} (h2 : 2 ≤ times.length)
    (ht : (times.map fun t => (t.1 : Rat) + (t.2 : Rat) / 1000) = (List.range times.length).map fun (k : Nat) => t0 + dt * (k : Rat)) :
    stackAxes times h mode = .ok [⟨times.length, "time", dt, t0, "s", true⟩, ⟨h.dimy, "dy", h.pixelsize, h.offy, if mode = 2 then "1/nm" else "nm", false⟩,
      ⟨h.dimx, "dx", h.pixelsize, h.offx, if mode = 2 then "1/nm" else "nm", false⟩] := by
  obtain ⟨n, hn⟩ : ∃ n, times.length = n + 2 := ⟨times.length - 2, by omega⟩
  unfold stackAxes
  rw [ht, hn]
  have hr : List.range (n + 2) = 0 :: 1 :: (List.range n).map (· + 2) := by
    rw [List.range_succ_eq_map, List.range_succ_eq_map]
    simp [Function.comp_def]
  rw [hr]
  simp only [List.map_cons, List.map_map, List.length_map, List.length_range]
  rw [show t0 + dt * ((0 : Nat) : Rat) = t0 by norm_num, show t0 + dt * ((1 : Nat) : Rat) - t0 = dt by norm_num]
  rfl

/-! ### Where the code falls short -/

/-- Frames after the scan, with the index 0 again: differences of unsigned numbers are never negative, so the end of the scan is taken to be the first frame after it, which stands for a scan without any
position. Nothing of the scan is read. -/
theorem C95_fails_after {z d k : Nat} (hd : 0 < d) (hbig : d * d < 2 ^ 32) : (∃ g, autoScan (List.replicate z 0 ++ (List.range (d * d)).map (· + 1) ++ List.replicate (k + 1) 0) = .ok (0, g) ∧ g = []) ∨
    autoScan (List.replicate z 0 ++ (List.range (d * d)).map (· + 1) ++ List.replicate (k + 1) 0) = .error .valueError := by
  obtain ⟨rot, hrot⟩ : ∃ rot, rot = List.replicate z 0 ++ (List.range (d * d)).map (· + 1) ++ List.replicate (k + 1) 0 := ⟨_, rfl⟩
  rw [← hrot]
  have hdd : 0 < d * d := Nat.mul_pos hd hd
  have hlen : rot.length = z + d * d + (k + 1) := by rw [hrot]; simp; omega
  have hget : ∀ j, j < rot.length → rot.getD j 0 = if j < z then 0 else if j < z + d * d then j - z + 1 else 0 := by
    intro j hj
    rw [hlen] at hj
    rw [hrot, List.getD_eq_getElem?_getD]
    by_cases c : j < z
    · rw [if_pos c, List.getElem?_append_left (by simp; omega), List.getElem?_append_left (by simpa using c), List.getElem?_replicate, if_pos c]
      rfl
    · rw [if_neg c]
      by_cases c2 : j < z + d * d
      · rw [if_pos c2, List.getElem?_append_left (by simp; omega), List.getElem?_append_right (by simpa using c), List.length_replicate, List.getElem?_map, List.getElem?_range (by omega)]
        rfl
      · rw [if_neg c2, List.getElem?_append_right (by simp; omega), List.getElem?_replicate]
        split <;> rfl
  have hb : ∀ j, j < rot.length → rot.getD j 0 < 2 ^ 32 := by
    intro j hj
    rw [hget j hj]
    split
    · omega
    · split <;> omega
  by_cases hne : ∃ j, j < rot.length ∧ rot.getD j 0 ≠ rot.getD 0 0
  · obtain ⟨s, e, h1, _, h3, _, _, h6⟩ := startStop_ok hb hne
    have hend : rot.getD (e + 1) 0 = 0 := by
      rw [h6 (e + 1) (Nat.le_refl _) h3, hget _ (by omega), if_neg (by omega), if_neg (by omega)]
    unfold autoScan
    rw [h1]
    dsimp only
    rw [hend, Nat.sqrt_zero, if_neg (by simp)]
    have hsize : ∀ (r : List Nat) (l : List Nat) (st : List Nat × Nat), st.1 = [] → (∃ st', l.foldlM (fill r) st = .ok st' ∧ st'.1 = []) ∨ l.foldlM (fill r) st = .error .valueError := by
      intro r l
      induction l with
      | nil =>
        intro st hst
        exact Or.inl ⟨st, rfl, hst⟩
      | cons i l ih =>
        intro st hst
        rw [List.foldlM_cons]
        unfold fill
        simp only [bind, Except.bind]
        split
        · next x hx =>
          right
          split at hx
          · split at hx
            · exact absurd hx (by simp)
            · rw [← hx]
          · exact absurd hx (by simp)
        · next x hx =>
          apply ih
          split at hx
          · split at hx
            · rw [← Except.ok.inj hx, hst]
              rfl
            · exact absurd hx (by simp)
          · rw [← Except.ok.inj hx]
            exact hst
    unfold guessGrid
    dsimp only
    rw [hend, List.replicate_zero]
    rcases hsize _ _ ([], 0) rfl with ⟨st', e1, e2⟩ | e1
    · rw [e1]
      left
      refine ⟨[], ?_, rfl⟩
      dsimp only
      rw [e2]
      rfl
    · rw [e1]
      exact Or.inr rfl
  · right
    have hc : changes rot = [] := by
      rw [List.eq_nil_iff_forall_not_mem]
      intro i hi
      have := (mem_changes hb).1 hi
      apply hne
      by_cases c : rot.getD i 0 = rot.getD 0 0
      · exact ⟨i + 1, this.1, by rw [← c]; exact this.2⟩
      · exact ⟨i, by omega, c⟩
    unfold autoScan startStop
    rw [hc]

/-- A line scan: the axes of the images are called "x" and "dy", and the first one has neither the pixel size nor the units of the images. -/
theorem C95_fails_line (n mode : Nat) (h : Header) : (scanAxes [n] h mode).map (fun a => (a.name, a.units)) = [("y", "nm"), ("x", "nm"), ("dy", dpu mode)] ∧
    (scanAxes [n] h mode).map (·.scale) = [1, 1, (h.pixelsize : Rat)] := ⟨rfl, rfl⟩

/-- A recording of a single frame cannot be loaded as a stack. -/
theorem C95_fails_single (t : Nat × Nat) (h : Header) (mode : Nat) : stackAxes [t] h mode = .error .indexError := rfl

/-! ### Examples -/

example : Sorted [0, 0, 1, 3, 3, 4] := by
  intro i j hij hj
  have : ∀ j < 6, ∀ i < j + 1, ([0, 0, 1, 3, 3, 4] : List Nat).getD i 0 ≤ ([0, 0, 1, 3, 3, 4] : List Nat).getD j 0 := by decide
  exact this j hj i (by omega)
example : autoScan [0, 0, 1, 3, 3, 4] = .ok (2, [2, 2, 3, 5]) := by decide +kernel
example : autoScan [0, 0, 1, 2, 3, 4, 0, 0] = .ok (0, []) := by decide +kernel
example : guessGrid [1, 3, 3, 4, 5, 5, 9] 0 6 = .ok [0, 0, 1, 3, 4, 5, 5, 5, 6] := by decide +kernel

end Verif.Props.TvipsScan
