import Verif.Lemmas.Hamamatsu
import Verif.Lemmas.RenishawData
/-! Lemmas for C85: images of Hamamatsu files. -/
namespace Verif.Lemmas.HamamatsuImage
open Verif.Hamamatsu Verif.Spec.Hamamatsu
open Verif.Renishaw (Bytes chunk number numbers decode fitAxis)

/-! ### Least squares -/

/-- The straight line of `fitAxis` is the best one. -/
theorem fit_best {d : List Rat} (hn : 2 ≤ d.length) (a b : Rat) : deviation d (fitAxis d).1 (fitAxis d).2 ≤ deviation d a b := by
  obtain ⟨n, hnn⟩ : ∃ n, n = d.length := ⟨_, rfl⟩
  obtain ⟨v, hv⟩ : ∃ v : Nat → Rat, v = fun k => d.getD k 0 := ⟨_, rfl⟩
  have hsum : ∀ f : Rat × Nat → Rat, (d.zipIdx.map f).sum = ((List.range n).map fun (k : Nat) => f (v k, k)).sum := by
    intro f
    congr 1
    apply List.ext_getElem
    · simp [hnn]
    · intro i h1 h2
      have hi : i < d.length := by simpa using h1
      simp [hv, hi]
  have hd : d.sum = ((List.range n).map v).sum := by
    congr 1
    apply List.ext_getElem
    · simp [hnn]
    · intro i h1 h2
      simp [hv, h1]
  have hn0 : (n : Rat) ≠ 0 := by
    have : (0 : Rat) < n := by exact_mod_cast (by omega : 0 < n)
    exact this.ne'
  obtain ⟨xm, hxm⟩ : ∃ xm : Rat, xm = ((n : Rat) - 1) / 2 := ⟨_, rfl⟩
  obtain ⟨S, hS⟩ : ∃ S : Rat, S = ((List.range n).map v).sum := ⟨_, rfl⟩
  obtain ⟨sxx, hsxx⟩ : ∃ sxx : Rat, sxx = ((List.range n).map fun (k : Nat) => ((k : Rat) - xm) * ((k : Rat) - xm)).sum := ⟨_, rfl⟩
  obtain ⟨sxy, hsxy⟩ : ∃ sxy : Rat, sxy = ((List.range n).map fun (k : Nat) => ((k : Rat) - xm) * v k).sum := ⟨_, rfl⟩
  have h0 : ((List.range n).map fun (k : Nat) => ((k : Rat) - xm)).sum = 0 := by
    have e : ((List.range n).map fun (k : Nat) => ((k : Rat) - xm)) = (List.range n).map fun (k : Nat) => (k : Rat) + (-xm) := by
      apply List.map_congr_left; intro k _; ring
    rw [e, Renishaw.sum_map_add, Renishaw.sum_range, Renishaw.sum_const, hxm]
    ring
  have hpos : sxx ≠ 0 := by
    obtain ⟨m, rfl⟩ : ∃ m, n = m + 1 := ⟨n - 1, by omega⟩
    rw [hsxx, List.range_succ_eq_map, List.map_cons, List.sum_cons]
    have hx : 0 < xm := by
      rw [hxm]
      have : (2 : Rat) ≤ ((m + 1 : Nat) : Rat) := by exact_mod_cast (hnn ▸ hn)
      linarith
    have h1 : 0 < (((0 : Nat) : Rat) - xm) * (((0 : Nat) : Rat) - xm) := by
      push_cast
      nlinarith
    have h2 := Renishaw.sum_nonneg_of ((List.range m).map Nat.succ) (fun (k : Nat) => ((k : Rat) - xm) * ((k : Rat) - xm)) (fun x _ => mul_self_nonneg _)
    linarith
  have hfit : fitAxis d = (S / n - sxy / sxx * xm, sxy / sxx) := by
    unfold fitAxis
    simp only []
    rw [hsum, hd, ← hnn, ← hxm, ← hsxy, ← hsxx, ← hS]
  rw [hfit]
  obtain ⟨s, hs⟩ : ∃ s : Rat, s = sxy / sxx := ⟨_, rfl⟩
  obtain ⟨o, ho⟩ : ∃ o : Rat, o = S / n - s * xm := ⟨_, rfl⟩
  have hs' : s * sxx = sxy := by rw [hs]; field_simp
  unfold deviation
  rw [hsum, hsum]
  dsimp only
  rw [← hs, ← ho]
  -- the difference is a sum of squares
  have e : ((List.range n).map fun (k : Nat) => (v k - (a + b * (k : Rat))) ^ 2) = (List.range n).map fun (k : Nat) =>
      ((v k - (o + s * (k : Rat))) ^ 2 + ((o - a) + (s - b) * (k : Rat)) * ((o - a) + (s - b) * (k : Rat))) +
        ((2 * (o - a) + 2 * (s - b) * xm) * (v k - (o + s * (k : Rat))) + (2 * (s - b)) * (((k : Rat) - xm) * (v k - (o + s * (k : Rat))))) := by
    apply List.map_congr_left; intro k _; ring
  have n1 : ((List.range n).map fun (k : Nat) => (v k - (o + s * (k : Rat)))).sum = 0 := by
    have e1 : ((List.range n).map fun (k : Nat) => (v k - (o + s * (k : Rat)))) = (List.range n).map fun (k : Nat) => (v k + (-s) * ((k : Rat) - xm)) + (-(o + s * xm)) := by
      apply List.map_congr_left; intro k _; ring
    rw [e1, Renishaw.sum_map_add, Renishaw.sum_map_add, Renishaw.sum_map_mul, h0, Renishaw.sum_const, ← hS, ho]
    field_simp
    ring
  have n2 : ((List.range n).map fun (k : Nat) => ((k : Rat) - xm) * (v k - (o + s * (k : Rat)))).sum = 0 := by
    have e1 : ((List.range n).map fun (k : Nat) => ((k : Rat) - xm) * (v k - (o + s * (k : Rat)))) = (List.range n).map fun (k : Nat) =>
        (((k : Rat) - xm) * v k + (-s) * (((k : Rat) - xm) * ((k : Rat) - xm))) + (-(o + s * xm)) * ((k : Rat) - xm) := by
      apply List.map_congr_left; intro k _; ring
    rw [e1, Renishaw.sum_map_add, Renishaw.sum_map_add, Renishaw.sum_map_mul, Renishaw.sum_map_mul, h0, ← hsxx, ← hsxy]
    linarith
  rw [e, Renishaw.sum_map_add, Renishaw.sum_map_add, Renishaw.sum_map_add, Renishaw.sum_map_mul, Renishaw.sum_map_mul, n1, n2]
  have := Renishaw.sum_nonneg_of (List.range n) (fun (k : Nat) => ((o - a) + (s - b) * (k : Rat)) * ((o - a) + (s - b) * (k : Rat))) (fun x _ => mul_self_nonneg _)
  linarith

/-! ### Bytes -/

theorem leBytes_length : ∀ (w n : Nat), (leBytes w n).length = w
  | 0, _ => rfl
  | w + 1, n => by rw [leBytes, List.length_cons, leBytes_length w]

theorem number_at {f A B : Bytes} {o w v : Nat} (hf : f = A ++ leBytes w v ++ B) (hA : A.length = o) : number f o w = .ok (v % 256 ^ w) := by
  unfold number
  have hl := leBytes_length w v
  rw [if_pos (by rw [hf]; simp; omega)]
  unfold chunk
  rw [hf, List.append_assoc, ← hA, List.drop_left, List.take_append_of_le_length (by omega), List.take_of_length_le (by omega), leVal_leBytes_mod]

theorem chunk_at {f A M B : Bytes} {o w : Nat} (hf : f = A ++ M ++ B) (hA : A.length = o) (hM : M.length = w) : chunk f o w = M := by
  unfold chunk
  rw [hf, List.append_assoc, ← hA, List.drop_left, List.take_append_of_le_length (by omega), List.take_of_length_le (by omega)]

theorem decode_text {t : Text} (h : Ascii t) : decode (ascii t) = .ok t := by
  have h0 : ∀ b ∈ ascii t, decide (b ≠ 0) = true := by
    intro b hb
    obtain ⟨c, hc, rfl⟩ := List.mem_map.mp hb
    obtain ⟨h1, h2⟩ := h c hc
    rw [decide_eq_true_eq]
    intro h3
    have := congrArg UInt8.toNat h3
    rw [UInt8.toNat_ofNat', Nat.mod_eq_of_lt (by omega)] at this
    simp at this
    omega
  have hb : ∀ c ∈ t, (UInt8.ofNat c.toNat).toNat = c.toNat := by
    intro c hc
    rw [UInt8.toNat_ofNat']
    exact Nat.mod_eq_of_lt (by have := (h c hc).2; omega)
  rw [Renishaw.decode_ascii]
  · unfold Verif.Spec.Renishaw.chars
    rw [List.filter_eq_self.mpr h0]
    unfold ascii
    rw [List.map_map]
    congr 1
    conv_rhs => rw [← List.map_id t]
    apply List.map_congr_left
    intro c hc
    show Char.ofNat (UInt8.ofNat c.toNat).toNat = c
    rw [hb c hc, Char.ofNat_toNat]
  · intro b hb'
    obtain ⟨c, hc, rfl⟩ := List.mem_map.mp hb'
    rw [hb c hc]
    exact (h c hc).2

theorem decode_ok {b : Bytes} (h : ∀ c ∈ b, c < 128) : ∃ t, decode b = .ok t := by
  unfold decode
  rw [if_pos (by rw [List.all_eq_true]; intro c hc; exact decide_eq_true (h c hc))]
  exact ⟨_, rfl⟩

theorem toSigned_small {n : Nat} (h : n < 32768) : toSigned 2 n = (n : Int) := by
  unfold toSigned
  rw [if_pos (by omega)]

/-- Reading the header. -/
theorem head_read {hd : Head} (hok : HeadOk hd) {n w ht ty : Nat} (hn : n < 32768) (hw : w < 32768) (hh : ht < 32768) (hty : ty < 32768) (tail : Bytes) :
    ∃ H, header (headBytes hd n w ht ty ++ tail) = .ok H ∧ H.comLen = n ∧ H.width = w ∧ H.height = ht ∧ H.fileType = ty := by
  obtain ⟨m1, m2, i1, i2⟩ := hok
  obtain ⟨f, hf⟩ : ∃ f, f = headBytes hd n w ht ty ++ tail := ⟨_, rfl⟩
  have hf' := hf
  unfold headBytes at hf'
  have mod : ∀ {x : Nat}, x < 32768 → x % 256 ^ 2 = x := fun h => Nat.mod_eq_of_lt (by omega)
  have e0 : chunk f 0 2 = hd.magic := chunk_at (A := []) (by rw [hf']; simp only [List.append_assoc, List.nil_append]; rfl) rfl m1
  have e1 : number f 2 2 = .ok n := by
    rw [number_at (A := hd.magic) (v := n) (by rw [hf']; simp only [List.append_assoc]; rfl) m1, mod hn]
  have e2 : number f 4 2 = .ok w := by
    rw [number_at (A := hd.magic ++ leBytes 2 n) (v := w) (by rw [hf']; simp only [List.append_assoc]; rfl) (by simp [leBytes_length, m1]), mod hw]
  have e3 : number f 6 2 = .ok ht := by
    rw [number_at (A := hd.magic ++ leBytes 2 n ++ leBytes 2 w) (v := ht) (by rw [hf']; simp only [List.append_assoc]; rfl) (by simp [leBytes_length, m1]), mod hh]
  have e4 := number_at (f := f) (A := hd.magic ++ leBytes 2 n ++ leBytes 2 w ++ leBytes 2 ht) (v := hd.offsetX) (by rw [hf']; simp only [List.append_assoc]; rfl)
    (o := 8) (by simp [leBytes_length, m1])
  have e5 := number_at (f := f) (A := hd.magic ++ leBytes 2 n ++ leBytes 2 w ++ leBytes 2 ht ++ leBytes 2 hd.offsetX) (v := hd.offsetY)
    (by rw [hf']; simp only [List.append_assoc]; rfl) (o := 10) (by simp [leBytes_length, m1])
  have e6 : number f 12 2 = .ok ty := by
    rw [number_at (A := hd.magic ++ leBytes 2 n ++ leBytes 2 w ++ leBytes 2 ht ++ leBytes 2 hd.offsetX ++ leBytes 2 hd.offsetY) (v := ty)
      (by rw [hf']; simp only [List.append_assoc]; rfl) (by simp [leBytes_length, m1]), mod hty]
  have e7 := number_at (f := f) (A := hd.magic ++ leBytes 2 n ++ leBytes 2 w ++ leBytes 2 ht ++ leBytes 2 hd.offsetX ++ leBytes 2 hd.offsetY ++ leBytes 2 ty) (v := hd.images)
    (by rw [hf']; simp only [List.append_assoc]; rfl) (o := 14) (by simp [leBytes_length, m1])
  have e8 := number_at (f := f) (A := hd.magic ++ leBytes 2 n ++ leBytes 2 w ++ leBytes 2 ht ++ leBytes 2 hd.offsetX ++ leBytes 2 hd.offsetY ++ leBytes 2 ty ++ leBytes 4 hd.images)
    (v := hd.channels) (by rw [hf']; simp only [List.append_assoc]; rfl) (o := 18) (by simp [leBytes_length, m1])
  have e9 := number_at (f := f) (A := hd.magic ++ leBytes 2 n ++ leBytes 2 w ++ leBytes 2 ht ++ leBytes 2 hd.offsetX ++ leBytes 2 hd.offsetY ++ leBytes 2 ty ++ leBytes 4 hd.images ++
    leBytes 2 hd.channels) (v := hd.channel) (by rw [hf']; simp only [List.append_assoc]; rfl) (o := 20) (by simp [leBytes_length, m1])
  have e10 := number_at (f := f) (A := hd.magic ++ leBytes 2 n ++ leBytes 2 w ++ leBytes 2 ht ++ leBytes 2 hd.offsetX ++ leBytes 2 hd.offsetY ++ leBytes 2 ty ++ leBytes 4 hd.images ++
    leBytes 2 hd.channels ++ leBytes 2 hd.channel) (v := hd.timestamp) (by rw [hf']; simp only [List.append_assoc]; rfl) (o := 22) (by simp [leBytes_length, m1])
  have e11 : chunk f 30 34 = hd.info := chunk_at (A := hd.magic ++ leBytes 2 n ++ leBytes 2 w ++ leBytes 2 ht ++ leBytes 2 hd.offsetX ++ leBytes 2 hd.offsetY ++ leBytes 2 ty ++
    leBytes 4 hd.images ++ leBytes 2 hd.channels ++ leBytes 2 hd.channel ++ leBytes 8 hd.timestamp) (B := tail) (by rw [hf']) (by simp [leBytes_length, m1]) i1
  have hsub : ∀ o k, 30 ≤ o → o + k ≤ 64 → ∀ b ∈ chunk f o k, b < 128 := by
    intro o k h1 h2 b hb
    have e : chunk f o k = ((chunk f 30 34).drop (o - 30)).take k := by
      unfold chunk
      rw [List.drop_take, List.drop_drop, List.take_take, Nat.min_eq_left (by omega)]
      congr 2
      omega
    rw [e, e11] at hb
    exact i2 b (List.mem_of_mem_drop (List.mem_of_mem_take hb))
  obtain ⟨t0, ht0⟩ := decode_ok (b := chunk f 0 2) (by rw [e0]; exact m2)
  obtain ⟨t1, ht1⟩ := decode_ok (hsub 30 4 (by omega) (by omega))
  obtain ⟨t2, ht2⟩ := decode_ok (hsub 34 30 (by omega) (by omega))
  rw [← hf]
  refine ⟨⟨toSigned 2 n, toSigned 2 w, toSigned 2 ht, toSigned 2 (hd.offsetX % 256 ^ 2), toSigned 2 (hd.offsetY % 256 ^ 2), toSigned 2 ty,
    toSigned 4 (hd.images % 256 ^ 4), toSigned 2 (hd.channels % 256 ^ 2), toSigned 2 (hd.channel % 256 ^ 2), hd.timestamp % 256 ^ 8⟩, ?_,
    toSigned_small hn, toSigned_small hw, toSigned_small hh, toSigned_small hty⟩
  unfold header signed
  rw [ht0, e1, e2, e3, e4, e5, e6, e7, e8, e9, e10, ht1, ht2]
  rfl

theorem headBytes_length {hd : Head} (hok : HeadOk hd) (n w ht ty : Nat) : (headBytes hd n w ht ty).length = 64 := by
  unfold headBytes
  simp [leBytes_length, hok.1, hok.2.2.1]

/-- Pieces of the same length. -/
theorem flat_chunk {b : Nat} {g : Nat → Bytes} : ∀ {m : Nat}, (∀ k, k < m → (g k).length = b) →
    ((List.range m).flatMap g).length = m * b ∧ ∀ k, k < m → (((List.range m).flatMap g).drop (b * k)).take b = g k
  | 0, _ => ⟨by simp, fun k hk => absurd hk (by omega)⟩
  | m + 1, h => by
    obtain ⟨i1, i2⟩ := flat_chunk (m := m) fun k hk => h k (by omega)
    have hm := h m (by omega)
    rw [List.range_succ, List.flatMap_append]
    have hs : List.flatMap g [m] = g m := by simp
    rw [hs]
    refine ⟨by rw [List.length_append, i1, hm]; ring, fun k hk => ?_⟩
    by_cases hkm : k = m
    · subst hkm
      rw [List.drop_append_of_le_length (by rw [i1, Nat.mul_comm]), List.drop_of_length_le (by rw [i1, Nat.mul_comm]), List.nil_append, List.take_of_length_le (by omega)]
    · have hk' : k < m := by omega
      have hle : b * k + b ≤ m * b := by
        calc b * k + b = b * (k + 1) := by ring
          _ ≤ b * m := Nat.mul_le_mul_left _ (by omega)
          _ = m * b := Nat.mul_comm _ _
      rw [List.drop_append_of_le_length (by rw [i1]; omega), List.take_append_of_le_length (by rw [List.length_drop, i1]; omega)]
      exact i2 k hk'

theorem take_sub {L : Bytes} {p B q b : Nat} (h : q + b ≤ B) : (L.drop (p + q)).take b = (((L.drop p).take B).drop q).take b := by
  rw [List.drop_take, List.drop_drop, List.take_take, Nat.min_eq_left (by omega)]

/-- The pixels. -/
theorem pixels_read {A R : Bytes} {w ht bytes : Nat} (hb : 0 < bytes) {px : Nat → Nat → Nat} (hpx : ∀ i j, i < ht → j < w → px i j < 256 ^ bytes) :
    (numbers (A ++ (List.range ht).flatMap (fun i => (List.range w).flatMap fun j => leBytes bytes (px i j)) ++ R) A.length bytes (w * ht)).length = w * ht ∧
    ∀ i j, i < ht → j < w →
      (numbers (A ++ (List.range ht).flatMap (fun i => (List.range w).flatMap fun j => leBytes bytes (px i j)) ++ R) A.length bytes (w * ht))[i * w + j]? = some (px i j) := by
  obtain ⟨D, hD⟩ : ∃ D, D = (List.range ht).flatMap (fun i => (List.range w).flatMap fun j => leBytes bytes (px i j)) := ⟨_, rfl⟩
  have hrow : ∀ i, ((List.range w).flatMap fun j => leBytes bytes (px i j)).length = w * bytes := fun i => (flat_chunk fun k _ => leBytes_length _ _).1
  obtain ⟨d1, d2⟩ := flat_chunk (g := fun i => (List.range w).flatMap fun j => leBytes bytes (px i j)) (m := ht) (b := w * bytes) (fun k _ => hrow k)
  rw [← hD] at d1 d2 ⊢
  have hmin : min (w * ht) (((A ++ D ++ R).length - A.length) / bytes) = w * ht := by
    apply Nat.min_eq_left
    rw [Nat.le_div_iff_mul_le hb]
    rw [List.length_append, List.length_append, d1]
    have : w * ht * bytes = ht * (w * bytes) := by ring
    omega
  refine ⟨by unfold numbers; rw [List.length_map, List.length_range, hmin], fun i j hi hj => ?_⟩
  have hk : i * w + j < w * ht := by
    calc i * w + j < i * w + w := by omega
      _ = w * (i + 1) := by ring
      _ ≤ w * ht := Nat.mul_le_mul_left _ (by omega)
  unfold numbers
  rw [hmin, List.getElem?_map, List.getElem?_range hk, Option.map_some]
  congr 1
  have hlen : w * bytes * i + bytes * j + bytes ≤ D.length := by
    rw [d1]
    calc w * bytes * i + bytes * j + bytes = bytes * (w * i + (j + 1)) := by ring
      _ ≤ bytes * (w * i + w) := Nat.mul_le_mul_left _ (by omega)
      _ = (w * bytes) * (i + 1) := by ring
      _ ≤ (w * bytes) * ht := Nat.mul_le_mul_left _ (by omega)
      _ = ht * (w * bytes) := by ring
  have hc : chunk (A ++ D ++ R) (A.length + bytes * (i * w + j)) bytes = leBytes bytes (px i j) := by
    unfold chunk
    have e1 : A.length + bytes * (i * w + j) = A.length + (w * bytes * i + bytes * j) := by ring
    rw [e1, ← List.drop_drop, List.append_assoc, List.drop_left, List.drop_append_of_le_length (by omega),
      List.take_append_of_le_length (by rw [List.length_drop]; omega), take_sub (B := w * bytes), d2 i hi]
    · exact (flat_chunk (g := fun j => leBytes bytes (px i j)) fun k _ => leBytes_length _ _).2 j hj
    · calc bytes * j + bytes = bytes * (j + 1) := by ring
        _ ≤ bytes * w := Nat.mul_le_mul_left _ (by omega)
        _ = w * bytes := by ring
  rw [hc, leVal_leBytes (hpx i j hi hj)]

/-- A table of numbers. -/
theorem table_read {f : Bytes} {pos : Nat} {xs : List Rat} (h : Table f pos xs) : (numbers f pos 4 xs.length).map f32Dec = xs := by
  have hlen : ∀ k, k < xs.length → pos + 4 * k + 4 ≤ f.length := by
    intro k hk
    obtain ⟨bits, _, _, hb⟩ := h k xs[k] (List.getElem?_eq_getElem hk)
    have := congrArg List.length hb
    rw [leBytes_length, List.length_take, List.length_drop] at this
    omega
  have hmin : min xs.length ((f.length - pos) / 4) = xs.length := by
    apply Nat.min_eq_left
    rw [Nat.le_div_iff_mul_le (by omega)]
    cases hx : xs.length with
    | zero => omega
    | succ m =>
      have := hlen m (by omega)
      omega
  unfold numbers
  rw [hmin]
  apply List.ext_getElem
  · simp
  · intro k h1 h2
    obtain ⟨bits, b1, b2, b3⟩ := h k xs[k] (List.getElem?_eq_getElem h2)
    simp only [List.getElem_map, List.getElem_range]
    unfold chunk
    rw [b3, leVal_leBytes b1, b2]

theorem no_comma (n : Nat) : ',' ∉ decChars n := fun h => absurd (decChars_digits n _ h) (by decide)

theorem calData_table {f : Bytes} {pos : Nat} {xs : List Rat} (h : Table f pos xs) :
    calData f (some ('#' :: decChars pos ++ ',' :: decChars xs.length)) = .ok (xs, decide (xs.length = 1)) := by
  have ht := table_read h
  have hs : splitChar ',' (decChars pos ++ ',' :: decChars xs.length) = [decChars pos, decChars xs.length] := by
    rw [splitChar_append (no_comma _), splitChar_none (no_comma _)]
  have hlen : (numbers f pos 4 xs.length).length = xs.length := by
    have := congrArg List.length ht
    rwa [List.length_map] at this
  unfold calData
  simp only [List.cons_append]
  rw [if_neg (by simp), hs]
  dsimp only
  rw [intLit_dec, intLit_dec]
  simp only [bind, Except.bind]
  rw [if_neg (by omega), if_neg (show ¬ ((xs.length : Int) < 0) by omega)]
  rw [show ((xs.length : Int)).toNat = xs.length from rfl, show ((pos : Int)).toNat = pos from rfl, ht]
  rw [if_neg]
  · congr 2
    apply decide_eq_decide.mpr
    omega
  · rintro ⟨h1, h2⟩
    rw [h2] at hlen
    simp at hlen
    omega

/-! ### Axes -/

/-- The table begins with a greater value. -/
def turned : Option (List Rat) → Bool
  | some (a :: b :: _) => decide (a > b)
  | _ => false

/-- The table of the result. -/
def forward (t : Option (List Rat)) : Option (List Rat) := t.map fun xs => if turned t then xs.reverse else xs

/-- The calibration of the result. -/
def calOf (u : Bool) (n : Nat) : Option (List Rat) → Cal
  | none => .uniform 0 1 n
  | some xs => if u then .uniform (fitAxis xs).1 (fitAxis xs).2 xs.length else .points xs

theorem turned_iff {t : Option (List Rat)} : turned t = true ↔ Backwards t := by
  unfold Backwards
  constructor
  · intro h
    match t, h with
    | some (a :: b :: r), h => exact ⟨a, b, r, rfl, of_decide_eq_true h⟩
  · rintro ⟨a, b, r, rfl, h⟩
    exact decide_eq_true h

theorem getKw_entries {d : List (Text × Value)} (hn : (d.map Prod.fst).Nodup) {k : Text} {v : Value} (h : (k, v) ∈ d) :
    getKw k (d.map fun e => (e.1, e.2.text)) = some v.text := by
  apply getKw_mem
  · rw [List.map_map]; exact hn
  · exact List.mem_map.mpr ⟨(k, v), h, rfl⟩

theorem int_one : intLit ['1'] = .ok 1 := by decide +kernel
theorem int_two : intLit ['2'] = .ok 2 := by decide +kernel

/-- The axis x. -/
theorem axis_x {f : Bytes} {d : List (Text × Value)} (hn : (d.map Prod.fst).Nodup) {w : Nat} {X : Option (List Rat)} (hX : Scaled f d "X" w X) (h2 : X ≠ none → 2 ≤ w)
    (u : Bool) (ht : Nat) :
    ∃ type a, intOf (scalingEntry (d.map fun e => (e.1, e.2.text)) "Type").1 = .ok type ∧
      setAxis f true u w ht type (scalingEntry (d.map fun e => (e.1, e.2.text)) "Unit").1 (scalingEntry (d.map fun e => (e.1, e.2.text)) "ScalingFile").1 = .ok (a, turned X) ∧
      a.cal = calOf u w (forward X) ∧ (X = none → a.name = "Uncalibrated X axis".toList ∧ a.units = some "px".toList) ∧
      (X ≠ none → a.name = "Wavelength".toList ∧ a.units = getKw "ScalingXUnit".toList (d.map fun e => (e.1, e.2.text))) := by
  cases X with
  | none =>
    obtain ⟨v, hv, e⟩ := hX
    have hk : (scalingEntry (d.map fun e => (e.1, e.2.text)) "Type").1 = some ['1'] := by
      rw [← e]; exact getKw_entries hn hv
    refine ⟨1, ⟨"Uncalibrated X axis".toList, some "px".toList, .uniform 0 1 w⟩, by rw [hk]; exact int_one, ?_, rfl, fun _ => ⟨rfl, rfl⟩, fun h => absurd rfl h⟩
    unfold setAxis
    rw [if_pos rfl]
    rfl
  | some xs =>
    obtain ⟨hl, ⟨v, hv, e⟩, pos, v', hv', e', tb⟩ := hX
    have hk : (scalingEntry (d.map fun e => (e.1, e.2.text)) "Type").1 = some ['2'] := by
      rw [← e]; exact getKw_entries hn hv
    have hf : (scalingEntry (d.map fun e => (e.1, e.2.text)) "ScalingFile").1 = some ('#' :: decChars pos ++ ',' :: decChars xs.length) := by
      rw [hl, ← e']; exact getKw_entries hn hv'
    have hw : 2 ≤ xs.length := by rw [hl]; exact h2 (by simp)
    refine ⟨2, ⟨"Wavelength".toList, getKw "ScalingXUnit".toList (d.map fun e => (e.1, e.2.text)), calOf u w (forward (some xs))⟩, by rw [hk]; exact int_two, ?_, rfl,
      fun h => absurd h (by simp), fun _ => ⟨rfl, rfl⟩⟩
    unfold setAxis
    rw [if_neg (by decide), if_pos rfl, hf, calData_table tb]
    simp only [bind, Except.bind]
    rw [if_pos trivial, show decide (xs.length = 1) = false by simp; omega, if_neg (by simp)]
    match xs, hw with
    | a :: b :: r, hw =>
      dsimp only
      obtain ⟨ys, hys⟩ : ∃ ys, ys = (if decide (a > b) = true then (a :: b :: r).reverse else a :: b :: r) := ⟨_, rfl⟩
      have hly : 2 ≤ ys.length := by rw [hys]; split <;> simp
      have hfw : forward (some (a :: b :: r)) = some ys := by rw [hys]; rfl
      rw [hfw, ← hys]
      cases u with
      | false => rfl
      | true =>
        have n1 : ys.length ≠ 1 := by omega
        have n2 : ¬ (false = true ∨ ys = []) := by
          rintro (h | h)
          · cases h
          · rw [h] at hly; simp at hly
        rw [if_pos trivial, if_pos rfl, if_neg n2, if_neg n1]
        rfl

/-- The axis y. -/
theorem axis_y {f : Bytes} {d : List (Text × Value)} (hn : (d.map Prod.fst).Nodup) {ht : Nat} {Y : Option (List Rat)} (hY : Scaled f d "Y" ht Y)
    (u : Bool) (h2 : u = true → Y ≠ none → 2 ≤ ht) (w : Nat) :
    ∃ type a r, intOf (scalingEntry (d.map fun e => (e.1, e.2.text)) "Type").2 = .ok type ∧
      setAxis f false u w ht type (scalingEntry (d.map fun e => (e.1, e.2.text)) "Unit").2 (scalingEntry (d.map fun e => (e.1, e.2.text)) "ScalingFile").2 = .ok (a, r) ∧
      a.cal = calOf u ht Y ∧ (Y = none → a.name = "Vertical CCD Position".toList ∧ a.units = some "px".toList) ∧
      (Y ≠ none → a.name = "Time".toList ∧ a.units = (getKw "ScalingYUnit".toList (d.map fun e => (e.1, e.2.text))).map fun t => if t = "us".toList then "µs".toList else t) := by
  have hent : ∀ (name : String) (t : Text), getKw ("ScalingY" ++ name).toList (d.map fun e => (e.1, e.2.text)) = some t → t ≠ "us".toList →
      (scalingEntry (d.map fun e => (e.1, e.2.text)) name).2 = some t := by
    intro name t h1 h2
    unfold scalingEntry
    dsimp only
    simp only [h1]
    rw [if_neg h2]
  cases Y with
  | none =>
    obtain ⟨v, hv, e⟩ := hY
    have hk : (scalingEntry (d.map fun e => (e.1, e.2.text)) "Type").2 = some ['1'] := by
      apply hent
      · rw [← e]; exact getKw_entries hn hv
      · decide
    refine ⟨1, ⟨"Vertical CCD Position".toList, some "px".toList, .uniform 0 1 ht⟩, false, by rw [hk]; exact int_one, ?_, rfl, fun _ => ⟨rfl, rfl⟩, fun h => absurd rfl h⟩
    unfold setAxis
    rw [if_pos rfl]
    rfl
  | some xs =>
    obtain ⟨hl, ⟨v, hv, e⟩, pos, v', hv', e', tb⟩ := hY
    have hk : (scalingEntry (d.map fun e => (e.1, e.2.text)) "Type").2 = some ['2'] := by
      apply hent
      · rw [← e]; exact getKw_entries hn hv
      · decide
    have hf : (scalingEntry (d.map fun e => (e.1, e.2.text)) "ScalingFile").2 = some ('#' :: decChars pos ++ ',' :: decChars xs.length) := by
      apply hent
      · rw [hl, ← e']; exact getKw_entries hn hv'
      · intro h
        have := congrArg List.head? h
        simp at this
    refine ⟨2, ⟨"Time".toList, (getKw "ScalingYUnit".toList (d.map fun e => (e.1, e.2.text))).map fun t => if t = "us".toList then "µs".toList else t, calOf u ht (some xs)⟩, false,
      by rw [hk]; exact int_two, ?_, rfl, fun h => absurd h (by simp), fun _ => ⟨rfl, rfl⟩⟩
    have hu : (scalingEntry (d.map fun e => (e.1, e.2.text)) "Unit").2 =
        (getKw "ScalingYUnit".toList (d.map fun e => (e.1, e.2.text))).map fun t => if t = "us".toList then "µs".toList else t := by
      unfold scalingEntry
      dsimp only
      show (match getKw "ScalingYUnit".toList (d.map fun e => (e.1, e.2.text)) with | some y => _ | none => _) = _
      cases getKw "ScalingYUnit".toList (d.map fun e => (e.1, e.2.text)) <;> rfl
    unfold setAxis
    rw [if_neg (by decide), if_pos rfl, hf, calData_table tb, hu]
    simp only [bind, Except.bind]
    rw [if_neg (by decide)]
    cases u with
    | false => rfl
    | true =>
      have h2 : 2 ≤ xs.length := by rw [hl]; exact h2 rfl (by simp)
      have n1 : xs.length ≠ 1 := by omega
      have n2 : ¬ (decide (xs.length = 1) = true ∨ xs = []) := by
        rintro (h | h)
        · exact n1 (of_decide_eq_true h)
        · rw [h] at h2; simp at h2
      rw [if_pos rfl, if_neg n2, if_neg n1]
      rfl

theorem calOf_size {u : Bool} {n : Nat} {t : Option (List Rat)} (h : ∀ xs, t = some xs → xs.length = n) (a : Axis) (ha : a.cal = calOf u n t) : a.size = n := by
  unfold Axis.size
  rw [ha]
  cases t with
  | none => rfl
  | some xs => cases u <;> simp [calOf, h xs rfl]

theorem scaled_length {f : Bytes} {d : List (Text × Value)} {axis : String} {n : Nat} {t : Option (List Rat)} (h : Scaled f d axis n t) :
    ∀ xs, t = some xs → xs.length = n := by
  rintro xs rfl
  exact h.1

theorem forward_length {t : Option (List Rat)} {n : Nat} (h : ∀ xs, t = some xs → xs.length = n) : ∀ xs, forward t = some xs → xs.length = n := by
  intro xs hx
  unfold forward at hx
  cases t with
  | none => simp at hx
  | some ys =>
    rw [Option.map_some] at hx
    cases hx
    split
    · rw [List.length_reverse]; exact h ys rfl
    · exact h ys rfl

/-- Rows of the image. -/
theorem reshape_rows {data : List Nat} {ht w : Nat} (hl : data.length = w * ht) (rev : Bool) :
    ∃ rows, reshape data ht w rev = .ok rows ∧ rows.length = ht ∧ (∀ r ∈ rows, r.length = w) ∧
      ∀ i j, i < ht → j < w → (rows[i]?.bind fun r => r[if rev then w - 1 - j else j]?) = data[i * w + j]? := by
  have hrow : ∀ i, i < ht → ((data.drop (i * w)).take w).length = w := by
    intro i hi
    rw [List.length_take, List.length_drop, hl]
    apply Nat.min_eq_left
    have : i * w + w ≤ w * ht := by
      calc i * w + w = w * (i + 1) := by ring
        _ ≤ w * ht := Nat.mul_le_mul_left _ (by omega)
    omega
  refine ⟨_, by unfold reshape; rw [if_neg (by rw [hl, Nat.mul_comm]; simp)], by simp, ?_, ?_⟩
  · intro r hr
    obtain ⟨i, hi, rfl⟩ := List.mem_map.mp hr
    rw [List.mem_range] at hi
    dsimp only
    split
    · rw [List.length_reverse]; exact hrow i hi
    · exact hrow i hi
  · intro i j hi hj
    rw [List.getElem?_map, List.getElem?_range hi, Option.map_some, Option.bind_some]
    dsimp only
    cases rev with
    | false =>
      simp only [Bool.false_eq_true, if_false]
      rw [List.getElem?_take_of_lt hj, List.getElem?_drop]
    | true =>
      simp only [if_true]
      rw [List.getElem?_reverse (by rw [hrow i hi]; omega), hrow i hi, List.getElem?_take_of_lt (by omega), List.getElem?_drop]
      congr 1
      omega

theorem pixelBytes_of {ty bytes : Nat} (h : PixelType ty bytes) : pixelBytes (ty : Int) = .ok bytes ∧ 0 < bytes ∧ ty < 32768 := by
  unfold PixelType at h
  simp only [List.mem_cons, Prod.mk.injEq, List.mem_nil_iff, or_false] at h
  rcases h with ⟨rfl, rfl⟩ | ⟨rfl, rfl⟩ | ⟨rfl, rfl⟩ <;> exact ⟨rfl, by omega, by omega⟩

/-- Reading an image. -/
theorem read_image {hd : Head} (hok : HeadOk hd) {ss : List Section} (hss : ∀ x ∈ ss, SectionOk x) (hnd : (ss.map Section.name).Nodup)
    {sc : Section} (hsc : sc ∈ ss) (hname : sc.name = "Scaling".toList) (hc : Ascii (comment ss)) (hcl : (comment ss).length < 32768)
    {w ht ty bytes : Nat} (hw : w < 32768) (hht : ht < 32768) (hty : PixelType ty bytes) {px : Nat → Nat → Nat} (hpx : ∀ i j, i < ht → j < w → px i j < 256 ^ bytes)
    {rest f : Bytes} (hf : f = fileBytes hd (comment ss) w ht ty bytes px rest) {X Y : Option (List Rat)} (hX : Scaled f sc.entries "X" w X) (hY : Scaled f sc.entries "Y" ht Y)
    (h2 : X ≠ none → 2 ≤ w) (u : Bool) (h3 : u = true → Y ≠ none → 2 ≤ ht) :
    ∃ img, readImg f u = .ok img ∧ img.comment = ss.map (fun x => (x.name, x.content)) ∧ img.data.length = ht ∧ (∀ r ∈ img.data, r.length = w) ∧
      (∀ i j, i < ht → j < w → (img.data[i]?.bind fun r => r[if turned X then w - 1 - j else j]?) = some (px i j)) ∧
      img.x.cal = calOf u w (forward X) ∧ img.y.cal = calOf u ht Y ∧
      (X = none → img.x.name = "Uncalibrated X axis".toList ∧ img.x.units = some "px".toList) ∧
      (X ≠ none → img.x.name = "Wavelength".toList ∧ img.x.units = getKw "ScalingXUnit".toList (sc.entries.map fun e => (e.1, e.2.text))) ∧
      (Y = none → img.y.name = "Vertical CCD Position".toList ∧ img.y.units = some "px".toList) ∧
      (Y ≠ none → img.y.name = "Time".toList ∧ img.y.units = (getKw "ScalingYUnit".toList (sc.entries.map fun e => (e.1, e.2.text))).map fun t => if t = "us".toList then "µs".toList else t) := by
  obtain ⟨p1, p2, p3⟩ := pixelBytes_of hty
  obtain ⟨H, e1, e2, e3, e4, e5⟩ := head_read hok hcl hw hht p3 (ascii (comment ss) ++ (List.range ht).flatMap (fun i => (List.range w).flatMap fun j => leBytes bytes (px i j)) ++ rest)
  have hfe : f = headBytes hd (comment ss).length w ht ty ++ (ascii (comment ss) ++ (List.range ht).flatMap (fun i => (List.range w).flatMap fun j => leBytes bytes (px i j)) ++ rest) := by
    rw [hf]; unfold fileBytes; simp only [List.append_assoc]
  have hh : header f = .ok H := by rw [hfe]; exact e1
  have hasc : (ascii (comment ss)).length = (comment ss).length := by unfold ascii; simp
  have hcom : decode (chunk f 64 (comment ss).length) = .ok (comment ss) := by
    rw [chunk_at (A := headBytes hd (comment ss).length w ht ty) (M := ascii (comment ss)) (by rw [hf]; unfold fileBytes; simp only [List.append_assoc]; rfl)
      (headBytes_length hok _ _ _ _) hasc]
    exact decode_text hc
  have hA : (headBytes hd (comment ss).length w ht ty ++ ascii (comment ss)).length = 64 + (comment ss).length := by
    rw [List.length_append, headBytes_length hok, hasc]
  obtain ⟨q1, q2⟩ := pixels_read (A := headBytes hd (comment ss).length w ht ty ++ ascii (comment ss)) (R := rest) p2 hpx
  rw [hA, show headBytes hd (comment ss).length w ht ty ++ ascii (comment ss) ++ (List.range ht).flatMap (fun i => (List.range w).flatMap fun j => leBytes bytes (px i j)) ++ rest = f from hf.symm] at q1 q2
  have hpf : parseFile f = .ok (H, comment ss, numbers f (64 + (comment ss).length) bytes (w * ht)) := by
    unfold parseFile
    rw [hh]
    simp only [bind, Except.bind]
    rw [if_neg (by omega), e2, show ((comment ss).length : Int).toNat = (comment ss).length from rfl, hcom]
    dsimp only
    rw [e5, p1]
    dsimp only
    rw [if_neg (by omega), e3, e4]
    rfl
  have hsok := hss sc hsc
  have hnodup : (sc.entries.map Prod.fst).Nodup := hsok.2.2.2.2.2
  obtain ⟨xt, ax, a1, a2, a3, a4, a5⟩ := axis_x hnodup hX h2 u ht
  obtain ⟨yt, ay, r, b1, b2, b3, b4, b5⟩ := axis_y hnodup hY u h3 w
  have hcont : sc.content = .dict (sc.entries.map fun e => (e.1, e.2.text)) := by
    unfold Section.content
    split
    · rename_i h0
      exfalso
      cases X with
      | none => obtain ⟨v, hv, _⟩ := hX; rw [h0] at hv; cases hv
      | some xs => obtain ⟨_, ⟨v, hv, _⟩, _⟩ := hX; rw [h0] at hv; cases hv
    · rfl
  have hget : getKw "Scaling".toList (ss.map fun x => (x.name, x.content)) = some sc.content := by
    apply getKw_mem
    · rw [List.map_map]; exact hnd
    · exact List.mem_map.mpr ⟨sc, hsc, by rw [hname]⟩
  have hsec : sectionOf (ss.map fun x => (x.name, x.content)) "Scaling" = .ok (sc.entries.map fun e => (e.1, e.2.text)) := by
    unfold sectionOf
    rw [hget, hcont]
  have hax : getAxes f (ss.map fun x => (x.name, x.content)) u w ht = .ok (ay, ax, turned X) := by
    unfold getAxes
    rw [hsec]
    simp only [bind, Except.bind]
    rw [a1, b1]
    dsimp only
    rw [a2]
    dsimp only
    rw [b2]
  have hpr : process (comment ss) = .ok (ss.map fun x => (x.name, x.content)) := Hamamatsu.process_comment (List.ne_nil_of_mem hsc) hss hnd
  obtain ⟨rows, r1, r2, r3, r4⟩ := reshape_rows q1 (turned X)
  have hsx : ax.size = w := calOf_size (forward_length (scaled_length hX)) ax a3
  have hsy : ay.size = ht := calOf_size (scaled_length hY) ay b3
  refine ⟨⟨ay, ax, rows, ss.map fun x => (x.name, x.content)⟩, ?_, rfl, r2, r3, ?_, a3, b3, a4, a5, b4, b5⟩
  · unfold readImg
    rw [hpf]
    simp only [bind, Except.bind]
    rw [hpr]
    dsimp only
    rw [e3, e4, show (w : Int).toNat = w from rfl, show (ht : Int).toNat = ht from rfl, hax]
    dsimp only
    rw [hsx, hsy, r1]
  · intro i j hi hj
    rw [r4 i j hi hj]
    exact q2 i j hi hj

end Verif.Lemmas.HamamatsuImage
