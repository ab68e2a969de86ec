import Verif.Model.DMImage
/-! C42: packed complex images. -/
namespace Verif.Props.DMImage
open Verif Verif.DMImage

/-- Position of the complex conjugate partner of row or column `i` of `n`: the frequency `-i`. -/
def mirror (n i : Nat) : Nat := (n - i) % n

/-- Hermitian about the centre `(h/2, w/2)`, the zero frequency. -/
def Hermitian {α : Type} (s : Scalar α) (h w : Nat) (d : Img α) : Prop :=
  ∀ i j, i < h → j < w → d (mirror h i) (mirror w j) = ((d i j).1, s.neg (d i j).2)

theorem mirror_zero {n : Nat} : mirror n 0 = 0 := by simp [mirror]
theorem mirror_pos {n i : Nat} (h : 0 < i) (h' : i < n) : mirror n i = n - i :=
  Nat.mod_eq_of_lt (by omega)

section
variable {α : Type} (s : Scalar α) (t : List α) (N : Nat)

/-- The unpacked image. -/
private def full : Img α := stepSymmetric s N (stepStored s t N (stepReal s t N))

local macro "pix" : tactic => `(tactic| (
  simp only [full, stepSymmetric, stepStored, stepReal, assign]
  repeat (first | rw [if_pos (by omega)] | rw [if_neg (by omega)])))

private theorem p00 (hN : 0 < N) : full s t N 0 0 = (nth s t 1, s.zero) := by pix
private theorem pN0 (hN : 0 < N) : full s t N N 0 = (nth s t 0, s.zero) := by pix
private theorem pNN (hN : 0 < N) : full s t N N N = (nth s t (2 * (N * N)), s.zero) := by pix
private theorem p0N (hN : 0 < N) : full s t N 0 N = (nth s t (2 * (N * N) + 1), s.zero) := by pix

private theorem pA {i j : Nat} (hi : i < N) (hj : N < j) (hj' : j < 2 * N) :
    full s t N i j = pair s t (2 * (i * N) + 2 + 2 * (j - (N + 1))) := by pix
private theorem pB {i : Nat} (hi : N < i) (hi' : i < 2 * N) :
    full s t N i 0 = pair s t (2 * N + 2 * (N * (i - (N + 1)))) := by pix
private theorem pC {j : Nat} (hj : N < j) (hj' : j < 2 * N) :
    full s t N N j = pair s t (2 * (N * N) + 2 + 2 * (j - (N + 1))) := by pix
private theorem pD {i j : Nat} (hi : N < i) (hi' : i < 2 * N) (hj : N ≤ j) (hj' : j < 2 * N) :
    full s t N i j = pair s t (2 * (N * N) + 2 * N + 2 * (N * (i - (N + 1)) + (j - N))) := by pix

private theorem q0 {j : Nat} (hj : 0 < j) (hj' : j < N) :
    full s t N 0 j = conj s (full s t N 0 (2 * N - j)) := by
  rw [pA s t N (i := 0) (j := 2 * N - j) (by omega) (by omega) (by omega)]; pix
private theorem qN {j : Nat} (hj : 0 < j) (hj' : j < N) :
    full s t N N j = conj s (full s t N N (2 * N - j)) := by
  rw [pC s t N (j := 2 * N - j) (by omega) (by omega)]; pix
private theorem qc0 {i : Nat} (hi : 0 < i) (hi' : i < N) :
    full s t N i 0 = conj s (full s t N (2 * N - i) 0) := by
  rw [pB s t N (i := 2 * N - i) (by omega) (by omega)]; pix
private theorem qcN {i : Nat} (hi : 0 < i) (hi' : i < N) :
    full s t N i N = conj s (full s t N (2 * N - i) N) := by
  rw [pD s t N (i := 2 * N - i) (j := N) (by omega) (by omega) (by omega) (by omega)]; pix
private theorem qtl {i j : Nat} (hi : 0 < i) (hi' : i < N) (hj : 0 < j) (hj' : j < N) :
    full s t N i j = conj s (full s t N (2 * N - i) (2 * N - j)) := by
  rw [pD s t N (i := 2 * N - i) (j := 2 * N - j) (by omega) (by omega) (by omega) (by omega)]; pix
private theorem qbl {i j : Nat} (hi : N < i) (hi' : i < 2 * N) (hj : 0 < j) (hj' : j < N) :
    full s t N i j = conj s (full s t N (2 * N - i) (2 * N - j)) := by
  rw [pA s t N (i := 2 * N - i) (j := 2 * N - j) (by omega) (by omega) (by omega)]; pix

private theorem full_eq {d : Img α} (h : unpackPacked s (2 * N) (2 * N) t = .ok d) :
    0 < N ∧ 4 * (N * N) ≤ t.length ∧ d = full s t N := by
  have hN : 2 * N / 2 = N := by omega
  unfold unpackPacked at h
  rw [if_neg (by simp)] at h
  simp only [hN] at h
  split at h
  · cases h
  · rename_i hc
    exact ⟨by omega, by omega, (Except.ok.inj h).symm⟩

end

/-- C42: only square images are accepted. -/
theorem C42_square {α : Type} (s : Scalar α) (h w : Nat) (t : List α) (hw : h ≠ w) :
    unpackPacked s h w t = .error .ioError := by
  unfold unpackPacked
  rw [if_pos hw]

/-- C42 (old packed format): for every even size and all values, the unpacked image is Hermitian. -/
theorem C42_hermitian {α : Type} (s : Scalar α) (hz : s.neg s.zero = s.zero)
    (hn : ∀ x, s.neg (s.neg x) = x) (N : Nat) (t : List α) (d : Img α)
    (h : unpackPacked s (2 * N) (2 * N) t = .ok d) : Hermitian s (2 * N) (2 * N) d := by
  obtain ⟨hN, -, rfl⟩ := full_eq s t N h
  have hc : ∀ z : α × α, conj s (conj s z) = z := fun z => by simp [conj, hn]
  have key : ∀ {a b : α × α}, a = conj s b → b = conj s a := by
    rintro a b rfl; exact (hc b).symm
  intro i j hi hj
  change _ = conj s (full s t N i j)
  have hr : ∀ a : α, conj s (a, s.zero) = (a, s.zero) := fun a => by simp [conj, hz]
  rcases Nat.eq_zero_or_pos i with rfl | hi0
  · rw [mirror_zero]
    rcases Nat.eq_zero_or_pos j with rfl | hj0
    · rw [mirror_zero, p00 s t N hN, hr]
    · rw [mirror_pos hj0 hj]
      rcases Nat.lt_trichotomy j N with hj1 | rfl | hj1
      · exact key (q0 s t N hj0 hj1)
      · rw [show 2 * j - j = j from by omega, p0N s t j hN, hr]
      · have := q0 s t N (j := 2 * N - j) (by omega) (by omega)
        rwa [show 2 * N - (2 * N - j) = j from by omega] at this
  · rw [mirror_pos hi0 hi]
    rcases Nat.eq_zero_or_pos j with rfl | hj0
    · rw [mirror_zero]
      rcases Nat.lt_trichotomy i N with hi1 | rfl | hi1
      · exact key (qc0 s t N hi0 hi1)
      · rw [show 2 * i - i = i from by omega, pN0 s t i hN, hr]
      · have := qc0 s t N (i := 2 * N - i) (by omega) (by omega)
        rwa [show 2 * N - (2 * N - i) = i from by omega] at this
    · rw [mirror_pos hj0 hj]
      rcases Nat.lt_trichotomy i N with hi1 | rfl | hi1
      · rcases Nat.lt_trichotomy j N with hj1 | rfl | hj1
        · exact key (qtl s t N hi0 hi1 hj0 hj1)
        · have := qcN s t j hi0 hi1
          rw [show 2 * j - j = j from by omega]
          exact key this
        · have := qbl s t N (i := 2 * N - i) (j := 2 * N - j) (by omega) (by omega) (by omega)
            (by omega)
          rwa [show 2 * N - (2 * N - i) = i from by omega,
            show 2 * N - (2 * N - j) = j from by omega] at this
      · rw [show 2 * i - i = i from by omega]
        rcases Nat.lt_trichotomy j i with hj1 | rfl | hj1
        · exact key (qN s t i hj0 hj1)
        · rw [show 2 * j - j = j from by omega, pNN s t j hN, hr]
        · have := qN s t i (j := 2 * i - j) (by omega) (by omega)
          rwa [show 2 * i - (2 * i - j) = j from by omega] at this
      · rcases Nat.lt_trichotomy j N with hj1 | rfl | hj1
        · exact key (qbl s t N hi1 hi hj0 hj1)
        · have := qcN s t j (i := 2 * j - i) (by omega) (by omega)
          rw [show 2 * j - (2 * j - i) = i from by omega] at this
          rwa [show 2 * j - j = j from by omega]
        · have := qtl s t N (i := 2 * N - i) (j := 2 * N - j) (by omega) (by omega) (by omega)
            (by omega)
          rwa [show 2 * N - (2 * N - i) = i from by omega,
            show 2 * N - (2 * N - j) = j from by omega] at this

/-- The stored numbers are `2 N` rows of `N` complex numbers. Number `m > 0` of row `r` is the pixel
`(r, N + m)`. Number 0 of row `r` is the pixel `(N + r, 0)` for `r < N` and `(r, N)` for `r > N`; those
of the rows 0 and `N` are the four real pixels. -/
def place (N r m : Nat) : Nat × Nat :=
  if m = 0 ∧ r < N then (N + r, 0) else (r, N + m)

/-- C42 (old packed format): every stored number is kept. -/
theorem C42_kept {α : Type} (s : Scalar α) (N : Nat) (t : List α) (d : Img α)
    (h : unpackPacked s (2 * N) (2 * N) t = .ok d) :
    (∀ r m, r < 2 * N → m < N → (m = 0 → r ≠ 0 ∧ r ≠ N) →
      (some (d (place N r m).1 (place N r m).2).1 = t[2 * (r * N + m)]? ∧
        some (d (place N r m).1 (place N r m).2).2 = t[2 * (r * N + m) + 1]?)) ∧
    some (d N 0).1 = t[0]? ∧ some (d 0 0).1 = t[1]? ∧
    some (d N N).1 = t[2 * (N * N)]? ∧ some (d 0 N).1 = t[2 * (N * N) + 1]? ∧
    (d N 0).2 = s.zero ∧ (d 0 0).2 = s.zero ∧ (d N N).2 = s.zero ∧ (d 0 N).2 = s.zero := by
  obtain ⟨hN, hl, rfl⟩ := full_eq s t N h
  have hsq : 1 ≤ N * N := Nat.mul_pos hN hN
  have hnth : ∀ k, k < 4 * (N * N) → some (nth s t k) = t[k]? := by
    intro k hk
    have : k < t.length := by omega
    simp [nth, List.getD_eq_getElem?_getD, this]
  refine ⟨?_, ?_, ?_, ?_, ?_, ?_, ?_, ?_, ?_⟩
  · intro r m hr hm h0
    have hb : r * N + m + N ≤ 2 * (N * N) + m := by
      have : (r + 1) * N ≤ (2 * N) * N := Nat.mul_le_mul_right N hr
      rw [Nat.add_mul, Nat.one_mul, Nat.mul_assoc] at this
      omega
    have hpair : full s t N (place N r m).1 (place N r m).2 = pair s t (2 * (r * N + m)) := by
      unfold place
      by_cases hc : m = 0 ∧ r < N
      · obtain ⟨rfl, hrN⟩ := hc
        rw [if_pos ⟨rfl, hrN⟩]
        have := h0 rfl
        rw [pB s t N (by omega) (by omega)]
        congr 1
        obtain ⟨q, rfl⟩ : ∃ q, r = q + 1 := ⟨r - 1, by omega⟩
        rw [show N + (q + 1) - (N + 1) = q from by omega, Nat.add_mul, Nat.mul_comm N q]
        omega
      · rw [if_neg hc]
        rcases Nat.lt_trichotomy r N with h1 | rfl | h1
        · rw [pA s t N h1 (by omega) (by omega)]
          congr 1
          omega
        · rw [pC s t r (by omega) (by omega)]
          congr 1
          omega
        · rw [pD s t N h1 hr (by omega) (by omega)]
          congr 1
          obtain ⟨q, rfl⟩ : ∃ q, r = q + (N + 1) := ⟨r - (N + 1), by omega⟩
          rw [show q + (N + 1) - (N + 1) = q from by omega, Nat.add_mul, Nat.mul_comm N q,
            Nat.add_mul, Nat.one_mul]
          omega
    rw [hpair]
    exact ⟨hnth _ (by omega), hnth _ (by omega)⟩
  all_goals first
    | rw [pN0 s t N hN]
    | rw [p00 s t N hN]
    | rw [pNN s t N hN]
    | rw [p0N s t N hN]
  all_goals exact hnth _ (by omega)

/-- C42 (old packed format): every pixel is filled from stored numbers: it is one of the four real
ones, a stored complex number or the conjugate of one. -/
theorem C42_filled {α : Type} (s : Scalar α) (N : Nat) (t : List α) (d : Img α)
    (h : unpackPacked s (2 * N) (2 * N) t = .ok d) (i j : Nat) (hi : i < 2 * N) (hj : j < 2 * N) :
    ∃ k a b, t[k]? = some a ∧ (d i j = (a, s.zero) ∨
      (t[k + 1]? = some b ∧ (d i j = (a, b) ∨ d i j = (a, s.neg b)))) := by
  obtain ⟨hreal, h1, h2, h3, h4, h5, h6, h7, h8⟩ := C42_kept s N t d h
  obtain ⟨hN, hl, rfl⟩ := full_eq s t N h
  -- stored pixels
  have stored : ∀ r m, r < 2 * N → m < N → (m = 0 → r ≠ 0 ∧ r ≠ N) →
      ∃ k a b, t[k]? = some a ∧ t[k + 1]? = some b ∧
        full s t N (place N r m).1 (place N r m).2 = (a, b) := by
    intro r m hr hm h0
    obtain ⟨e1, e2⟩ := hreal r m hr hm h0
    exact ⟨_, _, _, e1.symm, e2.symm, rfl⟩
  have sa : ∀ r c, r < 2 * N → N < c → c < 2 * N → ∃ k a b, t[k]? = some a ∧ t[k + 1]? = some b ∧
      full s t N r c = (a, b) := by
    intro r c hr hc hc'
    have := stored r (c - N) hr (by omega) (by omega)
    unfold place at this
    rwa [if_neg (by omega), show N + (c - N) = c from by omega] at this
  have sb : ∀ r, N < r → r < 2 * N → ∃ k a b, t[k]? = some a ∧ t[k + 1]? = some b ∧
      full s t N r 0 = (a, b) := by
    intro r hr hr'
    have := stored (r - N) 0 (by omega) (by omega) (by omega)
    unfold place at this
    rwa [if_pos (by omega), show N + (r - N) = r from by omega] at this
  have sc : ∀ r, N < r → r < 2 * N → ∃ k a b, t[k]? = some a ∧ t[k + 1]? = some b ∧
      full s t N r N = (a, b) := by
    intro r hr hr'
    have := stored r 0 (by omega) (by omega) (by omega)
    unfold place at this
    rwa [if_neg (by omega)] at this
  have pos : ∀ {z : α × α}, (∃ k a b, t[k]? = some a ∧ t[k + 1]? = some b ∧ z = (a, b)) →
      ∃ k a b, t[k]? = some a ∧ (z = (a, s.zero) ∨
        (t[k + 1]? = some b ∧ (z = (a, b) ∨ z = (a, s.neg b)))) := by
    rintro z ⟨k, a, b, h1, h2, h3⟩
    exact ⟨k, a, b, h1, Or.inr ⟨h2, Or.inl h3⟩⟩
  have negc : ∀ {z y : α × α}, (∃ k a b, t[k]? = some a ∧ t[k + 1]? = some b ∧ z = (a, b)) →
      y = conj s z → ∃ k a b, t[k]? = some a ∧ (y = (a, s.zero) ∨
        (t[k + 1]? = some b ∧ (y = (a, b) ∨ y = (a, s.neg b)))) := by
    rintro z y ⟨k, a, b, h1, h2, h3⟩ hy
    refine ⟨k, a, b, h1, Or.inr ⟨h2, Or.inr ?_⟩⟩
    rw [hy, h3]; rfl
  have real : ∀ {z : α × α} {k : Nat}, some z.1 = t[k]? → z.2 = s.zero →
      ∃ k a b, t[k]? = some a ∧ (z = (a, s.zero) ∨
        (t[k + 1]? = some b ∧ (z = (a, b) ∨ z = (a, s.neg b)))) := by
    rintro ⟨z1, z2⟩ k h1 h2
    exact ⟨k, z1, z1, h1.symm, Or.inl (by rw [← h2])⟩
  rcases Nat.eq_zero_or_pos i with rfl | hi0
  · rcases Nat.eq_zero_or_pos j with rfl | hj0
    · exact real h2 h6
    · rcases Nat.lt_trichotomy j N with hj1 | rfl | hj1
      · exact negc (sa 0 (2 * N - j) (by omega) (by omega) (by omega)) (q0 s t N hj0 hj1)
      · exact real h4 h8
      · exact pos (sa 0 j hi hj1 hj)
  · rcases Nat.eq_zero_or_pos j with rfl | hj0
    · rcases Nat.lt_trichotomy i N with hi1 | rfl | hi1
      · exact negc (sb (2 * N - i) (by omega) (by omega)) (qc0 s t N hi0 hi1)
      · exact real h1 h5
      · exact pos (sb i hi1 hi)
    · rcases Nat.lt_trichotomy j N with hj1 | rfl | hj1
      · rcases Nat.lt_trichotomy i N with hi1 | rfl | hi1
        · exact negc (sa (2 * N - i) (2 * N - j) (by omega) (by omega) (by omega))
            (qtl s t N hi0 hi1 hj0 hj1)
        · exact negc (sa i (2 * i - j) (by omega) (by omega) (by omega)) (qN s t i hj0 hj1)
        · exact negc (sa (2 * N - i) (2 * N - j) (by omega) (by omega) (by omega))
            (qbl s t N hi1 hi hj0 hj1)
      · rcases Nat.lt_trichotomy i j with hi1 | rfl | hi1
        · exact negc (sc (2 * j - i) (by omega) (by omega)) (qcN s t j hi0 hi1)
        · exact real h3 h7
        · exact pos (sc i hi1 hi)
      · exact pos (sa i j hi hj1 hj)

/-- Integers as numbers. -/
def ints : Scalar Int := ⟨0, Neg.neg⟩

/-- A 4 × 4 image of 16 different numbers is unpacked. -/
example : ∃ d, unpackPacked ints 4 4 ((List.range 16).map fun (k : Nat) => (k : Int) + 1) = .ok d ∧
    d 1 3 = (7, 8) ∧ d 3 1 = (7, -8) ∧ d 3 0 = (5, 6) ∧ d 3 2 = (13, 14) := by
  refine ⟨_, rfl, ?_, ?_, ?_, ?_⟩ <;> decide +kernel

/-- C42 (new packed format): for even widths every stored number is kept, in reversed columns, the
image has its width and each row is conjugated about its centre. -/
theorem C42_new_partial {α : Type} (s : Scalar α) (H M : Nat) (hM : 0 < M) (t : List (α × α))
    (w : Nat) (d : Img α) (h : unpackNew s H (2 * M) t = .ok (w, d)) :
    w = 2 * M ∧ (∀ r m, r < H → m ≤ M → some (d r (M - m)) = t[r * (M + 1) + m]?) ∧
      ∀ r m, 0 < m → m < M → d r (M + m) = ((d r (M - m)).1, s.neg (d r (M - m)).2) := by
  have hp : 2 * M / 2 + 1 = M + 1 := by omega
  unfold unpackNew at h
  simp only [hp] at h
  split at h
  · cases h
  · rename_i hl
    obtain ⟨rfl, rfl⟩ := Prod.mk.inj (Except.ok.inj h)
    refine ⟨by omega, ?_, ?_⟩
    · intro r m hr hm
      have hb : r * (M + 1) + m < t.length := by
        have : (r + 1) * (M + 1) ≤ H * (M + 1) := Nat.mul_le_mul_right _ hr
        rw [Nat.add_mul, Nat.one_mul] at this
        omega
      simp only
      rw [if_pos (by omega), show M + 1 - 1 - (M - m) = m from by omega,
        List.getD_eq_getElem?_getD, List.getElem?_eq_getElem hb]
      rfl
    · intro r m h0 hm
      simp only
      rw [if_neg (by omega), if_pos (by omega), show M + 1 - 1 - (M - m) = m from by omega,
        show 1 + (M + m - (M + 1)) = m from by omega]
      rfl

/-- A 3 × 4 image in the new format. -/
example : ∃ w d, unpackNew ints 3 4 ((List.range 9).map fun (k : Nat) => ((k : Int), 2 * (k : Int))) =
    .ok (w, d) ∧ d 1 0 = (5, 10) ∧ d 1 3 = (4, -8) := by
  refine ⟨_, _, rfl, ?_, ?_⟩ <;> decide +kernel

/-- C42 fails for the new packed format: the rows are not mirrored, so the image is in general not
Hermitian; here the stored half (only the middle column is not zero) is that of a Hermitian image. -/
theorem C42_fails_new : ∃ (t : List (Int × Int)) (w : Nat) (d : Img Int),
    unpackNew ints 4 4 t = .ok (w, d) ∧ ¬ Hermitian ints 4 4 d := by
  refine ⟨[(0, 0), (1, 0), (0, 0), (0, 0), (2, 0), (0, 0), (0, 0), (3, 0), (0, 0), (0, 0), (4, 0), (0, 0)], _, _, rfl, ?_⟩
  intro hh
  have := hh 1 1 (by decide) (by decide)
  revert this
  decide +kernel

end Verif.Props.DMImage
