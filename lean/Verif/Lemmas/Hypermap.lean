import Verif.Model.Hypermap
import Verif.Spec.Hypermap
/-! Lemmas about the decoders of Bruker maps. -/
namespace Verif.Hypermap
open Verif

/-! ### Streams -/

/-- The stream `s` has the bytes `B` left. -/
structure Rep (chnk : Nat) (s : Src) (B : List UInt8) : Prop where
  bytes : s.buf ++ s.blocks.flatten = B
  cut : Cut chnk s.blocks
  left : (s.blocks = [] ∧ (s.buf.length : Int) ≤ s.left) ∨ (s.blocks ≠ [] ∧ s.left = s.buf.length)

/-- The number of bytes that are left if the last block is full. -/
def claimed (chnk : Nat) (s : Src) : Int := s.left + (chnk * s.blocks.length : Nat)

theorem load_ok {chnk : Nat} {s : Src} {B : List UInt8} (h : Rep chnk s B) (hb : s.blocks ≠ []) :
    ∃ s', load chnk s = .ok s' ∧ Rep chnk s' B ∧ claimed chnk s' = claimed chnk s ∧
      (s'.buf = B ∨ s'.buf.length = s.buf.length + chnk) := by
  obtain ⟨blocks, buf, left⟩ := s
  cases blocks with
  | nil => exact absurd rfl hb
  | cons b bs =>
    obtain ⟨h1, h2, h3⟩ := h
    simp only at h1 h2 h3
    have hl : left = buf.length := by rcases h3 with h3 | h3 <;> simp_all
    refine ⟨⟨bs, buf ++ b, left + chnk⟩, rfl, ⟨?_, ?_, ?_⟩, ?_, ?_⟩
    · rw [← h1]; simp
    · cases bs with
      | nil => trivial
      | cons b' bs => exact h2.2
    · cases bs with
      | nil =>
        left
        refine ⟨rfl, ?_⟩
        have := h2.2
        simp only [List.length_append]
        omega
      | cons b' bs =>
        right
        refine ⟨by simp, ?_⟩
        have := h2.1
        simp only [List.length_append]
        omega
    · unfold claimed
      simp only [List.length_cons]
      rw [Nat.mul_add]
      omega
    · cases bs with
      | nil => left; rw [← h1]; simp
      | cons b' bs =>
        right
        have := h2.1
        simp only [List.length_append]
        omega

theorem cyNeed_ok {chnk n : Nat} {s : Src} {B : List UInt8} (h : Rep chnk s B) (hn : n ≤ chnk)
    (hB : n ≤ B.length) : ∃ s', cyNeed chnk n s = .ok s' ∧ Rep chnk s' B ∧ n ≤ s'.buf.length := by
  unfold cyNeed
  have hlen : B.length = s.buf.length + s.blocks.flatten.length := by rw [← h.bytes]; simp
  by_cases hl : s.left < (n : Int)
  · rw [if_pos hl]
    have hb : s.blocks ≠ [] := by
      intro e
      rcases h.left with h3 | h3
      · rw [e] at hlen
        simp at hlen
        omega
      · exact h3.1 e
    obtain ⟨s', h1, h2, -, h4⟩ := load_ok h hb
    refine ⟨s', h1, h2, ?_⟩
    rcases h4 with h4 | h4
    · rw [h4]; exact hB
    · omega
  · rw [if_neg hl]
    refine ⟨s, rfl, h, ?_⟩
    rcases h.left with h3 | h3
    · rw [h3.1] at hlen
      simp at hlen
      omega
    · omega

theorem pyNeed_ok {chnk n : Nat} {s : Src} {B : List UInt8} (h : Rep chnk s B) (hn : n ≤ chnk)
    (hB : n ≤ B.length) (hc : (n : Int) < claimed chnk s) :
    ∃ s', pyNeed chnk n s = .ok s' ∧ Rep chnk s' B ∧ n ≤ s'.buf.length ∧ claimed chnk s' = claimed chnk s := by
  unfold pyNeed
  have hlen : B.length = s.buf.length + s.blocks.flatten.length := by rw [← h.bytes]; simp
  by_cases hl : s.left ≤ (n : Int)
  · rw [if_pos hl]
    have hb : s.blocks ≠ [] := by
      intro e
      unfold claimed at hc
      rw [e] at hc
      simp at hc
      omega
    obtain ⟨s', h1, h2, h3, h4⟩ := load_ok h hb
    refine ⟨s', h1, h2, ?_, h3⟩
    rcases h4 with h4 | h4
    · rw [h4]; exact hB
    · omega
  · rw [if_neg hl]
    refine ⟨s, rfl, h, ?_, rfl⟩
    rcases h.left with h3 | h3
    · rw [h3.1] at hlen
      simp at hlen
      omega
    · omega

theorem adv_ok {chnk k : Nat} {s : Src} {B : List UInt8} (h : Rep chnk s B) (hk : k ≤ s.buf.length) :
    Rep chnk (adv k s) (B.drop k) := by
  refine ⟨?_, h.cut, ?_⟩
  · rw [← h.bytes]
    unfold adv
    rw [List.drop_append_of_le_length hk]
  · unfold adv
    simp only [List.length_drop]
    rcases h.left with h3 | h3
    · left; exact ⟨h3.1, by omega⟩
    · right; exact ⟨h3.1, by omega⟩

theorem claimed_adv (chnk k : Nat) (s : Src) : claimed chnk (adv k s) = claimed chnk s - k := by
  unfold claimed adv
  simp only
  omega

/-- The buffer begins with the bytes that are left. -/
theorem buf_append {chnk : Nat} {s : Src} {a R : List UInt8} (h : Rep chnk s (a ++ R)) (hk : a.length ≤ s.buf.length) :
    ∃ R', s.buf = a ++ R' := by
  have h1 := h.bytes
  refine ⟨s.buf.drop a.length, ?_⟩
  have : s.buf.take a.length = a := by
    have := congrArg (List.take a.length) h1
    rwa [List.take_append_of_le_length hk, List.take_left' rfl] at this
  conv_lhs => rw [← List.take_append_drop a.length s.buf, this]

theorem cyRead_ok {chnk n : Nat} {s : Src} {a R : List UInt8} (h : Rep chnk s (a ++ R)) (ha : a.length = n)
    (hn : n ≤ chnk) : ∃ s', cyRead chnk n s = .ok (leVal a, s') ∧ Rep chnk s' R := by
  obtain ⟨s', h1, h2, h3⟩ := cyNeed_ok h hn (by rw [List.length_append]; omega)
  obtain ⟨R', hR⟩ := buf_append h2 (by omega)
  refine ⟨adv n s', ?_, ?_⟩
  · unfold cyRead
    rw [h1]
    dsimp only
    rw [if_neg (by omega), hR, List.take_left' ha]
  · have := adv_ok h2 h3
    rwa [List.drop_left' ha] at this

theorem cySkip_ok {chnk n : Nat} {s : Src} {a R : List UInt8} (h : Rep chnk s (a ++ R)) (ha : a.length = n)
    (hn : n ≤ chnk) : ∃ s', cySkip chnk n s = .ok s' ∧ Rep chnk s' R := by
  obtain ⟨s', h1, h2, h3⟩ := cyNeed_ok h hn (by rw [List.length_append]; omega)
  refine ⟨adv n s', ?_, ?_⟩
  · unfold cySkip
    rw [h1]
  · have := adv_ok h2 h3
    rwa [List.drop_left' ha] at this

theorem cyPtr_ok {chnk n : Nat} {s : Src} {a R : List UInt8} (h : Rep chnk s (a ++ R)) (ha : a.length = n)
    (hn : n ≤ chnk) : ∃ R' s', cyPtr chnk n s = .ok (a ++ R', s') ∧ Rep chnk s' R := by
  obtain ⟨s', h1, h2, h3⟩ := cyNeed_ok h hn (by rw [List.length_append]; omega)
  obtain ⟨R', hR⟩ := buf_append h2 (by omega)
  refine ⟨R', adv n s', ?_, ?_⟩
  · unfold cyPtr
    rw [h1]
    dsimp only
    rw [hR]
  · have := adv_ok h2 h3
    rwa [List.drop_left' ha] at this

/-! ### Rows -/

/-- The counts `f` modulo `M`. -/
def row (M n : Nat) (f : Nat → Nat) : List Nat := (List.range n).map fun c => f c % M

theorem row_congr {M n : Nat} {f g : Nat → Nat} (h : ∀ c, c < n → f c = g c) : row M n f = row M n g := by
  unfold row
  refine List.map_congr_left ?_
  intro c hc
  rw [h c (List.mem_range.1 hc)]

@[simp] theorem row_length (M n : Nat) (f : Nat → Nat) : (row M n f).length = n := by simp [row]

theorem row_get {M n : Nat} {f : Nat → Nat} {c : Nat} (h : c < n) : (row M n f)[c]? = some (f c % M) := by
  unfold row
  rw [List.getElem?_map, List.getElem?_range h]
  rfl

theorem bump_row (M n : Nat) (f : Nat → Nat) (c v : Nat) :
    bump M n (row M n f) c v = row M n fun x => f x + if x = c then v else 0 := by
  unfold bump
  by_cases hc : c < n
  · rw [if_pos hc]
    refine List.ext_getElem? ?_
    intro i
    by_cases hi : i < n
    · rw [List.getElem?_modify, row_get hi, row_get hi]
      by_cases e : c = i
      · subst e
        simp
      · simp [e, Ne.symm e]
    · rw [List.getElem?_eq_none_iff.2 (by simp; omega), List.getElem?_eq_none_iff.2 (by simp; omega)]
  · rw [if_neg hc]
    refine row_congr ?_
    intro x hx
    rw [if_neg (by omega)]
    rfl

theorem cyPulses_ok {M n : Nat} {chan : Nat → Py Nat} : ∀ {ps : List Nat} {i : Nat} {f : Nat → Nat},
    (∀ k q, ps[k]? = some q → chan (i + k) = .ok q) →
    cyPulses M n chan i ps.length (row M n f) = .ok (row M n fun c => f c + ps.count c)
  | [], i, f, _ => by
    rw [List.length_nil, cyPulses]
    congr 1
  | p :: ps, i, f, h => by
    rw [List.length_cons, cyPulses, show chan i = .ok p from h 0 p rfl]
    dsimp only
    rw [bump_row, cyPulses_ok (ps := ps)]
    · congr 1
      refine row_congr ?_
      intro c _
      rw [List.count_cons]
      by_cases e : p = c
      · simp [e]; omega
      · rw [if_neg (Ne.symm e), if_neg (by simpa using e)]
        omega
    · intro k q hk
      have := h (k + 1) q (by rwa [List.getElem?_cons_succ])
      rwa [show i + (k + 1) = i + 1 + k by omega] at this

theorem cyFill_ok {M n : Nat} {val : Nat → Py Nat} {gain channel : Nat} :
    ∀ {vs : List Nat} {i : Nat} {f : Nat → Nat},
    (∀ k v, vs[k]? = some v → val (i + k) = .ok v) →
    cyFill M n val gain channel i vs.length (row M n f) = .ok (row M n fun c => f c +
      if channel + i ≤ c then (vs.map (· + gain))[c - (channel + i)]?.getD 0 else 0)
  | [], i, f, _ => by
    rw [List.length_nil, cyFill]
    congr 1
    refine row_congr ?_
    intro c _
    simp
  | v :: vs, i, f, h => by
    rw [List.length_cons, cyFill]
    have hrec : ∀ k w, vs[k]? = some w → val (i + 1 + k) = .ok w := by
      intro k w hk
      have := h (k + 1) w (by rwa [List.getElem?_cons_succ])
      rwa [show i + (k + 1) = i + 1 + k by omega] at this
    by_cases hc : i + channel < n
    · rw [if_pos hc, show val i = .ok v from h 0 v rfl]
      dsimp only
      rw [bump_row, cyFill_ok hrec]
      congr 1
      refine row_congr ?_
      intro c _
      by_cases e : c = i + channel
      · subst e
        rw [if_pos rfl, if_neg (by omega), if_pos (by omega), show i + channel - (channel + i) = 0 by omega]
        simp
      · rw [if_neg e]
        by_cases hle : channel + (i + 1) ≤ c
        · rw [if_pos hle, if_pos (by omega), show c - (channel + i) = c - (channel + (i + 1)) + 1 by omega,
            List.map_cons, List.getElem?_cons_succ, Nat.add_zero]
        · rw [if_neg hle, if_neg (by omega)]
    · rw [if_neg hc, cyFill_ok hrec]
      congr 1
      refine row_congr ?_
      intro c hcn
      rw [if_neg (by omega), if_neg (by omega)]

/-! ### Pulses of 16 bits -/

theorem chan16_ok : ∀ {ps : List Nat} {R : List UInt8}, (∀ p ∈ ps, p < 2 ^ 16) → ∀ k q, ps[k]? = some q →
    chan16 (ps.flatMap (leBytes 2) ++ R) k = .ok q
  | [], _, _, k, q, h => by simp at h
  | p :: ps, R, hp, 0, q, h => by
    obtain rfl : p = q := by simpa using h
    have hv : leVal (leBytes 2 p) = p := leVal_leBytes (by simpa using hp p (List.mem_cons_self ..))
    unfold chan16 num
    dsimp only
    rw [List.flatMap_cons, List.append_assoc, Nat.mul_zero, List.drop_zero, List.take_left' (leBytes_length ..),
      leBytes_length, if_neg (by omega), hv]
  | p :: ps, R, hp, k + 1, q, h => by
    have ih := chan16_ok (R := R) (fun x hx => hp x (List.mem_cons_of_mem _ hx)) k q (by simpa using h)
    unfold chan16 num at ih ⊢
    rw [List.flatMap_cons, List.append_assoc, show 2 * (k + 1) = 2 + 2 * k by omega, ← List.drop_drop,
      List.drop_left' (leBytes_length ..)]
    exact ih

theorem words16_ok : ∀ {ps : List Nat}, (∀ p ∈ ps, p < 2 ^ 16) → words16 (ps.flatMap (leBytes 2)) = .ok ps
  | [], _ => rfl
  | p :: ps, hp => by
    have ih := words16_ok fun x hx => hp x (List.mem_cons_of_mem _ hx)
    have hv : leVal (leBytes 2 p) = p := leVal_leBytes (by simpa using hp p (List.mem_cons_self ..))
    obtain ⟨a, b, e⟩ : ∃ a b, leBytes 2 p = [a, b] := ⟨_, _, rfl⟩
    rw [List.flatMap_cons, e]
    show words16 (a :: b :: ps.flatMap (leBytes 2)) = _
    rw [words16, ih, ← e, hv]

/-! ### Pulses of 12 bits -/

theorem masked_twelve (bs : List UInt8) : ∀ i, masked (i + 12) bs = masked i bs := by
  induction bs with
  | nil => intro i; rfl
  | cons b t ih =>
    intro i
    rw [masked, masked, show (i + 12) % 6 = i % 6 by omega, show i + 12 + 1 = i + 1 + 12 by omega, ih]

theorem shifted_four (ws : List Nat) : ∀ i, shifted (i + 4) ws = shifted i ws := by
  induction ws with
  | nil => intro i; rfl
  | cons v t ih =>
    intro i
    rw [shifted, shifted, show (i + 4) % 2 = i % 2 by omega, show i + 4 + 1 = i + 1 + 4 by omega, ih]

/-- The channels in 6 bytes. -/
def four (b0 b1 b2 b3 b4 b5 : UInt8) : List Nat :=
  [b0.toNat / 16 + b1.toNat * 16, (b0.toNat * 256 + b3.toNat) % 4096, b2.toNat * 16 + b5.toNat / 16,
    (b5.toNat * 256 + b4.toNat) % 4096]

theorem masked_group (b0 b1 b2 b3 b4 b5 : UInt8) (t : List UInt8) :
    masked 0 ((b1 :: b0 :: b3 :: b2 :: b5 :: b4 :: t).flatMap fun b => [b, b]) =
      b1 :: b0 :: b0 :: b3 :: b2 :: b5 :: b5 :: b4 :: masked 0 (t.flatMap fun b => [b, b]) := by
  simp [List.flatMap_cons, masked]
  rw [show (12 : Nat) = 0 + 12 from rfl, masked_twelve]

theorem py12_group {b0 b1 b2 b3 b4 b5 : UInt8} {t : List UInt8} {n : Nat} :
    py12 (b0 :: b1 :: b2 :: b3 :: b4 :: b5 :: t) (n + 4) = match py12 t n with
      | .error e => .error e
      | .ok ps => .ok (four b0 b1 b2 b3 b4 b5 ++ ps) := by
  have h0 := b0.toNat_lt
  have h1 := b1.toNat_lt
  have h2 := b2.toNat_lt
  have h3 := b3.toNat_lt
  have h4 := b4.toNat_lt
  have h5 := b5.toNat_lt
  unfold py12
  rw [swap, swap, swap]
  cases swap t with
  | error e => rfl
  | ok bs =>
    dsimp only
    rw [masked_group, words16be, words16be, words16be, words16be]
    cases words16be n (masked 0 (bs.flatMap fun b => [b, b])) with
    | error e => rfl
    | ok ws =>
      dsimp only
      congr 1
      simp only [shifted, four, leVal, List.cons_append, List.nil_append]
      rw [show (0 + 1 + 1 + 1 + 1 : Nat) = 0 + 4 from rfl, shifted_four]
      congr 1
      · simp; omega
      congr 1
      · simp; omega
      congr 1
      · simp; omega
      congr 1
      · simp; omega

theorem py12_few {b0 b1 b2 b3 b4 b5 : UInt8} {t : List UInt8} {n : Nat} {ps : List Nat} (hn : n < 4)
    (h : py12 (b0 :: b1 :: b2 :: b3 :: b4 :: b5 :: t) n = .ok ps) : ps = (four b0 b1 b2 b3 b4 b5).take n := by
  have h0 := b0.toNat_lt
  have h1 := b1.toNat_lt
  have h2 := b2.toNat_lt
  have h3 := b3.toNat_lt
  have h5 := b5.toNat_lt
  unfold py12 at h
  rw [swap, swap, swap] at h
  cases hs : swap t with
  | error e => rw [hs] at h; cases h
  | ok bs =>
    rw [hs] at h
    dsimp only at h
    rw [masked_group] at h
    have : n = 0 ∨ n = 1 ∨ n = 2 ∨ n = 3 := by omega
    rcases this with rfl | rfl | rfl | rfl
    · simp only [words16be, shifted] at h
      cases h
      rfl
    · simp only [words16be, shifted, leVal] at h
      cases h
      simp [four]
      omega
    · simp only [words16be, shifted, leVal] at h
      cases h
      simp [four]
      omega
    · simp only [words16be, shifted, leVal] at h
      cases h
      simp [four]
      omega

theorem chan12_next {b0 b1 b2 b3 b4 b5 : UInt8} {t : List UInt8} {i : Nat} :
    chan12 (b0 :: b1 :: b2 :: b3 :: b4 :: b5 :: t) (i + 4) = chan12 t i := by
  have hat : ∀ k, at' (b0 :: b1 :: b2 :: b3 :: b4 :: b5 :: t) (6 * ((i + 4) / 4) + k) = at' t (6 * (i / 4) + k) := by
    intro k
    unfold at'
    rw [show 6 * ((i + 4) / 4) + k = 6 * (i / 4) + k + 1 + 1 + 1 + 1 + 1 + 1 by omega]
    simp only [List.getElem?_cons_succ]
  unfold chan12
  simp only [hat, show (i + 4) % 4 = i % 4 by omega]

theorem chan12_first {b0 b1 b2 b3 b4 b5 : UInt8} {t : List UInt8} {i q : Nat}
    (h : (four b0 b1 b2 b3 b4 b5)[i]? = some q) :
    chan12 (b0 :: b1 :: b2 :: b3 :: b4 :: b5 :: t) i = .ok q := by
  have hi : i < 4 := by
    have := (List.getElem?_eq_some_iff.1 h).1
    simpa [four] using this
  have : i = 0 ∨ i = 1 ∨ i = 2 ∨ i = 3 := by omega
  rcases this with rfl | rfl | rfl | rfl <;> (simp [four] at h; subst h; rfl)

/-- Both decoders find the same channels in the same bytes. -/
theorem both12 : ∀ {data R : List UInt8} {n : Nat} {ps : List Nat}, py12 data n = .ok ps →
    ps.length = n ∧ ∀ k q, ps[k]? = some q → chan12 (data ++ R) k = .ok q
  | [], R, n, ps, h => by
    cases n with
    | zero => cases h; exact ⟨rfl, by intro k q h; simp [shifted] at h⟩
    | succ n => cases h
  | [_], R, n, ps, h => by cases h
  | [a, b], R, n, ps, h => by
    have ha := a.toNat_lt
    have hb := b.toNat_lt
    match n, h with
    | 0, h => cases h; exact ⟨rfl, by intro k q h; simp [shifted] at h⟩
    | 1, h =>
      cases h
      refine ⟨rfl, ?_⟩
      intro k q hk
      obtain rfl : k = 0 := by
        have := (List.getElem?_eq_some_iff.1 hk).1
        simp [shifted] at this
        omega
      simp [shifted, leVal] at hk
      subst hk
      simp [chan12, at']
      omega
    | n + 2, h => cases h
  | [_, _, _], R, n, ps, h => by cases h
  | [a, b, c, d], R, n, ps, h => by
    have ha := a.toNat_lt
    have hb := b.toNat_lt
    have hd := d.toNat_lt
    match n, h with
    | 0, h => cases h; exact ⟨rfl, by intro k q h; simp [shifted] at h⟩
    | 1, h =>
      cases h
      refine ⟨rfl, ?_⟩
      intro k q hk
      obtain rfl : k = 0 := by
        have := (List.getElem?_eq_some_iff.1 hk).1
        simp [shifted] at this
        omega
      simp [shifted, leVal] at hk
      subst hk
      simp [chan12, at']
      omega
    | 2, h =>
      cases h
      refine ⟨rfl, ?_⟩
      intro k q hk
      have : k = 0 ∨ k = 1 := by
        have := (List.getElem?_eq_some_iff.1 hk).1
        simp [shifted] at this
        omega
      rcases this with rfl | rfl
      · simp [shifted, leVal] at hk
        subst hk
        simp [chan12, at']
        omega
      · simp [shifted, leVal] at hk
        subst hk
        simp [chan12, at']
        omega
    | n + 3, h => cases h
  | [_, _, _, _, _], R, n, ps, h => by cases h
  | b0 :: b1 :: b2 :: b3 :: b4 :: b5 :: t, R, n, ps, h => by
    by_cases hn : n < 4
    · have := py12_few hn h
      subst this
      refine ⟨by simp [four]; omega, ?_⟩
      intro k q hk
      refine chan12_first ?_
      rw [List.getElem?_take] at hk
      split at hk
      · exact hk
      · cases hk
    · obtain ⟨m, rfl⟩ : ∃ m, n = m + 4 := ⟨n - 4, by omega⟩
      rw [py12_group] at h
      cases hp : py12 t m with
      | error e => rw [hp] at h; cases h
      | ok qs =>
        rw [hp] at h
        cases h
        obtain ⟨h1, h2⟩ := both12 (R := R) hp
        refine ⟨by simp [four, h1], ?_⟩
        intro k q hk
        by_cases hk4 : k < 4
        · refine chan12_first ?_
          rwa [List.getElem?_append_left (by simpa [four] using hk4)] at hk
        · obtain ⟨j, rfl⟩ : ∃ j, k = j + 4 := ⟨k - 4, by omega⟩
          rw [List.getElem?_append_right (by simp [four])] at hk
          simp only [four, List.length_cons, List.length_nil, Nat.add_sub_cancel] at hk
          show chan12 (b0 :: b1 :: b2 :: b3 :: b4 :: b5 :: (t ++ R)) (j + 4) = _
          rw [chan12_next]
          exact h2 j q hk

theorem four_group {a b c d : Nat} (ha : a < 4096) (hb : b < 4096) (hc : c < 4096) (hd : d < 4096)
    {b0 b1 b2 b3 b4 b5 : UInt8} (h : pack12.group a b c d = [b0, b1, b2, b3, b4, b5]) :
    four b0 b1 b2 b3 b4 b5 = [a, b, c, d] := by
  unfold pack12.group at h
  injection h with e0 h
  injection h with e1 h
  injection h with e2 h
  injection h with e3 h
  injection h with e4 h
  injection h with e5 h
  subst e0 e1 e2 e3 e4 e5
  unfold four
  simp only [UInt8.toNat_ofNat']
  simp
  omega

theorem py12_short {a b c d : Nat} (ha : a < 4096) (hb : b < 4096) (hc : c < 4096) (hd : d < 4096)
    {n : Nat} (hn : n < 4) : py12 (pack12.group a b c d) n = .ok ([a, b, c, d].take n) := by
  obtain ⟨b0, b1, b2, b3, b4, b5, e⟩ : ∃ b0 b1 b2 b3 b4 b5, pack12.group a b c d = [b0, b1, b2, b3, b4, b5] :=
    ⟨_, _, _, _, _, _, rfl⟩
  rw [e, ← four_group ha hb hc hd e]
  have : ∃ ps, py12 [b0, b1, b2, b3, b4, b5] n = .ok ps := by
    have : n = 0 ∨ n = 1 ∨ n = 2 ∨ n = 3 := by omega
    rcases this with rfl | rfl | rfl | rfl <;> exact ⟨_, rfl⟩
  obtain ⟨ps, h⟩ := this
  rw [h, py12_few hn h]

theorem py12_ok : ∀ {ps : List Nat}, (∀ p ∈ ps, p < 4096) → py12 (pack12 ps) ps.length = .ok ps
  | [], _ => rfl
  | [a], h => py12_short (h a (by simp)) (by decide) (by decide) (by decide) (by simp)
  | [a, b], h => py12_short (h a (by simp)) (h b (by simp)) (by decide) (by decide) (by simp)
  | [a, b, c], h => py12_short (h a (by simp)) (h b (by simp)) (h c (by simp)) (by decide) (by simp)
  | a :: b :: c :: d :: t, h => by
    obtain ⟨b0, b1, b2, b3, b4, b5, e⟩ : ∃ b0 b1 b2 b3 b4 b5, pack12.group a b c d = [b0, b1, b2, b3, b4, b5] :=
      ⟨_, _, _, _, _, _, rfl⟩
    have ih := py12_ok (ps := t) fun p hp => h p (by simp [hp])
    rw [pack12, e, ← List.take_append_drop 0 (a :: b :: c :: d :: t)]
    show py12 (b0 :: b1 :: b2 :: b3 :: b4 :: b5 :: pack12 t) (t.length + 4) = _
    rw [py12_group, ih]
    dsimp only
    rw [four_group (h a (by simp)) (h b (by simp)) (h c (by simp)) (h d (by simp)) e]
    rfl

end Verif.Hypermap
