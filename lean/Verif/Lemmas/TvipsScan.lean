import Verif.Model.TvipsScan
import Verif.Spec.TvipsScan
import Mathlib.Tactic.Common
/-! Lemmas for C95. -/
namespace Verif.Lemmas.TvipsScan
open Verif.TvipsScan Verif.Spec.TvipsScan

theorem sub32_le {a b : Nat} (h : b ≤ a) (ha : a < 2 ^ 32) : sub32 a b = a - b := by
  unfold sub32
  have e : a + 2 ^ 32 - b = (a - b) + 2 ^ 32 := by omega
  rw [e, Nat.add_mod_right, Nat.mod_eq_of_lt (by omega)]

theorem sub32_pos {a b : Nat} (ha : a < 2 ^ 32) (hb : b < 2 ^ 32) : 0 < sub32 a b ↔ a ≠ b := by
  unfold sub32
  constructor
  · rintro h rfl
    rw [Nat.add_sub_cancel_left, Nat.mod_self] at h
    omega
  · intro h
    rcases Nat.lt_or_gt_of_ne h with h | h
    · rw [Nat.mod_eq_of_lt (by omega)]
      omega
    · have e : a + 2 ^ 32 - b = (a - b) + 2 ^ 32 := by omega
      rw [e, Nat.add_mod_right, Nat.mod_eq_of_lt (by omega)]
      omega

theorem assign_length (a : List Nat) (lo hi : Nat) (v : Nat → Nat) : (assign a lo hi v).length = a.length := by
  unfold assign
  rw [List.length_mapIdx]

theorem assign_get {a : List Nat} {lo hi k : Nat} {v : Nat → Nat} (hk : k < a.length) : (assign a lo hi v).getD k 0 = if lo ≤ k ∧ k < hi then v (k - lo) else a.getD k 0 := by
  unfold assign
  rw [List.getD_eq_getElem?_getD, List.getElem?_mapIdx, List.getElem?_eq_getElem hk, List.getD_eq_getElem?_getD, List.getElem?_eq_getElem hk]
  rfl

/-- The frames that are handed out. -/
def stackOf (inv n : Nat) : List Nat := (List.range n).map (inv + ·)

theorem stack_get {inv n k : Nat} (h : k < n) : (stackOf inv n).getD k 0 = inv + k := by
  unfold stackOf
  rw [List.getD_eq_getElem?_getD, List.getElem?_map, List.getElem?_range h]
  rfl

theorem stack_last {inv n : Nat} (h : 0 < n) : (stackOf inv n).getLastD 0 = inv + n - 1 := by
  obtain ⟨m, rfl⟩ : ∃ m, n = m + 1 := ⟨n - 1, by omega⟩
  unfold stackOf
  rw [List.range_succ, List.map_append, List.map_singleton, List.getLastD_eq_getLast?, List.getLast?_concat]
  rfl

theorem stack_take (inv n m : Nat) : (stackOf inv n).take m = stackOf inv (min m n) := by
  unfold stackOf
  rw [← List.map_take, List.take_range]

/-- The state of the loop before the frame `i`. -/
structure Inv (r : List Nat) (N i : Nat) (st : List Nat × Nat) : Prop where
  length : st.1.length = N
  le : st.2 ≤ i
  lt : st.2 < i ∨ i = 0
  run : ∀ j, st.2 ≤ j → j < i → r.getD j 0 = r.getD st.2 0
  first : ∀ j, j < st.2 → r.getD j 0 < r.getD st.2 0
  before : ∀ p, 1 ≤ p → p < r.getD 0 0 → p ≤ N → st.1.getD (p - 1) 0 = 0
  placed : ∀ p, r.getD 0 0 ≤ p → p < r.getD st.2 0 → Placed r p (st.1.getD (p - 1) 0)

theorem fill_inv {r : List Nat} {N : Nat} (hs : Sorted r) (h1 : 1 ≤ r.getD 0 0) (hN : ∀ j, j < r.length → r.getD j 0 ≤ N) (hb : N < 2 ^ 32) {i : Nat} (hi : i < r.length) {st : List Nat × Nat}
    (h : Inv r N i st) : ∃ st', fill r st i = .ok st' ∧ Inv r N (i + 1) st' := by
  obtain ⟨a, inv⟩ := st
  have hlen := h.length
  have hle := h.le
  have hrun := h.run
  have hfirst := h.first
  have hbefore := h.before
  have hplaced := h.placed
  dsimp only at hlen hle hrun hfirst hbefore hplaced
  have hinv : inv < r.length := by omega
  have hvi : r.getD inv 0 ≤ r.getD i 0 := hs inv i hle hi
  have hv1 : 1 ≤ r.getD inv 0 := Nat.le_trans h1 (hs 0 inv (Nat.zero_le _) hinv)
  have hiN := hN i hi
  by_cases e : r.getD inv 0 = r.getD i 0
  · refine ⟨(a, inv), ?_, ⟨hlen, by show inv ≤ i + 1; omega, Or.inl (by show inv < i + 1; omega), ?_, hfirst, hbefore, hplaced⟩⟩
    · unfold fill
      rw [if_neg (by simpa using e)]
    · intro j hj1 hj2
      by_cases hj : j = i
      · rw [hj]; exact e.symm
      · exact hrun j hj1 (by omega)
  · obtain ⟨v, hv⟩ : ∃ v, r.getD inv 0 = v := ⟨_, rfl⟩
    obtain ⟨v', hv'⟩ : ∃ v', r.getD i 0 = v' := ⟨_, rfl⟩
    have hlt : inv < i := by
      rcases h.lt with hl | hl
      · exact hl
      · exfalso
        apply e
        have : inv = i := by omega
        rw [this]
    rw [hv, hv'] at e hvi
    rw [hv] at hrun hfirst hplaced hv1
    rw [hv'] at hiN
    have hps : sub32 v 1 = v - 1 := sub32_le hv1 (by omega)
    have hpe : sub32 v' 1 = v' - 1 := sub32_le (by omega) (by omega)
    have hd : sub32 (v' - 1) (v - 1) = v' - v := by
      rw [sub32_le (by omega) (by omega)]
      omega
    obtain ⟨n, hn⟩ : ∃ n, n = min (v' - v) (i - inv) := ⟨_, rfl⟩
    have hn0 : 0 < n := by omega
    have hslen : (stackOf inv n).length = n := by
      unfold stackOf
      simp
    have hhi : add32 (v - 1) n = v - 1 + n := by
      unfold add32
      exact Nat.mod_eq_of_lt (by omega)
    refine ⟨(assign (assign a (v - 1) (v' - 1) fun _ => (stackOf inv n).getLastD 0) (v - 1) (v - 1 + n) fun k => (stackOf inv n).getD k 0, i), ?_, ⟨?_, ?_, ?_, ?_, ?_, ?_, ?_⟩⟩
    · unfold fill
      dsimp only
      rw [hv, hv', if_pos e, hps, hpe, hd]
      have e1 : ((List.range (i - inv)).map (inv + ·)).take (v' - v) = stackOf inv n := by
        have := stack_take inv (i - inv) (v' - v)
        rw [← hn] at this
        exact this
      rw [e1, hslen, hhi, assign_length, hlen, if_pos]
      left
      omega
    · dsimp only
      rw [assign_length, assign_length]
      exact hlen
    · show i ≤ i + 1
      omega
    · left
      show i < i + 1
      omega
    · intro j hj1 hj2
      have : j = i := by
        have h1 : i ≤ j := hj1
        omega
      rw [this]
    · intro j hj
      dsimp only at hj ⊢
      rw [hv']
      by_cases hji : j < inv
      · have := hfirst j hji
        omega
      · have := hrun j (by omega) hj
        omega
    · intro p hp1 hp2 hp3
      have hp : p < v := by
        have := hs 0 inv (Nat.zero_le _) hinv
        rw [hv] at this
        omega
      dsimp only
      rw [assign_get (by rw [assign_length, hlen]; omega), if_neg (by omega), assign_get (by rw [hlen]; omega), if_neg (by omega)]
      exact hbefore p hp1 hp2 hp3
    · intro p hp1 hp2
      dsimp only at hp2 ⊢
      rw [hv'] at hp2
      by_cases hp : p < v
      · rw [assign_get (by rw [assign_length, hlen]; omega), if_neg (by omega), assign_get (by rw [hlen]; omega), if_neg (by omega)]
        exact hplaced p hp1 hp
      · refine ⟨v, inv, i - 1, by omega, by omega, ?_, by omega, ?_, ?_⟩
        · intro j hj
          constructor
          · intro ej
            refine ⟨?_, ?_⟩
            · by_contra hno
              have := hfirst j (by omega)
              omega
            · by_contra hno
              have := hs i j (by omega) hj
              omega
          · rintro ⟨hj1, hj2⟩
            exact hrun j hj1 (by omega)
        · intro j hj hjp
          by_cases hji : j < i
          · by_cases hjinv : j < inv
            · have := hfirst j hjinv
              omega
            · rw [hrun j (by omega) hji]
          · have := hs i j (by omega) hj
            omega
        · rw [assign_get (by rw [assign_length, hlen]; omega)]
          by_cases hk : p - 1 < v - 1 + n
          · rw [if_pos ⟨by omega, hk⟩, stack_get (by omega)]
            omega
          · rw [if_neg (by omega), assign_get (by rw [hlen]; omega), if_pos (by omega), stack_last hn0]
            omega

theorem fold_inv {r : List Nat} {N : Nat} (hs : Sorted r) (h1 : 1 ≤ r.getD 0 0) (hN : ∀ j, j < r.length → r.getD j 0 ≤ N) (hb : N < 2 ^ 32) : ∀ i, i ≤ r.length →
    ∃ st, (List.range i).foldlM (fill r) (List.replicate N 0, 0) = .ok st ∧ Inv r N i st
  | 0, _ => by
    refine ⟨(List.replicate N 0, 0), rfl, ⟨by simp, Nat.le_refl _, Or.inr rfl, ?_, ?_, ?_, ?_⟩⟩
    · intro j h1 h2
      omega
    · intro j hj
      exact absurd hj (Nat.not_lt_zero _)
    · intro p hp1 _ hp3
      dsimp only
      rw [List.getD_eq_getElem?_getD, List.getElem?_replicate]
      split <;> rfl
    · intro p hp1 hp2
      dsimp only at hp2
      omega
  | i + 1, hi => by
    obtain ⟨st, h2, h3⟩ := fold_inv hs h1 hN hb i (by omega)
    obtain ⟨st', h4, h5⟩ := fill_inv hs h1 hN hb (by omega) h3
    refine ⟨st', ?_, h5⟩
    rw [List.range_succ, List.foldlM_append, h2]
    simp only [bind, Except.bind, List.foldlM_cons, h4, List.foldlM_nil]
    rfl

/-- What the grid holds. -/
theorem grid_ok {rot : List Nat} {start stop : Nat} {r : List Nat} (hr : r = (rot.drop start).take (stop + 1 - start)) (hstop : start ≤ stop) (hlt : stop < rot.length) (hs : Sorted r) (h1 : 1 ≤ r.getD 0 0)
    (hb : rot.getD stop 0 < 2 ^ 32) : ∃ g, guessGrid rot start stop = .ok g ∧ g.length = rot.getD stop 0 ∧
      (∀ p, 1 ≤ p → p < r.getD 0 0 → p ≤ rot.getD stop 0 → g.getD (p - 1) 0 = start) ∧ ∀ p, r.getD 0 0 ≤ p → p ≤ rot.getD stop 0 → ∃ f, Placed r p f ∧ g.getD (p - 1) 0 = f + start := by
  obtain ⟨N, hNdef⟩ : ∃ N, rot.getD stop 0 = N := ⟨_, rfl⟩
  have hrlen : r.length = stop + 1 - start := by
    rw [hr, List.length_take, List.length_drop]
    omega
  have hget : ∀ j, j < r.length → r.getD j 0 = rot.getD (start + j) 0 := by
    intro j hj
    rw [hrlen] at hj
    rw [hr, List.getD_eq_getElem?_getD, List.getElem?_take, if_pos hj, List.getElem?_drop, ← List.getD_eq_getElem?_getD]
  have hlast : r.getD (r.length - 1) 0 = N := by
    rw [hget _ (by omega), hrlen, ← hNdef]
    congr 1
    omega
  have hN : ∀ j, j < r.length → r.getD j 0 ≤ N := by
    intro j hj
    rw [← hlast]
    exact hs j _ (by omega) (by omega)
  rw [hNdef] at hb ⊢
  obtain ⟨⟨a, inv⟩, h2, h3⟩ := fold_inv hs h1 hN hb r.length (Nat.le_refl _)
  have hlen := h3.length
  have hlt2 := h3.lt
  have hrun := h3.run
  have hfirst := h3.first
  have hbefore := h3.before
  have hplaced := h3.placed
  dsimp only at hlen hlt2 hrun hfirst hbefore hplaced
  have hinv : inv < r.length := by omega
  have hvN : r.getD inv 0 = N := by
    rw [← hrun (r.length - 1) (by omega) (by omega)]
    exact hlast
  have hN1 : 1 ≤ N := Nat.le_trans h1 (hN 0 (by omega))
  obtain ⟨b, hbdef⟩ : ∃ b, b = assign a (N - 1) N fun _ => inv := ⟨_, rfl⟩
  have hblen : b.length = N := by rw [hbdef, assign_length, hlen]
  have hmap : ∀ p, 1 ≤ p → p ≤ N → (b.map (· + start)).getD (p - 1) 0 = b.getD (p - 1) 0 + start := by
    intro p hp1 hp2
    have hl : p - 1 < b.length := by omega
    rw [List.getD_eq_getElem?_getD, List.getElem?_map, List.getElem?_eq_getElem hl, List.getD_eq_getElem?_getD, List.getElem?_eq_getElem hl]
    rfl
  have hbget : ∀ p, 1 ≤ p → p ≤ N → b.getD (p - 1) 0 = if p = N then inv else a.getD (p - 1) 0 := by
    intro p hp1 hp2
    rw [hbdef, assign_get (by omega)]
    by_cases hp : p = N
    · rw [if_pos hp, if_pos (by omega)]
    · rw [if_neg hp, if_neg (by omega)]
  refine ⟨b.map (· + start), ?_, by rw [List.length_map, hblen], ?_, ?_⟩
  · unfold guessGrid
    dsimp only
    rw [← hr, hNdef, h2]
    dsimp only
    rw [hvN, sub32_le hN1 hb, hlen, hbdef]
  · intro p hp1 hp2 hp3
    rw [hmap p hp1 hp3, hbget p hp1 hp3, if_neg, hbefore p hp1 hp2 hp3]
    · omega
    · have := hN 0 (by omega)
      omega
  · intro p hp1 hp2
    rw [hmap p (by omega) hp2]
    refine ⟨_, ?_, rfl⟩
    rw [hbget p (by omega) hp2]
    by_cases hp : p = N
    · rw [if_pos hp]
      refine ⟨N, inv, r.length - 1, by omega, by omega, ?_, by omega, ?_, by omega⟩
      · intro j hj
        constructor
        · intro ej
          refine ⟨?_, by omega⟩
          by_contra hno
          have := hfirst j (by omega)
          omega
        · rintro ⟨hj1, _⟩
          rw [hrun j hj1 hj]
          exact hvN
      · intro j hj _
        exact hN j hj
    · rw [if_neg hp]
      exact hplaced p hp1 (by omega)

/-- Where indices change. -/
theorem mem_changes {rot : List Nat} (hb : ∀ j, j < rot.length → rot.getD j 0 < 2 ^ 32) {i : Nat} : i ∈ changes rot ↔ i + 1 < rot.length ∧ rot.getD (i + 1) 0 ≠ rot.getD i 0 := by
  unfold changes
  rw [List.mem_filter, List.mem_range, decide_eq_true_eq]
  constructor
  · rintro ⟨h1, h2⟩
    exact ⟨by omega, (sub32_pos (hb _ (by omega)) (hb _ (by omega))).1 h2⟩
  · rintro ⟨h1, h2⟩
    exact ⟨by omega, (sub32_pos (hb _ (by omega)) (hb _ (by omega))).2 h2⟩

theorem changes_sorted (rot : List Nat) : (changes rot).Pairwise (· < ·) := by
  unfold changes
  exact List.Pairwise.filter _ List.pairwise_lt_range

theorem const_until {rot : List Nat} {a b : Nat} (hab : a ≤ b) (h : ∀ i, a ≤ i → i < b → rot.getD (i + 1) 0 = rot.getD i 0) : rot.getD b 0 = rot.getD a 0 := by
  induction b with
  | zero =>
    have : a = 0 := by omega
    rw [this]
  | succ b ih =>
    by_cases e : a = b + 1
    · rw [e]
    · rw [h b (by omega) (by omega)]
      exact ih (by omega) fun i h1 h2 => h i h1 (by omega)

/-- Start and stop: the first run and the last run. -/
theorem startStop_ok {rot : List Nat} (hb : ∀ j, j < rot.length → rot.getD j 0 < 2 ^ 32) (hne : ∃ j, j < rot.length ∧ rot.getD j 0 ≠ rot.getD 0 0) :
    ∃ s e, startStop rot = some (if rot.getD s 0 = 0 then s + 1 else s, e + 1) ∧ s ≤ e ∧ e + 1 < rot.length ∧ rot.getD (s + 1) 0 ≠ rot.getD s 0 ∧ (∀ j, j ≤ s → rot.getD j 0 = rot.getD 0 0) ∧
      ∀ j, e + 1 ≤ j → j < rot.length → rot.getD j 0 = rot.getD (rot.length - 1) 0 := by
  have hmem := fun i => mem_changes hb (i := i)
  have hsorted := changes_sorted rot
  cases hc : changes rot with
  | nil =>
    exfalso
    obtain ⟨j, hj, hne⟩ := hne
    apply hne
    apply const_until (Nat.zero_le j)
    intro i _ h2
    by_contra hno
    have := (hmem i).2 ⟨by omega, hno⟩
    rw [hc] at this
    simp at this
  | cons s l =>
    rw [hc] at hsorted hmem
    obtain ⟨e, he⟩ : ∃ e, (s :: l).getLastD 0 = e := ⟨_, rfl⟩
    have hel : (s :: l).getLast (by simp) = e := by
      rw [← he, List.getLastD_eq_getLast?, List.getLast?_eq_some_getLast (by simp)]
      rfl
    have hmax : ∀ x ∈ s :: l, x ≤ e := by
      intro x hx
      obtain ⟨init, hinit⟩ : ∃ init, s :: l = init ++ [e] := ⟨(s :: l).dropLast, by rw [← hel, List.dropLast_append_getLast]⟩
      rw [hinit] at hx hsorted
      rcases List.mem_append.1 hx with hx | hx
      · exact Nat.le_of_lt (List.pairwise_append.1 hsorted |>.2.2 x hx e (by simp))
      · rw [List.mem_singleton.1 hx]
    have hemem : e ∈ s :: l := by
      rw [← hel]
      exact List.getLast_mem _
    have hsm := (hmem s).1 (List.mem_cons_self ..)
    have hem := (hmem e).1 hemem
    refine ⟨s, e, ?_, hmax s (List.mem_cons_self ..), hem.1, hsm.2, ?_, ?_⟩
    · unfold startStop
      rw [hc]
      dsimp only
      rw [he]
    · intro j hj
      apply const_until (Nat.zero_le j)
      intro i _ h2
      by_contra hno
      have hi := (hmem i).2 ⟨by omega, hno⟩
      rcases List.mem_cons.1 hi with hi | hi
      · omega
      · have := (List.pairwise_cons.1 hsorted).1 i hi
        omega
    · intro j hj1 hj2
      symm
      apply const_until (by omega)
      intro i h1 h2
      by_contra hno
      have := hmax i ((hmem i).2 ⟨by omega, hno⟩)
      omega

end Verif.Lemmas.TvipsScan
