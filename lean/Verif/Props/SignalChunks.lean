import Verif.Model.SignalChunks
import Mathlib.Data.List.Nodup
import Mathlib.Data.List.Perm.Subperm
import Mathlib.Algebra.BigOperators.Group.List.Basic
import Mathlib.Tactic.Ring
/-! Property C19: the chunk shapes chosen for saving. -/
namespace Verif.Props.SignalChunks
open Verif Verif.SignalChunks

/-- What is assumed about the floating-point root `int(floor((s / p) ** (1 / k)))`: it is not
larger than the real root, and it is at least 1 when `s / p` is. (Rounding downwards, e.g.
`1000 ** (1/3) = 9.99…`, is allowed.) -/
def RootOk (root : Nat → Nat → Nat → Nat) : Prop :=
  ∀ s p k, 0 < k → 0 < p → p * root s p k ^ k ≤ s ∧ (p ≤ s → 1 ≤ root s p k)

/-- A chunk shape that HDF5 and zarr accept for this array, keeping the signal axes whole. -/
def ValidFor (shape sig chunks : List Nat) : Prop :=
  chunks.length = shape.length ∧
  (∀ i c n : Nat, chunks[i]? = some c → shape[i]? = some n → 1 ≤ c ∧ c ≤ n ∧ (i ∈ sig → c = n))

theorem size_eq {shape : List Nat} {i n : Nat} (h : shape[i]? = some n) : size shape i = n := by
  simp [size, List.getD, h]

theorem size_pos {shape : List Nat} (hpos : ∀ n ∈ shape, 0 < n) {i : Nat} (hi : i < shape.length) :
    0 < size shape i := by
  have h : shape[i]? = some shape[i] := List.getElem?_eq_getElem hi
  rw [size_eq h]
  exact hpos _ (List.getElem_mem hi)

theorem prodSizes_append (shape a b : List Nat) :
    prodSizes shape (a ++ b) = prodSizes shape a * prodSizes shape b := by
  simp [prodSizes]

theorem prodSizes_perm (shape : List Nat) {a b : List Nat} (h : a.Perm b) :
    prodSizes shape a = prodSizes shape b := (h.map _).prod_eq

theorem prodSizes_pos (shape : List Nat) (hpos : ∀ n ∈ shape, 0 < n) : ∀ axes : List Nat,
    (∀ i ∈ axes, i < shape.length) → 0 < prodSizes shape axes
  | [], _ => by simp [prodSizes]
  | i :: is, h => by
    have h1 := size_pos hpos (h i List.mem_cons_self)
    have h2 := prodSizes_pos shape hpos is fun j hj => h j (List.mem_cons_of_mem _ hj)
    show 0 < size shape i * prodSizes shape is
    exact Nat.mul_pos h1 h2

/-- A product of numbers below `c`. -/
theorem prod_le_pow (shape : List Nat) (c : Nat) : ∀ axes : List Nat,
    (∀ i ∈ axes, size shape i < c) → prodSizes shape axes ≤ c ^ axes.length
  | [], _ => by simp [prodSizes]
  | i :: is, h => by
    have h1 := h i List.mem_cons_self
    have h2 := prod_le_pow shape c is fun j hj => h j (List.mem_cons_of_mem _ hj)
    show size shape i * prodSizes shape is ≤ c ^ (is.length + 1)
    rw [Nat.pow_succ, Nat.mul_comm]
    exact Nat.mul_le_mul h2 (Nat.le_of_lt h1)

theorem prod_lt_pow (shape : List Nat) (c : Nat) (axes : List Nat) (hne : axes ≠ [])
    (h : ∀ i ∈ axes, size shape i < c) : prodSizes shape axes < c ^ axes.length := by
  rcases axes with _ | ⟨i, is⟩
  · exact absurd rfl hne
  have h1 := h i List.mem_cons_self
  have h2 := prod_le_pow shape c is fun j hj => h j (List.mem_cons_of_mem _ hj)
  show size shape i * prodSizes shape is < c ^ (is.length + 1)
  rw [Nat.pow_succ, Nat.mul_comm]
  have hc : 0 < c ^ is.length := Nat.pow_pos (by omega)
  calc prodSizes shape is * size shape i ≤ c ^ is.length * size shape i :=
        Nat.mul_le_mul_right _ h2
    _ < c ^ is.length * c := Nat.mul_lt_mul_of_pos_left h1 hc

theorem mem_pass {shape sig small : List Nat} {c i : Nat} :
    i ∈ pass shape sig small c ↔ i < shape.length ∧ i ∉ sig ∧ i ∉ small ∧ size shape i < c := by
  simp [pass, and_assoc]

theorem mem_nav {shape sig : List Nat} {i : Nat} :
    i ∈ navAxes shape sig ↔ i < shape.length ∧ i ∉ sig := by
  simp [navAxes]

theorem nav_nodup (shape sig : List Nat) : (navAxes shape sig).Nodup :=
  List.nodup_range.filter _

/-- The loop invariant gives the result: no division by zero, no endless loop, and a chunk
length that fits every axis that was not declared small. -/
theorem loop_spec (root : Nat → Nat → Nat → Nat) (hroot : RootOk root) (shape sig : List Nat)
    (hpos : ∀ n ∈ shape, 0 < n) (s : Nat) (hs : s ≤ prodSizes shape (navAxes shape sig)) :
    ∀ (fuel : Nat) (small : List Nat), small.Nodup → (∀ i ∈ small, i ∈ navAxes shape sig) →
      small.length < (navAxes shape sig).length → prodSizes shape small ≤ s →
      (navAxes shape sig).length ≤ fuel + small.length →
      ∃ small' c, loop root shape sig s fuel small = .ok (small', c) ∧ 1 ≤ c ∧
        ∀ i ∈ navAxes shape sig, i ∉ small' → c ≤ size shape i
  | 0, small, _, _, hlt, _, hf => by omega
  | fuel + 1, small, hnd, hsub, hlt, hp, hf => by
    have hk : 0 < (navAxes shape sig).length - small.length := by omega
    have hppos : 0 < prodSizes shape small :=
      prodSizes_pos shape hpos small fun i hi => (mem_nav.1 (hsub i hi)).1
    obtain ⟨hr1, hr2⟩ := hroot s (prodSizes shape small) _ hk hppos
    unfold loop
    simp only [Nat.ne_of_gt hk, if_false]
    by_cases hnew : pass shape sig small (root s (prodSizes shape small)
        ((navAxes shape sig).length - small.length)) = []
    · rw [if_pos hnew]
      refine ⟨small, _, rfl, hr2 hp, fun i hi hni => ?_⟩
      by_contra hlt'
      have : i ∈ pass shape sig small (root s (prodSizes shape small)
          ((navAxes shape sig).length - small.length)) :=
        mem_pass.2 ⟨(mem_nav.1 hi).1, (mem_nav.1 hi).2, hni, by omega⟩
      rw [hnew] at this
      exact absurd this (by simp)
    · rw [if_neg hnew]
      generalize hc : root s (prodSizes shape small) ((navAxes shape sig).length - small.length) = c
        at *
      generalize hnw : pass shape sig small c = new at *
      have hnewmem : ∀ i ∈ new, i < shape.length ∧ i ∉ sig ∧ i ∉ small ∧ size shape i < c := by
        intro i hi; rw [← hnw] at hi; exact mem_pass.1 hi
      have hnewnd : new.Nodup := by rw [← hnw]; exact List.nodup_range.filter _
      have hallnd : (small ++ new).Nodup :=
        List.nodup_append.2 ⟨hnd, hnewnd, fun a ha b hb e => (hnewmem b hb).2.2.1 (e ▸ ha)⟩
      have hallsub : ∀ i ∈ small ++ new, i ∈ navAxes shape sig := by
        intro i hi
        rcases List.mem_append.1 hi with h | h
        · exact hsub i h
        · exact mem_nav.2 ⟨(hnewmem i h).1, (hnewmem i h).2.1⟩
      have hsp : (small ++ new).Subperm (navAxes shape sig) := hallnd.subperm hallsub
      have hle : (small ++ new).length ≤ (navAxes shape sig).length := hsp.length_le
      have hlen : (small ++ new).length = small.length + new.length := by simp
      have hcpos : 0 < c := by
        rcases new with _ | ⟨i, is⟩
        · exact absurd rfl hnew
        · have := (hnewmem i List.mem_cons_self).2.2.2; omega
      have hprod := prod_le_pow shape c new fun i hi => (hnewmem i hi).2.2.2
      have hprodlt := prod_lt_pow shape c new hnew fun i hi => (hnewmem i hi).2.2.2
      have hnl : 0 < new.length := List.length_pos_iff.2 hnew
      have hple : prodSizes shape (small ++ new) ≤ s := by
        rw [prodSizes_append]
        calc prodSizes shape small * prodSizes shape new
            ≤ prodSizes shape small * c ^ new.length := Nat.mul_le_mul_left _ hprod
          _ ≤ prodSizes shape small * c ^ ((navAxes shape sig).length - small.length) :=
              Nat.mul_le_mul_left _ (Nat.pow_le_pow_right hcpos (by omega))
          _ ≤ s := hr1
      have hlt2 : (small ++ new).length < (navAxes shape sig).length := by
        rcases Nat.lt_or_eq_of_le hle with h | h
        · exact h
        · exfalso
          have hperm : (small ++ new).Perm (navAxes shape sig) :=
            hsp.perm_of_length_le (by omega)
          have := prodSizes_perm shape hperm
          rw [prodSizes_append] at this
          have h1 : prodSizes shape small * prodSizes shape new <
              prodSizes shape small * c ^ new.length := Nat.mul_lt_mul_of_pos_left hprodlt hppos
          have h2 : (navAxes shape sig).length - small.length = new.length := by omega
          rw [h2] at hr1
          omega
      exact loop_spec root hroot shape sig hpos s hs fuel (small ++ new) hallnd hallsub hlt2 hple
        (by omega)

theorem range_map_get {β : Type} (n : Nat) (f : Nat → β) (i : Nat) (c : β)
    (h : ((List.range n).map f)[i]? = some c) : i < n ∧ f i = c := by
  rw [List.getElem?_map] at h
  by_cases hi : i < n
  · rw [List.getElem?_range hi] at h
    simp at h
    exact ⟨hi, h⟩
  · rw [List.getElem?_eq_none (by simp; omega)] at h
    simp at h

/-- **C19 (partial)**: for arrays without empty axes, `get_signal_chunks` never fails and returns
`True` or a chunk shape with one length per axis, at least 1 and at most the size of the axis,
and the whole axis for every signal axis. Missing: arrays with an empty axis (see
`C19_fails_empty_signal`, `C19_fails_empty_navigation`). -/
theorem C19_valid_chunks_partial (root : Nat → Nat → Nat → Nat) (hroot : RootOk root)
    (shape : List Nat) (itemsize : Nat) (signalAxes : Option (List Nat)) (target : Nat)
    (hpos : ∀ n ∈ shape, 0 < n) (hitem : 0 < itemsize)
    (hsig : ∀ sig, signalAxes = some sig → ∀ i ∈ sig, i < shape.length) :
    ∃ r, getSignalChunks root shape itemsize signalAxes target = .ok r ∧
      (r = .auto ↔ signalAxes = none) ∧
      ∀ sig chunks, signalAxes = some sig → r = .shape chunks → ValidFor shape sig chunks := by
  cases signalAxes with
  | none => exact ⟨.auto, rfl, by simp, by simp⟩
  | some sig =>
    have hsig := hsig sig rfl
    have h0 : shape ≠ [0] := by
      intro h; subst h; exact absurd (hpos 0 (by simp)) (by omega)
    have hb : 0 < prodSizes shape sig * itemsize :=
      Nat.mul_pos (prodSizes_pos shape hpos sig hsig) hitem
    unfold getSignalChunks
    simp only [h0, if_false, Nat.ne_of_gt hb]
    by_cases h1 : target / (prodSizes shape sig * itemsize) < 2 ∨ (navAxes shape sig).length = 0
    · rw [if_pos h1]
      refine ⟨_, rfl, by simp, fun sig' chunks hs hc => ?_⟩
      cases hs; cases hc
      refine ⟨by simp, fun i c n hic hin => ?_⟩
      obtain ⟨hi, hf⟩ := range_map_get _ _ _ _ hic
      have hsz := size_eq hin
      have hnp : 0 < n := hsz ▸ size_pos hpos hi
      by_cases hm : i ∈ sig
      · simp [hm, hsz] at hf; omega
      · simp [hm] at hf
        subst hf
        exact ⟨by omega, by omega, fun h => absurd h hm⟩
    · rw [if_neg h1]
      by_cases h2 : target / (prodSizes shape sig * itemsize) > prodSizes shape (navAxes shape sig)
      · rw [if_pos h2]
        refine ⟨_, rfl, by simp, fun sig' chunks hs hc => ?_⟩
        cases hs; cases hc
        refine ⟨rfl, fun i c n hic hin => ?_⟩
        rw [hic] at hin
        cases hin
        have := hpos c (List.mem_of_getElem? hic)
        exact ⟨by omega, by omega, fun _ => rfl⟩
      · rw [if_neg h2]
        have hnl : (navAxes shape sig).length ≤ shape.length := by
          have := List.length_filter_le (fun i => !sig.contains i) (List.range shape.length)
          simpa [navAxes] using this
        obtain ⟨small, c, hl, hc1, hc2⟩ := loop_spec root hroot shape sig hpos
          (target / (prodSizes shape sig * itemsize)) (by omega)
          (shape.length + 1) [] List.nodup_nil (by simp) (by simp; omega)
          (by show 1 ≤ _; omega) (by simp; omega)
        rw [hl]
        refine ⟨_, rfl, by simp, fun sig' chunks hs hc => ?_⟩
        cases hs; cases hc
        refine ⟨by simp, fun i c' n hic hin => ?_⟩
        obtain ⟨hi, hf⟩ := range_map_get _ _ _ _ hic
        have hsz := size_eq hin
        have hnp : 0 < n := hsz ▸ size_pos hpos hi
        by_cases hm : i ∈ sig
        · simp [hm, hsz] at hf; omega
        · by_cases hms : i ∈ small
          · simp [hms, hsz] at hf
            subst hf
            exact ⟨by omega, by omega, fun h => absurd h hm⟩
          · simp [hm, hms] at hf
            subst hf
            have := hc2 i (mem_nav.2 ⟨hi, hm⟩) hms
            exact ⟨hc1, by omega, fun h => absurd h hm⟩

/-- The exact integer root: the largest `c ≤ s` with `p * c ^ k ≤ s`. -/
def exactRoot (s p k : Nat) : Nat :=
  ((List.range (s + 1)).filter fun c => decide (p * c ^ k ≤ s)).getLastD 0

theorem exactRoot_ok : RootOk exactRoot := by
  intro s p k hk hp
  unfold exactRoot
  have hmem0 : 0 ∈ (List.range (s + 1)).filter fun c => decide (p * c ^ k ≤ s) := by
    simp [Nat.zero_pow hk]
  rcases hl : ((List.range (s + 1)).filter fun c => decide (p * c ^ k ≤ s)) with _ | ⟨a, l⟩
  · rw [hl] at hmem0; simp at hmem0
  have hlast : ((a :: l).getLastD 0) ∈ (a :: l) := by
    have gen : ∀ (l : List Nat) (d : Nat), l.getLastD d ∈ d :: l := by
      intro l
      induction l with
      | nil => intro d; simp
      | cons b bs ih =>
        intro d
        rw [List.getLastD_cons]
        exact List.mem_cons_of_mem _ (ih b)
    rw [List.getLastD_cons]
    exact gen l a
  constructor
  · rw [← hl] at hlast ⊢
    have := (List.mem_filter.1 hlast).2
    simpa using this
  · intro hps
    have h1 : 1 ∈ (a :: l) := by rw [← hl]; simp; omega
    have hsorted : (a :: l).Pairwise (· < ·) := by
      rw [← hl]; exact List.Pairwise.filter _ List.pairwise_lt_range
    by_contra hlt
    have hz : (a :: l).getLastD 0 = 0 := by omega
    have hge : ∀ x ∈ (a :: l), x ≤ (a :: l).getLastD 0 := by
      clear h1 hlt hz hlast hmem0 hl hps
      have gen : ∀ (l : List Nat) (d : Nat), l.Pairwise (· < ·) → (∀ x ∈ l, d ≤ x) → 
          (∀ x ∈ l, x ≤ l.getLastD d) ∧ d ≤ l.getLastD d := by
        intro l
        induction l with
        | nil => intro d _ _; simp
        | cons b bs ih =>
          intro d hp hd
          rw [List.getLastD_cons]
          have h2 := ih b (List.Pairwise.of_cons hp)
            fun x hx => Nat.le_of_lt (List.rel_of_pairwise_cons hp hx)
          refine ⟨fun x hx => ?_, ?_⟩
          · rcases List.mem_cons.1 hx with rfl | hx
            · exact h2.2
            · exact h2.1 x hx
          · exact Nat.le_trans (hd b List.mem_cons_self) h2.2
      exact (gen (a :: l) 0 hsorted (by simp)).1
    have := hge 1 h1
    omega

/-- The hypotheses are met by a 100 × 3 × 1024 array of 4-byte numbers with one signal axis,
and the loop really runs: axis 1 is smaller than the first guess. -/
example : (∀ n ∈ [100, 3, 1024], 0 < n) ∧ (∀ i ∈ [2], i < [100, 3, 1024].length) ∧
    getSignalChunks exactRoot [100, 3, 1024] 4 (some [2]) 100000 = .ok (.shape [8, 3, 1024]) := by
  refine ⟨by simp, by simp, by decide +kernel⟩

/-- C19 is false when the signal is empty: `OverflowError`. -/
theorem C19_fails_empty_signal (root : Nat → Nat → Nat → Nat) :
    getSignalChunks root [5, 0] 8 (some [1]) 1000000 = .error .overflowError := by
  rfl

/-- C19 is false when a navigation axis is empty: the chunk shape contains a zero. -/
theorem C19_fails_empty_navigation (root : Nat → Nat → Nat → Nat) :
    getSignalChunks root [0, 5] 8 (some [1]) 1000000 = .ok (.shape [0, 5]) := by
  rfl

end Verif.Props.SignalChunks
