import Verif.Model.NumpyFile
import Verif.Props.Distributed
/-!
C99: `.npy` files give back the array that was saved.
-/
namespace Verif.Props.NumpyFile
open Verif.NumpyFile Verif.Distributed Verif.DistributedSpec

private theorem inShape_of {shape idx : List Nat} (h : InBounds shape idx) : InShape shape idx := by
  induction h with
  | nil => trivial
  | cons h _ ih => exact ⟨h, ih⟩

private theorem unsqueeze_of {shape idx : List Nat} (h : InBounds shape idx) :
    unsqueeze shape (squeezeIdx shape idx) = idx := by
  induction h with
  | nil => rfl
  | @cons n i ns is h _ ih =>
    by_cases h1 : n = 1
    · subst h1
      have : i = 0 := by omega
      subst this
      simp [squeezeIdx, unsqueeze, ih]
    · simp [squeezeIdx, unsqueeze, h1, ih]

private theorem inBounds_reverse {shape idx : List Nat} (h : InBounds shape idx) :
    InBounds shape.reverse idx.reverse := List.forall₂_reverse_iff.2 h

private theorem size_append (a b : List Nat) : size (a ++ b) = size a * size b := by
  induction a with
  | nil => simp [size]
  | cons n a ih => rw [List.cons_append, size, ih, size, Nat.mul_assoc]

private theorem size_reverse (a : List Nat) : size a.reverse = size a := by
  induction a with
  | nil => rfl
  | cons n a ih => rw [List.reverse_cons, size_append, ih, size, size, size, Nat.mul_one, Nat.mul_comm]

/-- Number of axes among the first `a` that are longer than one. -/
def longBefore (shape : List Nat) (a : Nat) : Nat := ((shape.take a).filter (· ≠ 1)).length

private theorem axes_spec (nav : List Int) : ∀ (shape : List Nat) (k i : Nat),
    (∀ n ∈ shape, n ≠ 0) →
    (axesFrom nav shape k i).map Axis.size = shape.filter (· ≠ 1) ∧
    (∀ (j : Nat) (ax : Axis), (axesFrom nav shape k i)[j]? = some ax → ax.index = i + j) ∧
    (∀ (a n : Nat), shape[a]? = some n → n ≠ 1 → ∃ ax,
      (axesFrom nav shape k i)[longBefore shape a]? = some ax ∧ ax.size = n ∧
      (ax.navigate = true ↔ ((k + a : Nat) : Int) ∈ nav))
  | [], k, i, _ => by simp [axesFrom]
  | n :: ns, k, i, h => by
    have hn : n ≠ 0 := h n (by simp)
    have hns : ∀ m ∈ ns, m ≠ 0 := fun m hm => h m (by simp [hm])
    by_cases h1 : n = 1
    · have e : axesFrom nav (n :: ns) k i = axesFrom nav ns (k + 1) i := by
        rw [axesFrom, if_neg (by omega)]
      obtain ⟨a1, a2, a3⟩ := axes_spec nav ns (k + 1) i hns
      rw [e]
      refine ⟨?_, a2, ?_⟩
      · rw [List.filter_cons, if_neg (by simpa using h1), a1]
      · intro a m ha hm
        cases a with
        | zero =>
          rw [List.getElem?_cons_zero, Option.some.injEq] at ha
          omega
        | succ a =>
          rw [List.getElem?_cons_succ] at ha
          obtain ⟨ax, b1, b2, b3⟩ := a3 a m ha hm
          refine ⟨ax, ?_, b2, ?_⟩
          · unfold longBefore at b1 ⊢
            rw [List.take_succ_cons, List.filter_cons, if_neg (by simpa using h1)]
            exact b1
          · rw [b3, show k + 1 + a = k + (a + 1) by omega]
    · have e : axesFrom nav (n :: ns) k i =
          ⟨n, i, nav.contains (k : Int)⟩ :: axesFrom nav ns (k + 1) (i + 1) := by
        rw [axesFrom, if_pos (by omega)]
      obtain ⟨a1, a2, a3⟩ := axes_spec nav ns (k + 1) (i + 1) hns
      rw [e]
      refine ⟨?_, ?_, ?_⟩
      · rw [List.filter_cons, if_pos (by simpa using h1), List.map_cons, a1]
      · intro j ax hj
        cases j with
        | zero =>
          rw [List.getElem?_cons_zero, Option.some.injEq] at hj
          rw [← hj]
          rfl
        | succ j =>
          rw [List.getElem?_cons_succ] at hj
          rw [a2 j ax hj]
          omega
      · intro a m ha hm
        cases a with
        | zero =>
          rw [List.getElem?_cons_zero, Option.some.injEq] at ha
          refine ⟨_, by rw [longBefore, List.take_zero, List.filter_nil, List.length_nil,
            List.getElem?_cons_zero], ha, ?_⟩
          simp
        | succ a =>
          rw [List.getElem?_cons_succ] at ha
          obtain ⟨ax, b1, b2, b3⟩ := a3 a m ha hm
          refine ⟨ax, ?_, b2, ?_⟩
          · unfold longBefore at b1 ⊢
            rw [List.take_succ_cons, List.filter_cons, if_pos (by simpa using h1), List.length_cons,
              List.getElem?_cons_succ]
            exact b1
          · rw [b3, show k + 1 + a = k + (a + 1) by omega]

/-- The chunks cover the axes. -/
def Covers (shape : List Nat) : Option (List (List Nat)) → Prop
  | none => True
  | some chunks => chunks.map List.sum = shape

/-- C99. An array that is saved and loaded again, lazily with any chunks or not, has its values at
their places, without the axes of length one; there is one axis dictionary for each remaining
dimension, in order, with its size and its place in the array, and it is a navigation axis exactly
when the number of the dimension in the file is in `navigation_axes`.

The full claim has no `hf`, `hz` and covers negative numbers of axes. Missing: lazily loaded arrays
in Fortran order (`C99_fails_fortran`), empty axes (`C99_fails_empty`), negative numbers in
`navigation_axes` (`C99_fails_negative`). -/
theorem C99_roundtrip_partial {α : Type} (s : Source α) (chunks : Option (List (List Nat)))
    (nav : Option (List Int)) (hs : s.dask = false) (hch : Covers s.arr.shape chunks)
    (hf : chunks = none ∨ s.layout ≠ .fortran) (hz : ∀ n ∈ s.arr.shape, n ≠ 0) :
    ∃ f r, write s = .ok f ∧ read f chunks nav = .ok r ∧
      r.data.shape = s.arr.shape.filter (· ≠ 1) ∧
      (∀ idx, InBounds s.arr.shape idx →
        r.data.val (squeezeIdx s.arr.shape idx) = some (s.arr.val idx)) ∧
      r.axes.map Axis.size = r.data.shape ∧
      (∀ (j : Nat) (ax : Axis), r.axes[j]? = some ax → ax.index = j) ∧
      (∀ (a n : Nat), s.arr.shape[a]? = some n → n ≠ 1 → ∃ ax,
        r.axes[longBefore s.arr.shape a]? = some ax ∧ ax.size = n ∧
        (ax.navigate = true ↔ ∃ l, nav = some l ∧ (a : Int) ∈ l)) := by
  have hnav : ∀ a : Nat, ((a : Int) ∈ nav.getD [] ↔ ∃ l, nav = some l ∧ (a : Int) ∈ l) := by
    intro a
    cases nav with
    | none => simp
    | some l => simp
  have key : ∀ d : Arr (Option α), d.shape = s.arr.shape →
      (∀ idx, InBounds s.arr.shape idx → d.val idx = some (s.arr.val idx)) →
      (squeeze d).shape = s.arr.shape.filter (· ≠ 1) ∧
      (∀ idx, InBounds s.arr.shape idx →
        (squeeze d).val (squeezeIdx s.arr.shape idx) = some (s.arr.val idx)) ∧
      (axesFrom (nav.getD []) d.shape 0 0).map Axis.size = (squeeze d).shape ∧
      (∀ (j : Nat) (ax : Axis), (axesFrom (nav.getD []) d.shape 0 0)[j]? = some ax → ax.index = j) ∧
      (∀ (a n : Nat), s.arr.shape[a]? = some n → n ≠ 1 → ∃ ax,
        (axesFrom (nav.getD []) d.shape 0 0)[longBefore s.arr.shape a]? = some ax ∧ ax.size = n ∧
        (ax.navigate = true ↔ ∃ l, nav = some l ∧ (a : Int) ∈ l)) := by
    intro d hd hv
    obtain ⟨a1, a2, a3⟩ := axes_spec (nav.getD []) s.arr.shape 0 0 hz
    rw [hd]
    refine ⟨by rw [squeeze, hd], fun idx hi => ?_, by rw [a1, squeeze, hd], fun j ax hj => ?_,
      fun a n ha hn => ?_⟩
    · show d.val (unsqueeze d.shape _) = _
      rw [hd, unsqueeze_of hi, hv idx hi]
    · rw [a2 j ax hj, Nat.zero_add]
    · obtain ⟨ax, b1, b2, b3⟩ := a3 a n ha hn
      refine ⟨ax, b1, b2, ?_⟩
      rw [b3, Nat.zero_add, hnav]
  have hw : write s = .ok (npSave s.layout s.arr) := by rw [write, hs]; rfl
  suffices fin : ∃ d : Arr (Option α),
      load (npSave s.layout s.arr) chunks = .ok d ∧
      d.shape = s.arr.shape ∧
      ∀ idx, InBounds s.arr.shape idx → d.val idx = some (s.arr.val idx) by
    obtain ⟨d, hd, h1, h2⟩ := fin
    have hr : read (npSave s.layout s.arr) chunks nav =
        .ok ⟨squeeze d, axesFrom (nav.getD []) d.shape 0 0⟩ := by
      unfold Verif.NumpyFile.read
      rw [hd]
      rfl
    exact ⟨_, _, hw, hr, key d h1 h2⟩
  have hC : ∀ l, l ≠ Layout.fortran →
      npSave l s.arr = ⟨false, s.arr.shape, ravel s.arr.shape s.arr.val⟩ := by
    intro l hl
    cases l <;> first | rfl | exact absurd rfl hl
  have hlen : ¬ (ravel s.arr.shape s.arr.val).length < size s.arr.shape := by
    rw [length_ravel]; omega
  cases hch' : chunks with
  | none =>
    subst hch'
    by_cases hl : s.layout = .fortran
    · have hlen' : ¬ (ravel s.arr.shape.reverse fun idx => s.arr.val idx.reverse).length <
          size s.arr.shape := by rw [length_ravel, size_reverse]; omega
      refine ⟨⟨s.arr.shape, _⟩, (by
        rw [hl, npSave, load]; rw [npLoad, if_neg hlen', if_pos rfl]), rfl, ?_⟩
      intro idx hi
      show (ravel s.arr.shape.reverse fun idx => s.arr.val idx.reverse)[
        flatIndex s.arr.shape.reverse idx.reverse]? = _
      rw [ravel_getElem _ (inBounds_reverse hi), List.reverse_reverse]
    · refine ⟨⟨s.arr.shape, _⟩, (by
        rw [hC _ hl, load]; rw [npLoad, if_neg hlen, if_neg (by simp)]), rfl, ?_⟩
      intro idx hi
      exact ravel_getElem _ hi
  | some ch =>
    subst hch'
    have hl : s.layout ≠ .fortran := by
      rcases hf with h | h
      · cases h
      · exact h
    refine ⟨_, (by
      rw [hC _ hl, load]; rw [lazyLoad, memmap, if_neg hlen]; rfl), rfl, ?_⟩
    intro idx hi
    have := (Verif.Props.Distributed.C06_assembles
      (⟨s.arr.shape, fun idx => (ravel s.arr.shape s.arr.val)[flatIndex s.arr.shape idx]?⟩ :
        Arr (Option α)) ch hch).1 idx (inShape_of hi)
    dsimp only
    rw [this]
    exact ravel_getElem _ hi

/-- A 2 × 1 × 3 array in two chunks, the first axis of which is for navigation. -/
example : let s : Source Nat := ⟨false, .c, ⟨[2, 1, 3], fun i => flatIndex [2, 1, 3] i⟩⟩
    s.dask = false ∧ Covers s.arr.shape (some [[2], [1], [1, 2]]) ∧ s.layout ≠ .fortran ∧
    (∀ n ∈ s.arr.shape, n ≠ 0) ∧
    ∃ f r, write s = .ok f ∧ read f (some [[2], [1], [1, 2]]) (some [0]) = .ok r ∧
      r.data.shape = [2, 3] ∧ r.data.val [1, 2] = some 5 ∧
      r.axes = [⟨2, 0, true⟩, ⟨3, 1, false⟩] :=
  ⟨rfl, rfl, by decide, by decide, _, _, rfl, rfl, by decide, by decide, by decide⟩

/-- Lazy signals cannot be written; files that are too short are rejected either way. -/
theorem C99_rejects {α : Type} :
    (∀ s : Source α, s.dask = true → write s = .error .typeError) ∧
    (∀ (f : File α) chunks nav, f.flat.length < size f.shape →
      read f chunks nav = .error .valueError) := by
  refine ⟨fun s hs => by rw [write, hs]; rfl, fun f chunks nav h => ?_⟩
  unfold Verif.NumpyFile.read
  cases chunks with
  | none => rw [load]; rw [npLoad, if_pos h]; rfl
  | some ch => rw [load]; rw [lazyLoad, memmap, if_pos h]; rfl

/-- The transposed array `[[0, 1, 2], [3, 4, 5]]` is saved in Fortran order. It is loaded as it was
saved, but lazily its elements are mixed up: the value at `[0, 1]` is 3 and not 1. -/
theorem C99_fails_fortran : ∃ f a b,
    write (⟨false, .fortran, ⟨[2, 3], fun i => flatIndex [2, 3] i⟩⟩ : Source Nat) = .ok f ∧
    read f none none = .ok a ∧ read f (some [[2], [3]]) none = .ok b ∧
    a.data.val [0, 1] = some 1 ∧ b.data.val [0, 1] = some 3 :=
  ⟨_, _, _, rfl, rfl, rfl, by decide, by decide⟩

/-- An array of shape (0, 2) keeps both dimensions but gets a single axis. -/
theorem C99_fails_empty : ∃ f r,
    write (⟨false, .c, ⟨[0, 2], fun _ => 0⟩⟩ : Source Nat) = .ok f ∧
    read f none none = .ok r ∧ r.data.shape = [0, 2] ∧ r.axes = [⟨2, 0, false⟩] :=
  ⟨_, _, rfl, rfl, by decide, by decide⟩

/-- `navigation_axes=[-1]` selects nothing, unlike everywhere else in NumPy. -/
theorem C99_fails_negative : ∃ f r,
    write (⟨false, .c, ⟨[2, 3], fun _ => 0⟩⟩ : Source Nat) = .ok f ∧
    read f none (some [-1]) = .ok r ∧ ∀ ax ∈ r.axes, ax.navigate = false :=
  ⟨_, _, rfl, rfl, by decide⟩

end Verif.Props.NumpyFile
