import Mathlib.Data.List.Forall2
import Mathlib.Tactic.Ring
/-!
Multi-dimensional arrays in C order: the position of an index in the flat data, and the flat list of
the values (`ndarray.ravel()`, `tofile`, `reshape`).
-/
namespace Verif

/-- The index lies in the shape. -/
def InBounds (shape idx : List Nat) : Prop := List.Forall₂ (fun n i => i < n) shape idx

/-- Number of elements. -/
def size : List Nat → Nat
  | [] => 1
  | n :: ns => n * size ns

/-- Position of an index in C order. -/
def flatIndex : List Nat → List Nat → Nat
  | n :: ns, i :: is => i * size ns + flatIndex ns is
  | _, _ => 0

/-- All values in C order. -/
def ravel {α : Type} : List Nat → (List Nat → α) → List α
  | [], val => [val []]
  | n :: ns, val => (List.range n).flatMap fun i => ravel ns fun is => val (i :: is)

theorem length_ravel {α : Type} : ∀ (shape : List Nat) (val : List Nat → α),
    (ravel shape val).length = size shape
  | [], _ => rfl
  | n :: ns, val => by
    unfold ravel size
    rw [List.length_flatMap]
    have : ∀ l : List Nat, (l.map fun i => (ravel ns fun is => val (i :: is)).length).sum =
        l.length * size ns := by
      intro l
      induction l with
      | nil => simp
      | cons a l ih => simp [ih, length_ravel ns, Nat.add_mul, Nat.add_comm]
    rw [this]
    simp

theorem flatIndex_lt : ∀ {shape idx : List Nat}, InBounds shape idx →
    flatIndex shape idx < size shape
  | _, _, .nil => by simp [flatIndex, size]
  | n :: ns, i :: is, .cons h t => by
    have := flatIndex_lt t
    rw [flatIndex, size]
    calc i * size ns + flatIndex ns is < i * size ns + size ns := by omega
      _ = (i + 1) * size ns := by ring
      _ ≤ n * size ns := Nat.mul_le_mul_right _ h

theorem flatMap_range_getElem {α : Type} (m : Nat) (f : Nat → List α)
    (hf : ∀ i, (f i).length = m) : ∀ (n i j : Nat), i < n → j < m →
    ((List.range n).flatMap f)[i * m + j]? = (f i)[j]? := by
  intro n
  induction n with
  | zero => intro i j hi; omega
  | succ n ih =>
    intro i j hi hj
    have hlen : ((List.range n).flatMap f).length = n * m := by
      rw [List.length_flatMap]
      have : ∀ l : List Nat, (l.map fun i => (f i).length).sum = l.length * m := by
        intro l
        induction l with
        | nil => simp
        | cons a l ih => simp [hf, Nat.add_mul, Nat.add_comm]
      rw [this]; simp
    rw [List.range_succ, List.flatMap_append]
    by_cases h : i < n
    · have : i * m + j < n * m := by
        calc i * m + j < i * m + m := by omega
          _ = (i + 1) * m := by ring
          _ ≤ n * m := Nat.mul_le_mul_right _ h
      rw [List.getElem?_append_left (by omega), ih i j h hj]
    · have hin : i = n := by omega
      subst hin
      rw [List.getElem?_append_right (by omega), hlen]
      simp

/-- The value at an index is found at its flat position. -/
theorem ravel_getElem {α : Type} : ∀ {shape idx : List Nat} (val : List Nat → α),
    InBounds shape idx → (ravel shape val)[flatIndex shape idx]? = some (val idx)
  | _, _, val, .nil => rfl
  | n :: ns, i :: is, val, .cons h t => by
    unfold ravel flatIndex
    rw [flatMap_range_getElem (size ns) _ (fun i => length_ravel ns _) n i _ h (flatIndex_lt t)]
    exact ravel_getElem (fun is => val (i :: is)) t

/-- `ravel` only looks at indices inside the shape. -/
theorem ravel_congr {α : Type} : ∀ {shape : List Nat} {f g : List Nat → α},
    (∀ idx, InBounds shape idx → f idx = g idx) → ravel shape f = ravel shape g
  | [], f, g, h => by simp [ravel, h [] .nil]
  | n :: ns, f, g, h => by
    unfold ravel
    apply List.flatMap_congr
    intro i hi
    apply ravel_congr
    intro is his
    exact h _ (.cons (by simpa using hi) his)

/-- Different indices have different positions. -/
theorem flatIndex_inj : ∀ {shape i j : List Nat}, InBounds shape i → InBounds shape j →
    flatIndex shape i = flatIndex shape j → i = j
  | _, _, _, .nil, .nil, _ => rfl
  | n :: ns, a :: i, b :: j, .cons ha hi, .cons hb hj, h => by
    unfold flatIndex at h
    have h1 := flatIndex_lt hi
    have h2 := flatIndex_lt hj
    have hpos : 0 < size ns := by omega
    have hab : a = b := by
      have e1 : (a * size ns + flatIndex ns i) / size ns = a := by
        rw [Nat.add_comm, Nat.add_mul_div_right _ _ hpos, Nat.div_eq_of_lt h1, Nat.zero_add]
      have e2 : (b * size ns + flatIndex ns j) / size ns = b := by
        rw [Nat.add_comm, Nat.add_mul_div_right _ _ hpos, Nat.div_eq_of_lt h2, Nat.zero_add]
      rw [← e1, ← e2, h]
    subst hab
    rw [flatIndex_inj hi hj (by omega)]

/-- Dropping the axes of length one. -/
def squeezeIdx : List Nat → List Nat → List Nat
  | n :: ns, i :: is => if n = 1 then squeezeIdx ns is else i :: squeezeIdx ns is
  | _, _ => []

theorem size_squeeze : ∀ shape : List Nat, size (shape.filter (· ≠ 1)) = size shape
  | [] => rfl
  | n :: ns => by
    by_cases h : n = 1
    · rw [List.filter_cons, if_neg (by simpa using h), size, size_squeeze ns, h, Nat.one_mul]
    · rw [List.filter_cons, if_pos (by simpa using h), size, size_squeeze ns, size]

theorem flatIndex_squeeze : ∀ {shape idx : List Nat}, InBounds shape idx →
    flatIndex (shape.filter (· ≠ 1)) (squeezeIdx shape idx) = flatIndex shape idx
  | _, _, .nil => rfl
  | n :: ns, i :: is, .cons h t => by
    by_cases h1 : n = 1
    · have : i = 0 := by omega
      rw [List.filter_cons, if_neg (by simpa using h1), squeezeIdx, if_pos h1, flatIndex,
        flatIndex_squeeze t, this, Nat.zero_mul, Nat.zero_add]
    · rw [List.filter_cons, if_pos (by simpa using h1), squeezeIdx, if_neg h1, flatIndex, flatIndex,
        size_squeeze, flatIndex_squeeze t]

end Verif
