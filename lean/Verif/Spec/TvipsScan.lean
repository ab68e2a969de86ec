/-! Specification of C95: frames and positions of a scan. -/
namespace Verif.Spec.TvipsScan

/-- Rotator indices never decrease. -/
def Sorted (r : List Nat) : Prop := ∀ i j, i ≤ j → j < r.length → r.getD i 0 ≤ r.getD j 0

/-- The frame for the position `p` (from 1): among the frames `first` to `last` with the largest index `v` up to `p`, the one as far from the first as `p` is from `v`, or the last one. -/
def Placed (r : List Nat) (p f : Nat) : Prop := ∃ v first last, first ≤ last ∧ last < r.length ∧ (∀ j, j < r.length → (r.getD j 0 = v ↔ first ≤ j ∧ j ≤ last)) ∧ v ≤ p ∧
  (∀ j, j < r.length → r.getD j 0 ≤ p → r.getD j 0 ≤ v) ∧ f = min (first + (p - v)) last

end Verif.Spec.TvipsScan
