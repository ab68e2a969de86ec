import Verif.Lemmas.EmdNcem
import Verif.Props.JobinYvon
/-! Lemmas for EMD files: axes and data of one dataset. -/
namespace Verif.Lemmas.EmdNcem
open Verif Verif.EmdNcem Verif.Spec.EmdNcem

/-! ### Axes -/

theorem numbers_map (x : Nat → ℚ) (l : List Nat) : numbers (l.map fun i => Val.num (x i)) = l.map x := by
  unfold numbers
  rw [List.filterMap_map]
  induction l with
  | nil => rfl
  | cons a l ih => simpa using ih

theorem diffs_line {env : Env} {x : Nat → ℚ} {s : ℚ} : ∀ {m k : Nat}, (∀ i, i < m → env.sub (x (k + i + 1)) (x (k + i)) = s) →
    diffs env ((List.range' k (m + 1)).map x) = List.replicate m s
  | 0, k, _ => by simp [diffs]
  | m + 1, k, h => by
    have ih := diffs_line (env := env) (x := x) (s := s) (m := m) (k := k + 1) (fun i hi => by
      have := h (i + 1) (by omega)
      rw [show k + 1 + i = k + (i + 1) by omega]
      exact this)
    have h0 := h 0 (by omega)
    rw [List.range'_succ, List.map_cons]
    rw [List.range'_succ, List.map_cons] at ih ⊢
    rw [diffs, ih, List.replicate_succ]
    simp only [Nat.add_zero] at h0
    rw [h0]

theorem parseAxis_ok {env : Env} {d : Dset} {o s : ℚ} (h : Line env d o s) : parseAxis env (some (.dset d)) = .ok (o, some s) := by
  unfold parseAxis
  dsimp only
  rcases h with ⟨hn, m, x, hs, hd, h0, hsub, hm⟩ | ⟨h, rfl, rfl⟩
  · rw [if_pos ⟨by rw [hs]; simp, hn⟩, hs, hd, numbers_map]
    have hdl := diffs_line (env := env) (x := x) (s := s) (m := m + 1) (k := 0) (fun i hi => by
      simpa using hsub i (by omega))
    rw [← List.range_eq_range'] at hdl
    have e : (List.range (m + 1 + 1)).map x = x 0 :: x 1 :: ((List.range' 2 m).map x) := by
      rw [List.range_eq_range', List.range'_succ, List.range'_succ]; rfl
    rw [show m + 2 = m + 1 + 1 from rfl, e]
    rw [e] at hdl
    dsimp only
    rw [hdl, hm, h0]
  · rw [if_neg]
    rintro ⟨h1, h2⟩
    rcases h with h | h
    · rw [h] at h2; simp at h2
    · exact h1 h

theorem attrName_ok {a : Attrs} {t : Option Text} (h : HasText a "name".toList t) : attrName a = .ok t := by
  unfold attrName
  rcases h with ⟨h, rfl⟩ | ⟨u, rfl, h | h⟩ <;> rw [h] <;> rfl

theorem attrUnits_ok {env : Env} {a : Attrs} {u x : Option Text} (h : HasText a "units".toList u)
    (hx : u = none ∧ x = none ∨ ∃ t w, u = some t ∧ x = some w ∧ UnitText env t w) : attrUnits env a = .ok x := by
  unfold attrUnits
  rcases hx with ⟨rfl, rfl⟩ | ⟨t, w, rfl, rfl, hu⟩
  · rcases h with ⟨h, _⟩ | ⟨u, hu, _⟩
    · rw [h]
    · cases hu
  · rcases h with ⟨_, h⟩ | ⟨u, h, hs | hs⟩
    · cases h
    · cases h
      rw [hs]
      show Except.ok (some (parseUnits env t)) = _
      rw [parseUnits_ok hu]
    · cases h
      rw [hs]
      show Except.ok (some (parseUnits env t)) = _
      rw [parseUnits_ok hu]

theorem dimAxis_ok {env : Env} {f : File} {g n : Text} {shape : List Nat} {i k : Nat} {x : Dim} (hg : Path g)
    (h : HoldsDim env f (inside g (dim k)) x) : dimAxis env f g n shape i k =
      .ok ⟨i, x.name, x.units, shape.getD i 0, x.offset, some x.scale, navigates f n (dim k)⟩ := by
  obtain ⟨d, hd, hl, hn, u, hu, hx⟩ := h
  unfold dimAxis
  simp only [dimName_eq]
  rw [get_inside hg (part_dim k), hd]
  simp only [parseAxis_ok hl, bind, Except.bind]
  rw [show attrsOf (.dset d) = d.attrs from rfl, attrName_ok hn, attrUnits_ok hu hx]

theorem dim0_iff {f : File} {g : Text} (hg : Path g) : dim0 f g = true ↔ FromZero f g := by
  unfold dim0 FromZero
  rw [show "dim0".toList = dim 0 from by decide, get_inside hg (part_dim 0), ne_eq]
  cases getKw (inside g (dim 0)) f.entries <;> simp

theorem transposed_iff {f : File} {r : Rec} (hg : Path r.group) : transposed f r.group r.name = true ↔ Reversed f r := by
  unfold transposed Reversed
  rw [Bool.and_eq_true, Bool.not_eq_true', ← Bool.not_eq_true, dim0_iff hg]
  generalize "datacube".toList = t
  rw [decide_eq_true_iff]

theorem hasKey_iff {f : File} {k : Text} : hasKey f k = true ↔ getKw k f.entries ≠ none := by
  unfold hasKey
  generalize f.entries = l
  induction l with
  | nil => simp [getKw]
  | cons e l ih =>
    rw [List.any_cons, Bool.or_eq_true, ih, getKw]
    by_cases h : e.1 = k
    · simp [h]
    · simp [h]

theorem prismatic_iff {f : File} : prismatic f = true ↔ Prismatic f := hasKey_iff

theorem indices_get {zero rev : Bool} {n i : Nat} (hi : i < n) : (indices false zero rev n)[i]? =
    some (i, (if rev then n - 1 - i else i) + (if zero then 0 else 1)) := by
  unfold indices
  simp only [Bool.false_eq_true, if_false]
  rw [List.getElem?_zip_eq_some]
  constructor
  · simp [hi]
  · cases rev <;> cases zero
    · simp [hi]
    · simp [hi]
    · simp only [if_true, Bool.false_eq_true, if_false]
      rw [List.getElem?_reverse (by simpa using hi), List.length_map, List.length_range, List.getElem?_map,
        List.getElem?_range (by omega)]
      rfl
    · simp only [if_true]
      rw [List.getElem?_reverse (by simpa using hi), List.length_range, List.getElem?_range (by omega)]
      rfl

theorem indices_len {zero rev : Bool} {n : Nat} : (indices false zero rev n).length = n := by
  unfold indices
  cases rev <;> cases zero <;> simp

theorem indices_stack {zero rev : Bool} {n i : Nat} (hi : i < n) : (indices true zero rev (n + 1))[i]? =
    some (i + 1, (if rev then n - 1 - i else i) + 1) := by
  unfold indices
  simp only [if_true, Nat.add_sub_cancel]
  rw [List.getElem?_zip_eq_some]
  constructor
  · rw [List.getElem?_range' hi]; simp; omega
  · cases rev
    · simp only [Bool.false_eq_true, if_false]
      rw [List.getElem?_range' hi]; simp; omega
    · simp only [if_true]
      rw [List.getElem?_reverse (by simpa using hi), List.length_range', List.getElem?_range' (by omega)]
      simp
      omega

theorem indices_stack_len {zero rev : Bool} {n : Nat} : (indices true zero rev (n + 1)).length = n := by
  unfold indices
  cases rev <;> simp

theorem dim_eq_iff {k j : Nat} : dim k = dim j ↔ k = j := ⟨dim_inj, fun h => h ▸ rfl⟩

theorem navigates_iff {f : File} {r : Rec} (j k : Nat) (hk : (FromZero f r.group → k = j) ∧ (¬ FromZero f r.group → k = j + 1)) :
    navigates f r.name (dim k) = false ↔ Detector f r j := by
  unfold navigates Detector
  by_cases hp : Prismatic f
  · rw [if_pos (prismatic_iff.2 hp), show "dim3".toList = dim 3 from by decide, show "dim4".toList = dim 4 from by decide,
      show "dim1".toList = dim 1 from by decide, show "dim2".toList = dim 2 from by decide]
    by_cases hn : r.name = "datacube".toList
    · rw [if_pos hn]
      simp only [ne_eq, dim_eq_iff, hn, not_true, false_and, or_false, true_and, hp, false_or]
      by_cases hz : FromZero f r.group
      · rw [hk.1 hz]; simp [hz]; omega
      · rw [hk.2 hz]; simp [hz]; omega
    · rw [if_neg hn]
      simp only [ne_eq, dim_eq_iff, hn, not_true, false_and, true_and, hp, false_or, not_false_eq_true]
      by_cases hz : FromZero f r.group
      · rw [hk.1 hz]; simp [hz]; omega
      · rw [hk.2 hz]; simp [hz]; omega
  · have : prismatic f = false := by rw [Bool.eq_false_iff]; exact fun e => hp (prismatic_iff.1 e)
    simp [this, hp]

/-! ### Data -/

/-- The array as it is, or with its axes reversed. -/
def orient (rev : Bool) (a : Arr) : Arr := if rev then transpose a else a

theorem inBounds_reverse {s i : List Nat} (h : InBounds s i) : InBounds s.reverse i.reverse := List.rel_reverse h

theorem at_ravel {shape idx : List Nat} {val : List Nat → Val} (h : InBounds shape idx) :
    Arr.at ⟨shape, ravel shape val⟩ idx = val idx := by
  unfold Arr.at
  rw [List.getD_eq_getElem?_getD]
  show ((ravel shape val)[flatIndex shape idx]?).getD _ = _
  rw [ravel_getElem val h]
  rfl

theorem size_append : ∀ a b : List Nat, size (a ++ b) = size a * size b
  | [], b => by simp [size]
  | n :: a, b => by rw [List.cons_append, size, size_append a b, size, Nat.mul_assoc]

theorem size_reverse : ∀ s : List Nat, size s.reverse = size s
  | [] => rfl
  | n :: s => by rw [List.reverse_cons, size_append, size_reverse s, size, size, size, Nat.mul_one, Nat.mul_comm]

theorem orient_data {rev : Bool} {shape : List Nat} {val : List Nat → Val} :
    (orient rev ⟨shape, ravel shape val⟩).shape = (if rev then shape.reverse else shape) ∧
    (orient rev ⟨shape, ravel shape val⟩).data.length = size shape ∧
    ∀ idx, InBounds shape idx → (orient rev ⟨shape, ravel shape val⟩).data[flatIndex (if rev then shape.reverse else shape)
      (if rev then idx.reverse else idx)]? = some (val idx) := by
  cases rev
  · refine ⟨rfl, length_ravel _ _, fun idx h => ?_⟩
    exact ravel_getElem val h
  · refine ⟨rfl, ?_, fun idx h => ?_⟩
    · show (ravel _ _).length = _
      rw [length_ravel, size_reverse]
    · show (ravel shape.reverse _)[flatIndex shape.reverse idx.reverse]? = _
      rw [ravel_getElem _ (inBounds_reverse h), List.reverse_reverse, at_ravel h]

end Verif.Lemmas.EmdNcem
