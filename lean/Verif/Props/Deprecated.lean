import Verif.Model.Deprecated
/-! Property C51: deprecated keyword arguments. -/
namespace Verif.Props.Deprecated
open Verif Verif.Deprecated

variable {α : Type}

theorem getKw_filter (k n : String) : ∀ kw : Kwargs α,
    getKw k (kw.filter fun q => q.1 ≠ n) = if k = n then none else getKw k kw
  | [] => by simp [getKw]
  | (k', v) :: rest => by
    rw [List.filter_cons]
    by_cases h : k' = n
    · simp only [h, ne_eq, not_true_eq_false, decide_false, Bool.false_eq_true, if_false]
      rw [getKw_filter k n rest]
      by_cases hk : k = n
      · simp [hk]
      · simp [hk, getKw, Ne.symm hk]
    · simp only [ne_eq, h, not_false_eq_true, decide_true, if_true, getKw]
      rw [getKw_filter k n rest]
      by_cases hk : k = n
      · subst hk; simp [h]
      · by_cases hk' : k' = k
        · simp [hk', hk]
        · simp [hk', hk]

theorem getKw_setKw (k a : String) (v : α) : ∀ kw : Kwargs α,
    getKw k (setKw a v kw) = if k = a then some v else getKw k kw
  | [] => by
    by_cases h : k = a
    · simp [setKw, getKw, h]
    · simp [setKw, getKw, h, Ne.symm h]
  | (k', v') :: rest => by
    unfold setKw
    by_cases h : k' = a
    · subst h
      by_cases hk : k = k'
      · simp [getKw, hk]
      · simp [getKw, hk, Ne.symm hk]
    · simp only [h, if_false, getKw]
      rw [getKw_setKw k a v rest]
      by_cases hk : k' = k
      · subst hk; simp [h]
      · simp [hk]

/-- C51 (partial). A call without the deprecated keyword is passed on unchanged. A keyword
without replacement is dropped once it has been removed (and passed on as long as its removal is
only announced), and all other arguments are unchanged. A keyword with a replacement whose
removal is announced passes its value to the replacement. Missing: a keyword with a replacement
and no announced removal version (`C51_fails_replacement_without_removal`). -/
theorem C51_deprecated_partial (s : Setting) (kw : Kwargs α) :
    (getKw s.name kw = none → wrapped s kw = .ok kw) ∧
    (∀ v, getKw s.name kw = some v → s.alternative = none →
      ∃ kw', wrapped s kw = .ok kw' ∧
        (∀ k, k ≠ s.name → getKw k kw' = getKw k kw) ∧
        getKw s.name kw' = if s.removal.isSome then some v else none) ∧
    (∀ v a, getKw s.name kw = some v → s.alternative = some a → s.removal ≠ none → a ≠ s.name →
      ∃ kw', wrapped s kw = .ok kw' ∧ getKw a kw' = some v ∧ getKw s.name kw' = none ∧
        ∀ k, k ≠ s.name → k ≠ a → getKw k kw' = getKw k kw) := by
  obtain ⟨name, removal, alternative⟩ := s
  refine ⟨fun h => by simp only at h; simp [wrapped, h], ?_, ?_⟩
  · intro v hv halt
    simp only at hv halt
    subst halt
    cases removal with
    | none =>
      refine ⟨kw.filter fun q => q.1 ≠ name, by simp [wrapped, hv, pop], fun k hk => ?_, ?_⟩
      · simp only at hk; rw [getKw_filter, if_neg hk]
      · simp only; rw [getKw_filter]; simp
    | some r => exact ⟨kw, by simp [wrapped, hv], fun _ _ => rfl, by simp [hv]⟩
  · intro v a hv halt hrem hne
    simp only at hv halt hrem hne
    subst halt
    cases removal with
    | none => exact absurd rfl hrem
    | some r =>
      refine ⟨setKw a v (kw.filter fun q => q.1 ≠ name), by simp [wrapped, hv, pop], ?_, ?_, ?_⟩
      · rw [getKw_setKw, if_pos rfl]
      · simp only; rw [getKw_setKw, if_neg (Ne.symm hne), getKw_filter, if_pos rfl]
      · intro k h1 h2
        simp only at h1
        rw [getKw_setKw, if_neg h2, getKw_filter, if_neg h1]

/-- C51 is false for a keyword with a replacement and no announced removal version: every call
that uses it raises `KeyError` instead of using the replacement. -/
theorem C51_fails_replacement_without_removal (s : Setting) (a : String) (kw : Kwargs α) (v : α)
    (hv : getKw s.name kw = some v) (hrem : s.removal = none) (halt : s.alternative = some a) :
    wrapped s kw = .error .keyError := by
  have h := getKw_filter s.name s.name kw
  rw [if_pos rfl] at h
  unfold wrapped
  simp only [hv, hrem, halt, pop, h]

/-- In particular the deprecated spelling `endianess` never works. -/
theorem C51_endianess_always_fails (kw : Kwargs α) (v : α) (h : getKw "endianess" kw = some v) :
    wrapped endianessSetting kw = .error .keyError :=
  C51_fails_replacement_without_removal endianessSetting "endianness" kw v h rfl rfl

example : wrapped distributedSetting [("lazy", 1), ("distributed", 2), ("chunks", 3)] =
    .ok [("lazy", 1), ("chunks", 3)] ∧
    wrapped ⟨"old", some "1.0", some "new"⟩ [("old", 5), ("x", 6)] = .ok [("x", 6), ("new", 5)] ∧
    getKw "endianess" [("endianess", ">")] = some ">" := by
  refine ⟨rfl, rfl, rfl⟩

end Verif.Props.Deprecated
