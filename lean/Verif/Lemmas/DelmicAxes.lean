import Verif.Lemmas.Delmic
import Mathlib.Algebra.Order.Ring.Abs
import Mathlib.Tactic.LinearCombination
/-! The axes and the metadata of one acquisition, for `Model/Delmic`. -/
namespace Verif.Delmic
open Verif Verif.Delmic.Spec

theorem abs_scale (q F : ℚ) (h : 0 ≤ F) : |q * F| = |q| * F := by rw [abs_mul, abs_of_nonneg h]

theorem factor_f : factorOf ['f'] = 1000000000000000 := by decide
theorem factor_p : factorOf ['p'] = 1000000000000 := by decide
theorem factor_n : factorOf ['n'] = 1000000000 := by decide
theorem factor_u : factorOf ['µ'] = 1000000 := by decide
theorem factor_m : factorOf ['m'] = 1000 := by decide
theorem factor_0 : factorOf [] = 1 := by decide

theorem unit_ok (q : ℚ) (base : Char) : ∃ u, InUnit base (prefixOf q ++ [base]) u ∧ factorOf (prefixOf q) * u = 1 ∧
    Handy q (q * factorOf (prefixOf q)) := by
  unfold prefixOf Handy
  split_ifs with h1 h2 h3 h4 h5
  · refine ⟨1 / 10 ^ 15, by simp [InUnit], by rw [factor_f]; norm_num, fun _ _ => ?_⟩
    rw [factor_f, abs_scale _ _ (by norm_num)]
    constructor <;> linarith [h1.1, h1.2]
  · refine ⟨1 / 10 ^ 12, by simp [InUnit], by rw [factor_p]; norm_num, fun _ _ => ?_⟩
    rw [factor_p, abs_scale _ _ (by norm_num)]
    constructor <;> linarith [h2.1, h2.2]
  · refine ⟨1 / 10 ^ 9, by simp [InUnit], by rw [factor_n]; norm_num, fun _ _ => ?_⟩
    rw [factor_n, abs_scale _ _ (by norm_num)]
    constructor <;> linarith [h3.1, h3.2]
  · refine ⟨1 / 10 ^ 6, by simp [InUnit], by rw [factor_u]; norm_num, fun _ _ => ?_⟩
    rw [factor_u, abs_scale _ _ (by norm_num)]
    constructor <;> linarith [h4.1, h4.2]
  · refine ⟨1 / 10 ^ 3, by simp [InUnit], by rw [factor_m]; norm_num, fun _ _ => ?_⟩
    rw [factor_m, abs_scale _ _ (by norm_num)]
    constructor <;> linarith [h5.1, h5.2]
  · refine ⟨1, by simp [InUnit], by rw [factor_0]; norm_num, fun ha hb => ?_⟩
    exfalso
    norm_num at *
    have h2' := h2 (h1 ha)
    have h3' := h3 h2'
    have h4' := h4 h3'
    have h5' := h5 h4'
    linarith

theorem kw_none {α : Type} {k : Text} {d : List (Text × α)} (h : ∀ l, (k, l) ∉ d) : getKw k d = none := by
  apply getKw_none
  intro hm
  obtain ⟨⟨k', l⟩, h1, rfl⟩ := List.mem_map.1 hm
  exact h l h1

theorem mem_of_getKw {α : Type} {k : Text} {v : α} : ∀ {d : List (Text × α)}, getKw k d = some v → (k, v) ∈ d
  | [], h => by simp [getKw] at h
  | (k', v') :: d, h => by
    unfold getKw at h
    split at h
    · rename_i hk
      cases h; subst hk; simp
    · exact List.mem_cons_of_mem _ (mem_of_getKw h)

theorem values_shows {a : Acq} (hn : (a.image.map Prod.fst).Nodup) (key : Text) (base : Char) (c : Cal)
    (h : ∀ l, getKw key a.image = some l → c = valuesCal l base) (h' : getKw key a.image = none → c = .none) : ShowsList a key base c := by
  constructor
  · intro l hl
    obtain ⟨u, hu, hf, hh⟩ := unit_ok (mean l) base
    refine ⟨_, _, u, h l (getKw_mem hn hl), hu, ?_, ?_⟩
    · rw [List.map_map]
      conv_rhs => rw [← List.map_id l]
      apply List.map_congr_left
      intro x _
      simp only [Function.comp, id]
      rw [mul_assoc, hf, mul_one]
    · have : mean l / u = mean l * factorOf (prefixOf (mean l)) := by
        have hu0 : u ≠ 0 := by rintro rfl; simp at hf
        field_simp
        rw [mul_assoc, mul_comm u, hf, mul_one]
      rw [← this] at hh
      exact hh
  · intro hl
    exact h' (kw_none hl)

theorem line_shows {a : Acq} (hn : (a.image.map Prod.fst).Nodup) (key center : Text) (up : Bool) (n : Nat) (c : Cal)
    (h : ∀ l, getKw key a.image = some l → c = lineCal up n l (getKw center a.image)) (h' : getKw key a.image = none → c = .none) :
    ShowsLine a key center up n c := by
  constructor
  · intro px m h1 h2
    obtain ⟨u, hu, hf, hh⟩ := unit_ok px 'm'
    have e := h _ (getKw_mem hn h1)
    rw [getKw_mem hn h2] at e
    refine ⟨_, _, _, u, e, hu, ?_, ?_⟩
    · intro i
      cases up
      · simp only [Bool.false_eq_true, if_false]
        linear_combination (m - ((n : ℚ) - 1) / 2 * px + i * px) * hf
      · simp only [if_true]
        linear_combination (m + ((n : ℚ) - 1) / 2 * px - i * px) * hf
    · cases up
      · exact hh
      · intro h3 h4
        have := hh h3 h4
        simpa [abs_mul] using this
  · intro hl
    exact h' (kw_none hl)

theorem makeAxis_shows {a : Acq} (hn : (a.image.map Prod.fst).Nodup) (label : Text) (n : Nat) :
    ShowsAxis a label n (makeAxis a.image label n) := by
  have hname : ∀ l, (makeAxis a.image l n).name = nameOf l := by
    intro l
    unfold makeAxis axisInfo nameOf
    by_cases h1 : l = ['C']
    · subst h1; rw [if_pos rfl]; dsimp only; split <;> rfl
    rw [if_neg h1]
    by_cases h2 : l = ['T']
    · subst h2; rw [if_pos rfl]; dsimp only; split <;> rfl
    rw [if_neg h2]
    by_cases h3 : l = ['A']
    · subst h3; rw [if_pos rfl]; dsimp only; split <;> rfl
    rw [if_neg h3]
    have hz : (List.lookup l [(['C'], "Wavelength".toList), (['T'], "Time".toList), (['A'], "Angle".toList)]).getD l = l := by
      simp [List.lookup, beq_false_of_ne h1, beq_false_of_ne h2, beq_false_of_ne h3]
    rw [hz]
    by_cases h4 : l = ['Z']
    · subst h4; rw [if_pos rfl]; dsimp only; split <;> rfl
    rw [if_neg h4]
    by_cases h5 : l = ['Y']
    · subst h5; rw [if_pos rfl]; dsimp only; split <;> rfl
    rw [if_neg h5]
    by_cases h6 : l = ['X']
    · subst h6; rw [if_pos rfl]; dsimp only; split <;> rfl
    rw [if_neg h6]
  refine ⟨hname label, ?_, ?_, ?_, ?_, ?_, ?_, ?_⟩
  · rintro rfl
    apply values_shows hn
    · intro l h
      have : axisInfo ['C'] = some ("Wavelength".toList, "DimensionScaleC".toList, []) := rfl
      unfold makeAxis; rw [this]; dsimp only; rw [h]; rfl
    · intro h
      have : axisInfo ['C'] = some ("Wavelength".toList, "DimensionScaleC".toList, []) := rfl
      unfold makeAxis; rw [this]; dsimp only; rw [h]
  · rintro rfl
    have : axisInfo ['T'] = some ("Time".toList, "DimensionScaleT".toList, []) := rfl
    apply values_shows hn
    · intro l h
      unfold makeAxis; rw [this]; dsimp only; rw [h]; rfl
    · intro h
      unfold makeAxis; rw [this]; dsimp only; rw [h]
  · rintro rfl
    have : axisInfo ['A'] = some ("Angle".toList, "DimensionScaleA".toList, []) := rfl
    constructor
    · rintro ⟨l, h⟩
      unfold makeAxis; rw [this]; dsimp only; rw [getKw_mem hn h]; rfl
    · intro h
      unfold makeAxis; rw [this]; dsimp only; rw [kw_none h]
  · rintro rfl
    have : axisInfo ['Z'] = some ("Z".toList, "DimensionScaleZ".toList, "ZOffset".toList) := rfl
    apply line_shows hn
    · intro l h
      unfold makeAxis; rw [this]; dsimp only; rw [h]; rfl
    · intro h
      unfold makeAxis; rw [this]; dsimp only; rw [h]
  · rintro rfl
    have : axisInfo ['Y'] = some ("Y".toList, "DimensionScaleY".toList, "YOffset".toList) := rfl
    apply line_shows hn
    · intro l h
      unfold makeAxis; rw [this]; dsimp only; rw [h]; rfl
    · intro h
      unfold makeAxis; rw [this]; dsimp only; rw [h]
  · rintro rfl
    have : axisInfo ['X'] = some ("X".toList, "DimensionScaleX".toList, "XOffset".toList) := rfl
    apply line_shows hn
    · intro l h
      unfold makeAxis; rw [this]; dsimp only; rw [h]; rfl
    · intro h
      unfold makeAxis; rw [this]; dsimp only; rw [h]
  · intro h
    simp only [List.mem_cons, List.not_mem_nil, or_false, not_or] at h
    unfold makeAxis axisInfo
    rw [if_neg h.1, if_neg h.2.1, if_neg h.2.2.1, if_neg h.2.2.2.1, if_neg h.2.2.2.2.1, if_neg h.2.2.2.2.2]

theorem makeAxes_names (a : Acq) (hl : a.labels.length = a.shape.length) (hn : (a.image.map Prod.fst).Nodup) :
    (makeAxes a).map Axis.name = a.labels.map nameOf := by
  unfold makeAxes
  rw [List.map_map]
  have : ∀ (ls : List Text) (sh : List Nat), ls.length = sh.length →
      (ls.zip sh).map (Axis.name ∘ fun d => makeAxis a.image d.1 d.2) = ls.map nameOf := by
    intro ls
    induction ls with
    | nil => intro _ _; rfl
    | cons l ls ih =>
      intro sh h
      cases sh with
      | nil => simp at h
      | cons n sh =>
        rw [List.zip_cons_cons, List.map_cons, List.map_cons, ih sh (by simpa using h)]
        rw [Function.comp, (makeAxis_shows hn l n).1]
  exact this _ _ hl

theorem nameOf_inj {l l' : Text} (h : ∀ t ∈ ["Wavelength".toList, "Time".toList, "Angle".toList], t ≠ l ∧ t ≠ l') (e : nameOf l = nameOf l') : l = l' := by
  have hl : ∀ t, t = ['C'] ∨ t = ['T'] ∨ t = ['A'] ∨ nameOf t = t := by
    intro t
    by_cases h1 : t = ['C']
    · exact .inl h1
    by_cases h2 : t = ['T']
    · exact .inr (.inl h2)
    by_cases h3 : t = ['A']
    · exact .inr (.inr (.inl h3))
    · refine .inr (.inr (.inr ?_))
      simp [nameOf, List.lookup, beq_false_of_ne h1, beq_false_of_ne h2, beq_false_of_ne h3]
  have hC : nameOf ['C'] = "Wavelength".toList := rfl
  have hT : nameOf ['T'] = "Time".toList := rfl
  have hA : nameOf ['A'] = "Angle".toList := rfl
  have w := h "Wavelength".toList (List.mem_cons_self ..)
  have t := h "Time".toList (List.mem_cons_of_mem _ (List.mem_cons_self ..))
  have a := h "Angle".toList (List.mem_cons_of_mem _ (List.mem_cons_of_mem _ (List.mem_cons_self ..)))
  have d1 : "Wavelength".toList ≠ "Time".toList := by decide
  have d2 : "Wavelength".toList ≠ "Angle".toList := by decide
  have d3 : "Time".toList ≠ "Angle".toList := by decide
  rcases hl l with rfl | rfl | rfl | e1 <;> rcases hl l' with rfl | rfl | rfl | e2 <;>
    simp only [hC, hT, hA, *] at * <;> first | exact e | (exfalso; tauto) | skip

end Verif.Delmic
