import Verif.Model.Tofwerk
import Verif.Spec.Tofwerk
/-! C61-C63: the sum spectrum, depth ranges and available signals (Tofwerk). -/
namespace Verif.Props.TofwerkSum
open Verif Verif.Tofwerk Verif.Spec.Tofwerk

/-! ### C61 -/

theorem skipLoop_spec : ∀ (l : List Rat) (i : Nat), ∃ k, skipLoop i l = i + k ∧ (l ≠ [] → k < l.length) ∧
    (l = [] → k = 0) ∧
    (∀ (j : Nat) (a b : Rat), j < k → l[j]? = some a → l[j + 1]? = some b → b ≤ a) ∧
    (∀ a b, l[k]? = some a → l[k + 1]? = some b → a < b)
  | [], i => ⟨0, rfl, by simp, by simp, by simp, by simp⟩
  | [a], i => ⟨0, rfl, by simp, by simp, by simp, by simp⟩
  | a :: b :: l, i => by
    rw [skipLoop]
    by_cases h : a ≥ b
    · rw [if_pos h]
      obtain ⟨k, h1, h2, h3, h4, h5⟩ := skipLoop_spec (b :: l) (i + 1)
      refine ⟨k + 1, by rw [h1]; omega, ?_, by simp, ?_, ?_⟩
      · intro _
        have := h2 (by simp)
        simp only [List.length_cons] at this ⊢
        omega
      · intro j x y hj hx hy
        cases j with
        | zero =>
          rw [List.getElem?_cons_zero] at hx
          rw [List.getElem?_cons_succ, List.getElem?_cons_zero] at hy
          cases hx
          cases hy
          exact h
        | succ j =>
          rw [List.getElem?_cons_succ] at hx hy
          exact h4 j x y (by omega) hx hy
      · intro x y hx hy
        rw [List.getElem?_cons_succ] at hx hy
        exact h5 x y hx hy
    · rw [if_neg h]
      refine ⟨0, rfl, by simp, by simp, by simp, ?_⟩
      intro x y hx hy
      rw [List.getElem?_cons_zero] at hx
      rw [List.getElem?_cons_succ, List.getElem?_cons_zero] at hy
      cases hx
      cases hy
      exact not_le.1 h

theorem firstNonneg_spec (mass : List Rat) : (mass ≠ [] → firstNonneg mass < mass.length) ∧
    (mass = [] → firstNonneg mass = 0) ∧
    (∀ (j : Nat) (a : Rat), j < firstNonneg mass → mass[j]? = some a → a < 0) := by
  unfold firstNonneg
  dsimp only
  split
  · rename_i h
    refine ⟨fun _ => h, ?_, ?_⟩
    · rintro rfl
      rfl
    · intro j a hj ha
      obtain ⟨hl, rfl⟩ := List.getElem?_eq_some_iff.1 ha
      have := List.not_of_lt_findIdx hj
      rw [decide_eq_false_iff_not] at this
      exact not_le.1 this
  · refine ⟨fun h => List.length_pos_iff.2 h, fun _ => rfl, ?_⟩
    intro j a hj
    omega

/-- C61: axis and data lose the same number of samples at the beginning, at least one sample is left, and each
sample that is dropped is negative like all samples before it, or not followed by a larger one. -/
theorem C61_aligned {β : Type} (mass : List Rat) (data : List β) :
    ∃ k, sumSpectrum mass data = (mass.drop k, data.drop k) ∧ (mass ≠ [] → k < mass.length) ∧
      ∀ i, i < k → (∀ (j : Nat) (a : Rat), j ≤ i → mass[j]? = some a → a < 0) ∨
        ∀ a b, mass[i]? = some a → mass[i + 1]? = some b → b ≤ a := by
  obtain ⟨f1, f2, f3⟩ := firstNonneg_spec mass
  obtain ⟨k, h1, h2, h3, h4, h5⟩ := skipLoop_spec (mass.drop (firstNonneg mass)) (firstNonneg mass)
  refine ⟨firstValid mass, rfl, ?_, ?_⟩
  · intro hm
    have := f1 hm
    unfold firstValid
    rw [h1]
    have := h2 (by
      intro he
      have := congrArg List.length he
      rw [List.length_drop, List.length_nil] at this
      omega)
    rw [List.length_drop] at this
    omega
  · intro i hi
    by_cases hlt : i < firstNonneg mass
    · left
      intro j a hj ha
      exact f3 j a (by omega) ha
    · right
      intro a b ha hb
      unfold firstValid at hi
      rw [h1] at hi
      refine h4 (i - firstNonneg mass) a b (by omega) ?_ ?_
      · rw [List.getElem?_drop, ← ha]; congr 1; omega
      · rw [List.getElem?_drop, ← hb]; congr 1; omega

theorem pairwise_of_adjacent : ∀ {l : List Rat},
    (∀ (i : Nat) (a b : Rat), l[i]? = some a → l[i + 1]? = some b → a < b) → l.Pairwise (· < ·)
  | [], _ => List.Pairwise.nil
  | [a], _ => List.pairwise_singleton _ _
  | a :: b :: l, h => by
    have ih := pairwise_of_adjacent (l := b :: l) fun i x y hx hy => h (i + 1) x y (by simpa using hx) (by simpa using hy)
    have hab := h 0 a b rfl rfl
    rw [List.pairwise_cons]
    refine ⟨?_, ih⟩
    intro c hc
    rw [List.mem_cons] at hc
    rcases hc with rfl | hc
    · exact hab
    · rw [List.pairwise_cons] at ih
      exact lt_trans hab (ih.1 c hc)

/-- C61: the axis is strictly increasing if the masses first do not increase and then increase (which the
calibration gives). Missing from the full claim: all mass axes, see `C61_fails_bump`. -/
theorem C61_increasing_partial {β : Type} {mass : List Rat} (data : List β) (v : Nat)
    (hdown : ∀ (i : Nat) (a b : Rat), i < v → mass[i]? = some a → mass[i + 1]? = some b → b ≤ a)
    (hup : ∀ (i : Nat) (a b : Rat), v ≤ i → mass[i]? = some a → mass[i + 1]? = some b → a < b) :
    (sumSpectrum mass data).1.Pairwise (· < ·) := by
  obtain ⟨k, h1, h2, h3, h4, h5⟩ := skipLoop_spec (mass.drop (firstNonneg mass)) (firstNonneg mass)
  unfold sumSpectrum firstValid
  dsimp only
  rw [h1]
  refine pairwise_of_adjacent ?_
  intro i a b ha hb
  rw [List.getElem?_drop] at ha hb
  by_cases hv : v ≤ firstNonneg mass + k + i
  · exact hup _ a b hv ha (by rw [← hb]; congr 1; )
  · -- then the first kept pair is in the falling part
    exfalso
    have hlen : firstNonneg mass + k + (i + 1) < mass.length := (List.getElem?_eq_some_iff.1 hb).1
    have g1 : mass[firstNonneg mass + k]? = some mass[firstNonneg mass + k] := List.getElem?_eq_getElem (by omega)
    have g2 : mass[firstNonneg mass + k + 1]? = some mass[firstNonneg mass + k + 1] := List.getElem?_eq_getElem (by omega)
    have a1 := hdown (firstNonneg mass + k) _ _ (by omega) g1 g2
    have a2 := h5 mass[firstNonneg mass + k] mass[firstNonneg mass + k + 1]
      (by rw [List.getElem?_drop]; exact g1) (by rw [List.getElem?_drop]; exact g2)
    exact absurd a1 (not_le.2 a2)

/-- C61: no mass of the axis is negative if no mass after the first that is not negative is. -/
theorem C61_nonneg_partial {β : Type} {mass : List Rat} (data : List β) (n : Nat) (hn : n < mass.length)
    (hneg : ∀ (i : Nat) (a : Rat), i < n → mass[i]? = some a → a < 0)
    (hpos : ∀ (i : Nat) (a : Rat), n ≤ i → mass[i]? = some a → 0 ≤ a) : ∀ a ∈ (sumSpectrum mass data).1, 0 ≤ a := by
  have hge : n ≤ firstNonneg mass := by
    unfold firstNonneg
    have hex : mass.findIdx (fun x => decide (0 ≤ x)) < mass.length := by
      rw [List.findIdx_lt_length]
      exact ⟨mass[n], List.getElem_mem hn, by
        rw [decide_eq_true_iff]
        exact hpos n _ (Nat.le_refl _) (List.getElem?_eq_getElem hn)⟩
    dsimp only
    rw [if_pos hex]
    by_contra hc
    have hp := List.findIdx_getElem (w := hex)
    rw [decide_eq_true_iff] at hp
    exact absurd hp (not_le.2 (hneg _ _ (by omega) (List.getElem?_eq_getElem hex)))
  obtain ⟨k, h1, -⟩ := skipLoop_spec (mass.drop (firstNonneg mass)) (firstNonneg mass)
  intro a ha
  unfold sumSpectrum firstValid at ha
  dsimp only at ha
  rw [h1] at ha
  obtain ⟨i, hi⟩ := List.getElem?_of_mem ha
  rw [List.getElem?_drop] at hi
  exact hpos _ a (by omega) hi

/-- A parabola, as the calibration gives, and one that begins below zero. -/
example : sumSpectrum [4, 1, 0, 0, 1, 4, 9] [10, 11, 12, 13, 14, 15, 16] = ([0, 1, 4, 9], [13, 14, 15, 16]) ∧
    sumSpectrum [-3, -1, 1, 4] ['a', 'b', 'c', 'd'] = ([1, 4], ['c', 'd']) := by
  decide +kernel

/-- C61 fails if the masses fall after they rose. -/
theorem C61_fails_bump : (sumSpectrum [0, 2, 1, 3] [0, 0, 0, 0]).1 = [0, 2, 1, 3] := by
  decide +kernel

/-- C61 fails if the masses fall below zero: the axis begins with a negative mass. -/
theorem C61_fails_negative : (sumSpectrum [1, -1, 2] [0, 0, 0]).1 = [-1, 2] := by
  decide +kernel

/-! ### C62 -/

/-- C62: a depth range is accepted if and only if it is not empty and within the file. -/
theorem C62_range (n : Nat) (a b : Int) :
    (∀ r, depthRange n (some (a, b)) = .ok r ↔ 0 ≤ a ∧ a < b ∧ b ≤ n ∧ (r.1 : Int) = a ∧ (r.2 : Int) = b) ∧
    depthRange n none = .ok (0, n) := by
  refine ⟨?_, rfl⟩
  rintro ⟨x, y⟩
  unfold depthRange
  dsimp only
  split
  · constructor
    · intro h
      cases h
    · rintro ⟨h1, h2, h3, -⟩
      omega
  · rename_i h
    constructor
    · intro e
      cases e
      omega
    · rintro ⟨h1, h2, h3, h4, h5⟩
      have : a.toNat = x := by omega
      have : b.toNat = y := by omega
      simp_all

theorem better_le {all : List (Nat × Nat)} {s t : Nat × Nat} :
    (better all t s = true → all.count s ≤ all.count t) ∧ (better all t s = false → all.count t ≤ all.count s) := by
  unfold better
  constructor
  · intro h
    rw [Bool.or_eq_true, Bool.and_eq_true, decide_eq_true_iff, decide_eq_true_iff] at h
    omega
  · intro h
    rw [Bool.or_eq_false_iff, decide_eq_false_iff_not] at h
    omega

theorem dominant_spec (all : List (Nat × Nat)) : ∀ l, (l = [] ↔ dominant all l = none) ∧
    ∀ s, dominant all l = some s → s ∈ l ∧ ∀ t ∈ l, all.count t ≤ all.count s
  | [] => ⟨by simp [dominant], by intro s h; cases h⟩
  | s :: l => by
    obtain ⟨ih1, ih2⟩ := dominant_spec all l
    cases hd : dominant all l with
    | none =>
      have hl := ih1.2 hd
      subst hl
      refine ⟨by simp [dominant], ?_⟩
      intro s' h
      rw [dominant, hd] at h
      cases h
      exact ⟨List.mem_cons_self, by simp⟩
    | some t =>
      obtain ⟨m1, m2⟩ := ih2 t hd
      refine ⟨by simp [dominant, hd], ?_⟩
      intro s' h
      rw [dominant, hd] at h
      dsimp only at h
      cases h
      obtain ⟨b1, b2⟩ := better_le (all := all) (s := s) (t := t)
      cases hb : better all t s with
      | true =>
        rw [if_pos rfl]
        refine ⟨List.mem_cons_of_mem _ m1, ?_⟩
        intro u hu
        rw [List.mem_cons] at hu
        rcases hu with rfl | hu
        · exact b1 hb
        · exact m2 u hu
      | false =>
        rw [if_neg Bool.false_ne_true]
        refine ⟨List.mem_cons_self, ?_⟩
        intro u hu
        rw [List.mem_cons] at hu
        rcases hu with rfl | hu
        · exact Nat.le_refl _
        · exact Nat.le_trans (m2 u hu) (b2 hb)

/-- C62: the images that are returned have one shape, the most frequent one of the file, and are in the order of
the file. -/
theorem C62_shape {β : Type} {images : List ((Nat × Nat) × β)} (hn : images ≠ []) (a b : Nat) :
    ∃ s, s ∈ images.map Prod.fst ∧ (∀ t, (images.map Prod.fst).count t ≤ (images.map Prod.fst).count s) ∧
      ∃ r, fibImages images a b = .ok r ∧ r.Sublist ((images.filter fun i => i.1 = s).map Prod.snd) := by
  obtain ⟨h1, h2⟩ := dominant_spec (images.map Prod.fst) (images.map Prod.fst)
  cases hd : dominant (images.map Prod.fst) (images.map Prod.fst) with
  | none =>
    have := h1.2 hd
    rw [List.map_eq_nil_iff] at this
    exact absurd this hn
  | some s =>
    obtain ⟨m1, m2⟩ := h2 s hd
    refine ⟨s, m1, ?_, _, by unfold fibImages; rw [hd], ?_⟩
    · intro t
      by_cases ht : t ∈ images.map Prod.fst
      · exact m2 t ht
      · rw [List.count_eq_zero_of_not_mem ht]
        exact Nat.zero_le _
    · unfold slice
      exact ((List.take_sublist _ _).trans (List.drop_sublist _ _)).map _

/-- C62: with images of one shape, image `i` of the result is image `a + i` of the file, as for the other signals.
Missing from the full claim: images of several shapes, `C62_fails_shapes`. -/
theorem C62_slices_partial {β : Type} {images : List ((Nat × Nat) × β)} (hn : images ≠ []) {s : Nat × Nat}
    (hs : ∀ i ∈ images, i.1 = s) (a b : Nat) :
    ∃ r, fibImages images a b = .ok r ∧
      ∀ i : Nat, r[i]? = if a + i < b then images[a + i]?.map Prod.snd else none := by
  obtain ⟨t, ht, -, -⟩ := C62_shape hn a b
  obtain ⟨h1, h2⟩ := dominant_spec (images.map Prod.fst) (images.map Prod.fst)
  cases hd : dominant (images.map Prod.fst) (images.map Prod.fst) with
  | none =>
    have := h1.2 hd
    rw [List.map_eq_nil_iff] at this
    exact absurd this hn
  | some t =>
    obtain ⟨m1, -⟩ := h2 t hd
    rw [List.mem_map] at m1
    obtain ⟨x, hx, rfl⟩ := m1
    refine ⟨_, by unfold fibImages; rw [hd], ?_⟩
    intro i
    have hf : images.filter (fun i => decide (i.1 = x.1)) = images := by
      rw [List.filter_eq_self]
      intro y hy
      rw [decide_eq_true_iff, hs y hy, hs x hx]
    rw [hf]
    unfold slice
    rw [List.getElem?_map, List.getElem?_take]
    by_cases hi : a + i < b
    · rw [if_pos (by omega), if_pos hi, List.getElem?_drop]
    · rw [if_neg (by omega), if_neg hi]
      rfl

example : fibImages [((2, 2), 'a'), ((2, 2), 'b'), ((2, 2), 'c')] 1 3 = .ok ['b', 'c'] ∧
    depthRange 3 (some (1, 3)) = .ok (1, 3) ∧ depthRange 3 (some (-1, 3)) = .error .valueError := by
  decide +kernel

/-- C62 fails for images of several shapes: the image of another shape is removed before the range is applied, so the
images are not those of the depth slices 1 and 2. -/
theorem C62_fails_shapes :
    fibImages [((2, 2), 'a'), ((1, 1), 'b'), ((2, 2), 'c'), ((2, 2), 'd')] 1 3 = .ok ['c', 'd'] := by
  decide +kernel

/-! ### C63 -/

/-- C63: `signal="all"` returns what `available_signals` lists. Missing from the full claim: lazy reading
(`C63_fails_lazy`) and a mass range (`C63_fails_range`). -/
theorem C63_all_partial (c : Content) : produced c false none none = .ok (available c) := by
  obtain ⟨pd, ev, table, n⟩ := c
  unfold produced available
  simp only [Option.isSome_none, Bool.false_eq_true, false_and, if_false, Option.isNone_none, Bool.true_or,
    Bool.and_true, Bool.true_and, if_true]
  cases table with
  | none =>
    cases pd <;> cases ev <;> simp
  | some t =>
    simp only [Option.getD_some, Option.isSome_some, Bool.and_true]
    cases pd <;> cases ev <;>
      cases (t.filter isNominal).isEmpty <;> cases (t.filter fun p => !isNominal p).isEmpty <;> simp

theorem five (y0 y1 y2 y3 y4 x1 x2 x3 x4 : Bool)
    (h : ¬ (y1 = true ∧ (!x1) = true ∨ y2 = true ∧ (!x2) = true ∨ y3 = true ∧ (!x3) = true ∨
      y4 = true ∧ (!x4) = true)) (s : Sig) :
    s ∈ ((if y0 = true then [Sig.sum] else []) ++ (if (y1 && x1) = true then [Sig.nominal] else []) ++
      (if (y2 && x2) = true then [Sig.additional] else []) ++ (if (y3 && x3) = true then [Sig.events] else []) ++
      (if (y4 && x4) = true then [Sig.images] else [])) ↔
    (match s with
      | .sum => y0
      | .nominal => y1
      | .additional => y2
      | .events => y3
      | .images => y4) = true := by
  revert h
  cases s <;> revert y0 y1 y2 y3 y4 x1 x2 x3 x4 <;> decide +kernel

/-- C63: each requested signal is returned, and no other, lazy or not, if the request succeeds without a mass
range. -/
theorem C63_requested {c : Content} {lazy : Bool} {want r : List Sig}
    (h : produced c lazy none (some want) = .ok r) (s : Sig) : s ∈ r ↔ s ∈ want := by
  unfold produced at h
  simp only [Option.isSome_some, true_and, Option.isNone_none, Bool.true_or, Bool.and_true] at h
  split at h
  · cases h
  · rename_i hn
    split at h
    · cases h
    · cases h
      rw [five _ _ _ _ _ _ _ _ _ hn s, ← List.contains_iff_mem]
      cases s <;> rfl

theorem mem_available {c : Content} : 
    (Sig.nominal ∈ available c → ((c.peakData || (c.eventList && c.table.isSome)) &&
      !((c.table.getD []).filter isNominal).isEmpty) = true) ∧
    (Sig.additional ∈ available c → ((c.peakData || (c.eventList && c.table.isSome)) &&
      !((c.table.getD []).filter fun p => !isNominal p).isEmpty) = true) ∧
    (Sig.events ∈ available c → c.eventList = true) ∧ (Sig.images ∈ available c → decide (0 < c.images) = true) := by
  obtain ⟨pd, ev, table, n⟩ := c
  unfold available
  cases table with
  | none => cases pd <;> cases ev <;> simp <;> split <;> simp_all
  | some t =>
    simp only [Option.getD_some, Option.isSome_some, Bool.and_true]
    by_cases hi : 0 < n <;>
    cases pd <;> cases ev <;>
      cases (t.filter isNominal).isEmpty <;> cases (t.filter fun p => !isNominal p).isEmpty <;> simp [hi]

/-- C63: a request of listed signals succeeds. -/
theorem C63_accepted {c : Content} {want : List Sig} (h : ∀ s ∈ want, s ∈ available c) :
    ∃ r, produced c false none (some want) = .ok r := by
  obtain ⟨m1, m2, m3, m4⟩ := mem_available (c := c)
  unfold produced
  simp only [Option.isSome_some, true_and, Option.isNone_none, Bool.true_or, Bool.and_true, Bool.false_eq_true,
    false_and, if_false]
  rw [if_neg]
  · exact ⟨_, rfl⟩
  · intro hc
    have hw : ∀ s, want.contains s = true → s ∈ available c := fun s hs => h s (List.contains_iff_mem.1 hs)
    rcases hc with ⟨a, b⟩ | ⟨a, b⟩ | ⟨a, b⟩ | ⟨a, b⟩
    · rw [m1 (hw _ a)] at b; cases b
    · rw [m2 (hw _ a)] at b; cases b
    · rw [m3 (hw _ a)] at b; cases b
    · rw [m4 (hw _ a)] at b; cases b

def exFile : Content := ⟨false, true, some [⟨['a'], 5, 4, 6⟩, ⟨['n', 'o', 'm', 'i', 'n', 'a', 'l'], 1, 0, 2⟩], 2⟩

example : available exFile = [.sum, .nominal, .additional, .events, .images] ∧
    produced exFile false none (some [.images, .nominal]) = .ok [.nominal, .images] ∧
    produced ⟨false, true, none, 2⟩ false none (some [.nominal]) = .error .valueError := by
  decide +kernel

/-- C63 fails for lazy reading of a file without peak data: "all" is refused because of a signal that was not asked
for by name. -/
theorem C63_fails_lazy : produced exFile true none none = .error .notImplemented := by
  decide +kernel

/-- C63 fails for a mass range without peaks: the requested signal is missing from the result. -/
theorem C63_fails_range : produced exFile false (some (10, 20)) (some [.nominal, .sum]) = .ok [.sum] := by
  decide +kernel

end Verif.Props.TofwerkSum
