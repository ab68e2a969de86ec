import Verif.Lemmas.Tofwerk
/-! C58, C59: reconstruction of peak data from events (Tofwerk). -/
namespace Verif.Props.Tofwerk
open Verif Verif.Tofwerk Verif.Spec.Tofwerk

theorem length_argsort {α : Type} [LE α] {l : List α} {σ : List Nat} (h : IsArgsort l σ) : σ.length = l.length := by
  rw [h.1.length_eq, List.length_range]

theorem lt_argsort {α : Type} [LE α] {l : List α} {σ : List Nat} (h : IsArgsort l σ) : ∀ k ∈ σ, k < l.length := by
  intro k hk
  rw [h.1.mem_iff, List.mem_range] at hk
  exact hk

/-- The sorted limits. -/
theorem limits {table : List Peak} {σ : List Nat} (hσ : IsArgsort (table.map Peak.lo) σ) :
    ∃ low high, takeAll (table.map Peak.lo) σ = .ok low ∧ takeAll (table.map Peak.hi) σ = .ok high ∧
      low.length = table.length ∧ high.length = table.length ∧ low.Pairwise (· ≤ ·) ∧
      ∀ (i k : Nat) (p : Peak), σ[i]? = some k → table[k]? = some p → low[i]? = some p.lo ∧ high[i]? = some p.hi := by
  have hlt : ∀ k ∈ σ, k < table.length := by
    intro k hk
    have := lt_argsort hσ k hk
    rwa [List.length_map] at this
  have hl : σ.length = table.length := by rw [length_argsort hσ, List.length_map]
  have e1 := takeAll_exists (l := table.map Peak.lo) (σ := σ) (by rw [List.length_map]; exact hlt)
  have e2 := takeAll_exists (l := table.map Peak.hi) (σ := σ) (by rw [List.length_map]; exact hlt)
  refine ⟨_, _, e1, e2, by rw [length_of_takeAll e1, hl], by rw [length_of_takeAll e2, hl], ?_, ?_⟩
  · rw [List.pairwise_filterMap]
    refine hσ.2.imp ?_
    intro a b h x hx y hy
    exact h x y hx hy
  · intro i k p hi hk
    rw [map_of_takeAll e1 hi, map_of_takeAll e2 hi, List.getElem?_map, List.getElem?_map, hk]
    exact ⟨rfl, rfl⟩

/-- The result of both implementations, for one row of pixels. -/
theorem compute_counts {β : Type} (numba : Bool) (cast : Rat → β) {σ inv : List Nat} {clock samples norm : Nat}
    {mass : List Rat} {table : List Peak} {low high : List Rat} (row : List (List Nat))
    (hσ : IsArgsort (table.map Peak.lo) σ) (hinv : IsArgsort σ inv) (hclock : clock ≠ 0)
    (hs : samples ≤ mass.length) (hn : table ≠ [] ∨ numba = true)
    (e1 : takeAll (table.map Peak.lo) σ = .ok low) (e2 : takeAll (table.map Peak.hi) σ = .ok high) :
    computeRow numba cast σ inv clock samples norm mass table row =
      .ok (row.map fun es => (counts ⟨clock, samples, mass, low, high⟩ σ es).map fun (c : Nat) => cast ((c : Rat) / norm)) := by
  have hl : σ.length = table.length := by rw [length_argsort hσ, List.length_map]
  have l1 : low.length = table.length := by rw [length_of_takeAll e1, hl]
  have l2 : high.length = table.length := by rw [length_of_takeAll e2, hl]
  have hS : Ok ⟨clock, samples, mass, low, high⟩ := ⟨hs, by dsimp only; rw [l1, l2]⟩
  have hp : σ.Perm (List.range low.length) := by
    have := hσ.1
    rwa [List.length_map, ← l1] at this
  unfold computeRow
  rw [e1, e2]
  dsimp only
  cases numba with
  | true =>
    rw [if_pos rfl, numbaRow_ok hS hclock hp hinv]
    dsimp only
    rw [List.map_map]
    rfl
  | false =>
    rw [if_neg Bool.false_ne_true, numpyRow_ok hS (by
      intro h
      dsimp only at h
      rw [h] at l1
      rcases hn with hn | hn
      · exact hn (List.length_eq_zero_iff.1 l1.symm)
      · cases hn) hp]
    dsimp only
    rw [List.map_map]
    rfl

/-- C59: with and without numba the result is the same. Missing from the full claim: no peaks
(`C59_fails_no_peaks`) and a clock ratio of zero (`C59_fails_clock`). -/
theorem C59_same_partial {β : Type} (cast : Rat → β) {σ inv : List Nat} {clock samples norm : Nat} {mass : List Rat}
    {table : List Peak} (row : List (List Nat)) (hσ : IsArgsort (table.map Peak.lo) σ) (hinv : IsArgsort σ inv)
    (hclock : clock ≠ 0) (hs : samples ≤ mass.length) (hn : table ≠ []) :
    computeRow true cast σ inv clock samples norm mass table row =
      computeRow false cast σ inv clock samples norm mass table row := by
  obtain ⟨low, high, e1, e2, -⟩ := limits hσ
  rw [compute_counts true cast row hσ hinv hclock hs (.inl hn) e1 e2,
    compute_counts false cast row hσ hinv hclock hs (.inl hn) e1 e2]

/-- An event is in the bin of a window if and only if its mass is in the window, for disjoint windows. -/
theorem bin_iff {S : Setup} {table : List Peak} {σ : List Nat} (hd : Disjoint table)
    (hσ : IsArgsort (table.map Peak.lo) σ) (hs : S.samples ≤ S.mass.length) (hlow : S.low.Pairwise (· ≤ ·))
    (l1 : S.low.length = table.length) (l2 : S.high.length = table.length)
    (hget : ∀ (i k : Nat) (p : Peak), σ[i]? = some k → table[k]? = some p →
      S.low[i]? = some p.lo ∧ S.high[i]? = some p.hi)
    {k : Nat} {p : Peak} (hk : table[k]? = some p) (e : Nat) :
    bin S e = some (σ.idxOf k) ↔ inWindow S.clock S.samples S.mass p.lo p.hi e = true := by
  have hl : σ.length = table.length := by rw [length_argsort hσ, List.length_map]
  have hkl : k < table.length := (List.getElem?_eq_some_iff.1 hk).1
  have hmem : k ∈ σ := by rw [hσ.1.mem_iff, List.mem_range, List.length_map]; exact hkl
  have hil : σ.idxOf k < σ.length := List.idxOf_lt_length_of_mem hmem
  have hik : σ[σ.idxOf k]? = some k := by rw [List.getElem?_eq_getElem hil, List.getElem_idxOf]
  obtain ⟨g1, g2⟩ := hget _ _ _ hik hk
  unfold bin inWindow
  by_cases hlt : e / S.clock < S.samples
  · have hml : e / S.clock < S.mass.length := by omega
    rw [if_neg (by omega), List.getElem?_eq_getElem hml]
    dsimp only
    generalize S.mass[e / S.clock] = m
    rw [decide_eq_true hlt, Bool.true_and, Bool.and_eq_true, decide_eq_true_iff, decide_eq_true_iff]
    have hiff := searchRight_iff (m := m) hlow g1
    have hle := searchRight_le S.low m
    constructor
    · intro h
      split at h
      · cases h
      · rename_i b hb
        split at h
        · cases h
        · rename_i hi hhi
          split at h
          · rename_i hmh
            cases h
            rw [g2] at hhi
            cases hhi
            exact ⟨hiff.1 (by omega), hmh⟩
          · cases h
    · rintro ⟨h1, h2⟩
      have hlt1 := hiff.2 h1
      obtain ⟨b, hb⟩ : ∃ b, searchRight S.low m = b + 1 := ⟨searchRight S.low m - 1, by omega⟩
      rw [hb]
      dsimp only
      have hbl : b < S.high.length := by rw [l2, ← l1]; omega
      -- the peak of bin b
      have hbs : b < σ.length := by omega
      have hq : σ[b] < table.length := by
        have := lt_argsort hσ _ (List.getElem_mem hbs)
        rwa [List.length_map] at this
      obtain ⟨q1, q2⟩ := hget b σ[b] table[σ[b]] (List.getElem?_eq_getElem hbs) (List.getElem?_eq_getElem hq)
      have hqlo : table[σ[b]].lo ≤ m := (searchRight_iff (m := m) hlow q1).1 (by omega)
      have hbi : b = σ.idxOf k := by
        by_contra hne
        have hlt2 : σ.idxOf k < b := by omega
        have hlo : p.lo ≤ table[σ[b]].lo := by
          rw [List.pairwise_iff_getElem] at hlow
          have := hlow (σ.idxOf k) b (by omega) (by omega) hlt2
          have a1 := (List.getElem?_eq_some_iff.1 g1).2
          have a2 := (List.getElem?_eq_some_iff.1 q1).2
          rwa [a1, a2] at this
        have hqle := hd.1 _ (List.getElem_mem hq)
        have hkq : k ≠ σ[b] := by
          intro e
          apply hne
          have hnd : σ.Nodup := hσ.1.nodup_iff.2 List.nodup_range
          rw [e, hnd.idxOf_getElem _ hbs]
        have hkp : table[k] = p := (List.getElem?_eq_some_iff.1 hk).2
        have hdis : p.hi < table[σ[b]].lo ∨ table[σ[b]].hi < p.lo := by
          have hpw := List.pairwise_iff_getElem.1 hd.2
          rcases Nat.lt_or_gt_of_ne hkq with h | h
          · have := hpw k σ[b] hkl hq h
            rwa [hkp] at this
          · have := hpw σ[b] k hq hkl h
            rw [hkp] at this
            exact this.symm
        rcases hdis with h | h
        · exact absurd (lt_of_le_of_lt h2 (lt_of_lt_of_le h hqlo)) (lt_irrefl _)
        · exact absurd (lt_of_le_of_lt hqle (lt_of_lt_of_le h hlo)) (lt_irrefl _)
      subst hbi
      rw [g2]
      dsimp only
      rw [if_pos h2]
  · rw [if_pos (by omega)]
    simp [hlt]

/-- C58: the value of a pixel and a peak is the number of events of the pixel whose mass is in the window of the
peak, divided by the number of recordings, for windows that do not overlap. Peaks are in the order of
the table. Missing from the full claim: overlapping windows, `C58_fails_overlap`. -/
theorem C58_counts_partial {β : Type} (numba : Bool) (cast : Rat → β) {σ inv : List Nat} {clock samples norm : Nat}
    {mass : List Rat} {table : List Peak} (row : List (List Nat)) (hd : Disjoint table)
    (hσ : IsArgsort (table.map Peak.lo) σ) (hinv : IsArgsort σ inv) (hclock : clock ≠ 0)
    (hs : samples ≤ mass.length) (hn : table ≠ [] ∨ numba = true) :
    computeRow numba cast σ inv clock samples norm mass table row =
      .ok (row.map fun es => table.map fun p => cast ((count clock samples mass es p : Rat) / norm)) := by
  obtain ⟨low, high, e1, e2, l1, l2, hlow, hget⟩ := limits hσ
  have hl : σ.length = table.length := by rw [length_argsort hσ, List.length_map]
  rw [compute_counts numba cast row hσ hinv hclock hs hn e1 e2]
  congr 1
  refine List.map_congr_left ?_
  intro es _
  refine List.ext_getElem? ?_
  intro k
  unfold counts
  rw [List.map_map, List.getElem?_map, List.getElem?_map, hl]
  by_cases hk : k < table.length
  · rw [List.getElem?_range hk, List.getElem?_eq_getElem hk, Option.map_some, Option.map_some]
    congr 1
    dsimp only [Function.comp_apply]
    have hc : (es.countP fun e => bin ⟨clock, samples, mass, low, high⟩ e = some (σ.idxOf k)) =
        count clock samples mass es table[k] := by
      unfold count
      refine List.countP_congr ?_
      intro e _
      rw [decide_eq_true_iff]
      exact bin_iff (S := ⟨clock, samples, mass, low, high⟩) hd hσ hs hlow l1 l2 hget (List.getElem?_eq_getElem hk) e
    rw [hc]
  · rw [List.getElem?_eq_none (by rw [List.length_range]; omega), List.getElem?_eq_none (by omega)]
    rfl

theorem countP_add_le {f g h : Nat → Bool} (h1 : ∀ e, f e = true → ¬ g e = true) (h2 : ∀ e, f e = true → h e = true)
    (h3 : ∀ e, g e = true → h e = true) : ∀ es : List Nat, es.countP f + es.countP g ≤ es.countP h
  | [] => Nat.le_refl _
  | e :: es => by
    have ih := countP_add_le h1 h2 h3 es
    rw [List.countP_cons, List.countP_cons, List.countP_cons]
    have a1 := h1 e
    have a2 := h2 e
    have a3 := h3 e
    by_cases hf : f e = true
    · rw [if_pos hf, if_neg (a1 hf), if_pos (a2 hf)]
      omega
    · rw [if_neg hf]
      by_cases hg : g e = true
      · rw [if_pos hg, if_pos (a3 hg)]
        omega
      · rw [if_neg hg]
        omega

/-- C58: no event is counted for two peaks, and none is counted twice: the counts of a pixel add up to at most
the number of its events, for all windows. -/
theorem C58_at_most_once {numba : Bool} {σ inv : List Nat} {clock samples : Nat} {mass : List Rat}
    {table : List Peak} {row : List (List Nat)} {out : List (List Rat)} (hσ : IsArgsort (table.map Peak.lo) σ)
    (hinv : IsArgsort σ inv) (hclock : clock ≠ 0) (hs : samples ≤ mass.length) (hn : table ≠ [] ∨ numba = true)
    (h : computeRow numba id σ inv clock samples 1 mass table row = .ok out) (x : Nat) (es : List Nat)
    (cs : List Rat) (hx : row[x]? = some es) (hcs : out[x]? = some cs) : cs.sum ≤ es.length := by
  obtain ⟨low, high, e1, e2, l1, l2, hlow, hget⟩ := limits hσ
  rw [compute_counts numba id row hσ hinv hclock hs hn e1 e2] at h
  cases h
  rw [List.getElem?_map, hx, Option.map_some] at hcs
  cases hcs
  have hnd : σ.Nodup := hσ.1.nodup_iff.2 List.nodup_range
  have hl : σ.length = table.length := by rw [length_argsort hσ, List.length_map]
  unfold counts
  rw [List.map_map]
  have h1 : ∀ l : List Nat, (l.map ((fun c : Nat => id ((c : Rat) / ((1 : Nat) : Rat))) ∘
      fun p => es.countP fun e => bin ⟨clock, samples, mass, low, high⟩ e = some (σ.idxOf p))).sum =
      (((l.map fun p => es.countP fun e => bin ⟨clock, samples, mass, low, high⟩ e = some (σ.idxOf p)).sum : Nat) : Rat) := by
    intro l
    induction l with
    | nil => simp
    | cons p l ih => rw [List.map_cons, List.sum_cons, List.map_cons, List.sum_cons, ih]; simp
  rw [h1]
  have h2 : ∀ (l : List Nat), l.Nodup → (∀ p ∈ l, p ∈ σ) →
      (l.map fun p => es.countP fun e => bin ⟨clock, samples, mass, low, high⟩ e = some (σ.idxOf p)).sum ≤
        es.countP fun e => ∃ p ∈ l, bin ⟨clock, samples, mass, low, high⟩ e = some (σ.idxOf p) := by
    intro l
    induction l with
    | nil => intro _ _; simp
    | cons p l ih =>
      intro hnl hsub
      rw [List.nodup_cons] at hnl
      rw [List.map_cons, List.sum_cons]
      have := ih hnl.2 fun q hq => hsub q (List.mem_cons_of_mem _ hq)
      refine le_trans (Nat.add_le_add_left this _) ?_
      refine countP_add_le ?_ ?_ ?_ es
      · intro e he hb
        rw [decide_eq_true_iff] at he hb
        obtain ⟨q, hq, hb⟩ := hb
        rw [he] at hb
        have hpq : σ.idxOf p = σ.idxOf q := Option.some.inj hb
        have m1 := List.idxOf_lt_length_of_mem (hsub p List.mem_cons_self)
        have m2 := List.idxOf_lt_length_of_mem (hsub q (List.mem_cons_of_mem _ hq))
        have : p = q := by
          have a := List.getElem_idxOf m1
          have b := List.getElem_idxOf m2
          rw [← a, ← b]
          simp only [hpq]
        exact hnl.1 (this ▸ hq)
      · intro e he
        rw [decide_eq_true_iff] at he ⊢
        exact ⟨p, List.mem_cons_self, he⟩
      · intro e he
        rw [decide_eq_true_iff] at he ⊢
        obtain ⟨q, hq, h⟩ := he
        exact ⟨q, List.mem_cons_of_mem _ hq, h⟩
  have h3 := h2 (List.range σ.length) List.nodup_range (by
    intro p hp
    rw [hσ.1.mem_iff, List.length_map, ← hl]
    exact hp)
  exact_mod_cast le_trans h3 List.countP_le_length

def exTable : List Peak := [⟨['b'], 5, 4, 6⟩, ⟨['a'], 1, 0, 2⟩]
def exMass : List Rat := [0, 1, 3, 5, 6, 7]

/-- The hypotheses of the theorems above: peaks in descending order, one event beyond the axis, one between the
windows. -/
example : Disjoint exTable ∧ IsArgsort (exTable.map Peak.lo) [1, 0] ∧ IsArgsort [1, 0] [1, 0] ∧
    computeRow true id [1, 0] [1, 0] 2 6 2 exMass exTable [[2, 6, 7, 4], [], [100, 8, 3]] =
      .ok [[1, 1 / 2], [0, 0], [1 / 2, 1 / 2]] ∧
    computeRow false id [1, 0] [1, 0] 2 6 2 exMass exTable [[2, 6, 7, 4], [], [100, 8, 3]] =
      .ok [[1, 1 / 2], [0, 0], [1 / 2, 1 / 2]] := by
  refine ⟨⟨by decide +kernel, by decide +kernel⟩, ⟨by decide +kernel, ?_⟩, ⟨by decide +kernel, ?_⟩, by decide +kernel,
    by decide +kernel⟩
  · rw [List.pairwise_cons]
    refine ⟨?_, by simp⟩
    intro b hb x y hx hy
    rw [List.mem_singleton] at hb
    subst hb
    cases hx
    cases hy
    decide +kernel
  · rw [List.pairwise_cons]
    refine ⟨?_, by simp⟩
    intro b hb x y hx hy
    rw [List.mem_singleton] at hb
    subst hb
    cases hx
    cases hy
    decide +kernel

/-- C58 fails for overlapping windows: the ion of mass 3 is in both windows and is counted in the second, and
the ion of mass 5 is in the wide window and is not counted at all. -/
theorem C58_fails_overlap :
    computeRow true id [0, 1] [0, 1] 1 6 1 exMass [⟨['a'], 3, 0, 6⟩, ⟨['b'], 3, 3, 4⟩] [[2], [3]] = .ok [[0, 1], [0, 0]] ∧
    count 1 6 exMass [2] ⟨['a'], 3, 0, 6⟩ = 1 ∧ count 1 6 exMass [3] ⟨['a'], 3, 0, 6⟩ = 1 := by
  decide +kernel

/-- C59 fails without peaks. -/
theorem C59_fails_no_peaks :
    computeRow true id [] [] 1 6 1 exMass [] [[2]] = .ok [[]] ∧
    computeRow false id [] [] 1 6 1 exMass [] [[2]] = .error .indexError := by
  decide +kernel

/-- C59 fails if the clock ratio is zero (it is rounded from the ratio of two periods). -/
theorem C59_fails_clock :
    computeRow true id [1, 0] [1, 0] 0 6 1 exMass exTable [[2, 3]] = .error .zeroDivision ∧
    computeRow false id [1, 0] [1, 0] 0 6 1 exMass exTable [[2, 3]] = .ok [[0, 2]] := by
  decide +kernel

end Verif.Props.Tofwerk
