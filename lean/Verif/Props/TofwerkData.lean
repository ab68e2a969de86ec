import Verif.Lemmas.TofwerkData
import Verif.Props.Tofwerk
/-! C60: the columns of peak data and the masses of the axis (Tofwerk). -/
namespace Verif.Props.TofwerkData
open Verif Verif.Tofwerk Verif.Spec.Tofwerk

theorem filter_true {α : Type} {l : List α} {f : α → Bool} (h : ∀ a, f a = true) : l.filter f = l :=
  List.filter_eq_self.2 fun a _ => h a

/-- Masked lists are the columns of the specification. -/
theorem masked_sel {table : List Peak} (sel : List Nat) (mz : Option (Rat × Rat)) :
    (if mz.isSome then masked (sel.map (massOf table)) ((sel.map (massOf table)).map (inRange mz))
      else sel.map (massOf table)) = (sel.filter fun c => inRange mz (massOf table c)).map (massOf table) ∧
    (if mz.isSome then masked sel ((sel.map (massOf table)).map (inRange mz)) else sel) =
      sel.filter fun c => inRange mz (massOf table c) := by
  cases mz with
  | none =>
    rw [if_neg (show ¬ (none : Option (Rat × Rat)).isSome = true from Bool.false_ne_true), if_neg (show ¬ (none : Option (Rat × Rat)).isSome = true from Bool.false_ne_true), filter_true (f := fun c => inRange none (massOf table c)) (fun _ => rfl)]
    exact ⟨rfl, rfl⟩
  | some r =>
    rw [if_pos (show (some r : Option (Rat × Rat)).isSome = true from rfl), if_pos (show (some r : Option (Rat × Rat)).isSome = true from rfl), List.map_map]
    refine ⟨masked_map _ _ () sel, ?_⟩
    have := masked_map id (inRange (some r) ∘ massOf table) () sel
    rw [List.map_id, List.map_id] at this
    exact this

theorem any_false {table : List Peak} {sel : List Nat} {mz : Option (Rat × Rat)}
    (h : ((sel.map (massOf table)).map (inRange mz)).any id = false) :
    sel.filter (fun c => inRange mz (massOf table c)) = [] := by
  rw [List.filter_eq_nil_iff]
  intro c hc hr
  rw [List.any_eq_false] at h
  exact h _ (List.mem_map_of_mem (List.mem_map_of_mem hc)) hr

theorem any_true {table : List Peak} {sel : List Nat} {mz : Option (Rat × Rat)}
    (h : ¬ ((sel.map (massOf table)).map (inRange mz)).any id = false) :
    sel.filter (fun c => inRange mz (massOf table c)) ≠ [] := by
  intro he
  apply h
  rw [List.any_eq_false]
  intro b hb
  rw [List.mem_map] at hb
  obtain ⟨m, hm, rfl⟩ := hb
  rw [List.mem_map] at hm
  obtain ⟨c, hc, rfl⟩ := hm
  rw [List.filter_eq_nil_iff] at he
  exact he c hc

/-- C60, nominal peaks, lazy or not: the columns are those of the nominal peaks with a mass in the range, in the
order of the file, the axis has their masses and the data their values; there is no signal if and only if a range
is given and no nominal peak is in it. -/
theorem C60_nominal {β : Type} (lazy : Bool) {table : List Peak} (mz : Option (Rat × Rat)) {slices : List (Slice β)}
    (hw : HasColumns table.length slices) :
    ∃ cols, Columns Nominal mz table cols ∧ cols.Pairwise (· < ·) ∧ ∃ masses, MassesOf table cols masses ∧
      nominalData lazy table mz slices =
        .ok (if mz.isSome ∧ cols = [] then none else some (masses, slices.map (pickAll cols))) := by
  have hm := origIdx_mass isNominal table []
  rw [List.length_nil, List.nil_append] at hm
  refine ⟨_, columns_spec (fun p => isNominal_iff) (List.Perm.refl _), (origIdx_sorted _ _ _).filter _, _,
    masses_spec (f := isNominal) (fun c hc => (List.mem_filter.1 hc).1), ?_⟩
  unfold nominalData
  dsimp only
  rw [hm, (masked_sel _ mz).1, (masked_sel _ mz).2]
  by_cases hs : mz.isSome ∧ (((origIdx isNominal 0 table).map (massOf table)).map (inRange mz)).any id = false
  · rw [if_pos hs, if_pos ⟨hs.1, any_false hs.2⟩]
  · rw [if_neg hs, if_neg (fun h => hs ⟨h.1, by
      by_contra hc
      exact any_true hc h.2⟩)]
    have hlt : ∀ s ∈ slices, ∀ row ∈ s, ∀ px ∈ row,
        ∀ c ∈ (origIdx isNominal 0 table).filter (fun c => inRange mz (massOf table c)), c < List.length px := by
      intro s hs row hr px hp c hc
      rw [hw s hs row hr px hp]
      exact lt_of_mem_origIdx (List.mem_filter.1 hc).1
    rw [mapPy_ok (g := pickAll ((origIdx isNominal 0 table).filter fun c => inRange mz (massOf table c)))]
    intro s hs
    cases lazy with
    | true =>
      rw [if_pos rfl]
      exact columns_ok (hlt s hs)
    | false =>
      rw [if_neg Bool.false_ne_true]
      exact h5Columns_ok ((origIdx_sorted _ _ _).filter _) (hlt s hs)

def isAdditional (p : Peak) : Bool := !isNominal p

theorem isAdditional_iff {p : Peak} : isAdditional p = true ↔ ¬ Nominal p := by
  unfold isAdditional
  rw [← isNominal_iff, Bool.not_eq_true', Bool.not_eq_true]

theorem perm_pick {σ idx : List Nat} (h : σ.Perm (List.range idx.length)) : (pick σ idx).Perm idx := by
  have h1 : (pick σ idx).Perm (pick (List.range idx.length) idx) := h.filterMap _
  rwa [show pick (List.range idx.length) idx = idx from filterMap_range idx] at h1

/-- The sorted order of the additional peaks. -/
theorem additionalOrder_ok {σ : List Nat} {table : List Peak} (mz : Option (Rat × Rat))
    (hσ : IsArgsort ((table.filter isAdditional).map Peak.mass) σ) :
    let idx := origIdx isAdditional 0 table
    let cols := (pick σ idx).filter fun c => inRange mz (massOf table c)
    σ.Perm (List.range idx.length) ∧ (cols.map (massOf table)).Pairwise (· ≤ ·) ∧
    additionalOrder σ table mz =
      .ok (if mz.isSome ∧ cols = [] then none else some (cols.map (massOf table), cols)) := by
  intro idx cols
  have hm := origIdx_mass isAdditional table []
  rw [List.length_nil, List.nil_append] at hm
  rw [hm] at hσ
  have hp : σ.Perm (List.range idx.length) := by
    have := hσ.1
    rwa [List.length_map] at this
  have hlt : ∀ k ∈ σ, k < idx.length := by
    intro k hk
    rw [hp.mem_iff, List.mem_range] at hk
    exact hk
  have e1 : takeAll (idx.map (massOf table)) σ = .ok ((pick σ idx).map (massOf table)) := by
    rw [takeAll_pick (by rw [List.length_map]; exact hlt), pick_map]
  have e2 : takeAll idx σ = .ok (pick σ idx) := takeAll_pick hlt
  have hsorted : ((pick σ idx).map (massOf table)).Pairwise (· ≤ ·) := by
    rw [← pick_map]
    unfold pick
    rw [List.pairwise_filterMap]
    refine hσ.2.imp ?_
    intro a b h x hx y hy
    exact h x y hx hy
  refine ⟨hp, ?_, ?_⟩
  · rw [List.pairwise_map] at hsorted ⊢
    exact hsorted.filter _
  · have hm2 : (table.filter fun p => !isNominal p).map Peak.mass = idx.map (massOf table) := hm
    have hi2 : origIdx (fun p => !isNominal p) 0 table = idx := rfl
    unfold additionalOrder
    dsimp only
    rw [hm2, hi2, e1, e2]
    dsimp only
    rw [(masked_sel _ mz).1, (masked_sel _ mz).2]
    by_cases hs : mz.isSome ∧ (((pick σ idx).map (massOf table)).map (inRange mz)).any id = false
    · rw [if_pos hs, if_pos ⟨hs.1, any_false hs.2⟩]
    · rw [if_neg hs, if_neg (fun h => hs ⟨h.1, by
        by_contra hc
        exact any_true hc h.2⟩)]

theorem pick_range {β : Type} (l : List β) : pick (List.range l.length) l = l := filterMap_range l

/-- Sorting the columns and undoing it. -/
theorem sort_undo {argsort : List Nat → List Nat} (ha : ∀ l, IsArgsort l (argsort l)) {cols : List Nat}
    (hn : cols.Nodup) :
    (pick (argsort cols) cols).Pairwise (· < ·) ∧ (∀ k ∈ argsort cols, k < cols.length) ∧
    (∀ k ∈ argsort (argsort cols), k < (pick (argsort cols) cols).length) ∧
    pick (argsort (argsort cols)) (pick (argsort cols) cols) = cols := by
  have h1 := ha cols
  have hlt : ∀ k ∈ argsort cols, k < cols.length := by
    intro k hk
    rw [h1.1.mem_iff, List.mem_range] at hk
    exact hk
  have hl1 : (argsort cols).length = cols.length := by rw [h1.1.length_eq, List.length_range]
  have h2 := ha (argsort cols)
  have hpp : (pick (argsort cols) cols).Perm cols := perm_pick h1.1
  refine ⟨?_, hlt, ?_, ?_⟩
  · have hle : (pick (argsort cols) cols).Pairwise (· ≤ ·) := by
      unfold pick
      rw [List.pairwise_filterMap]
      refine h1.2.imp ?_
      intro a b h x hx y hy
      exact h x y hx hy
    have hne : (pick (argsort cols) cols).Nodup := hpp.nodup_iff.2 hn
    exact (hle.and hne).imp fun h => Nat.lt_of_le_of_ne h.1 h.2
  · intro k hk
    rw [h2.1.mem_iff, List.mem_range] at hk
    rw [pick_length hlt]
    exact hk
  · rw [pick_pick hlt]
    have hr : pick (argsort (argsort cols)) (argsort cols) = List.range cols.length := by
      refine pairwise_le_perm_eq ((perm_pick h2.1).trans h1.1) ?_ (List.pairwise_lt_range.imp Nat.le_of_lt)
      unfold pick
      rw [List.pairwise_filterMap]
      refine h2.2.imp ?_
      intro a b h x hx y hy
      exact h x y hx hy
    rw [hr]
    exact pick_range cols

/-- C60, additional peaks: lazy or not, with and without a range, for each batch size, whichever order `argsort` gives
to equal masses: the masses of the axis are ascending, the columns are those of the additional peaks
with a mass in the range, each depth slice is filled, and the values of each pixel are those of the columns. -/
theorem C60_additional {β : Type} {argsort : List Nat → List Nat} (ha : ∀ l, IsArgsort l (argsort l)) (lazy : Bool)
    {step : Nat} (hstep : 0 < step) {σ : List Nat} {table : List Peak} (mz : Option (Rat × Rat))
    {slices : List (Slice β)}
    (hσ : IsArgsort ((table.filter fun p => !isNominal p).map Peak.mass) σ) (hw : HasColumns table.length slices) :
    ∃ cols, Columns (fun p => ¬ Nominal p) mz table cols ∧ ∃ masses, MassesOf table cols masses ∧
      masses.Pairwise (· ≤ ·) ∧ additionalData argsort lazy step σ table mz slices =
        .ok (if mz.isSome ∧ cols = [] then none
          else some (masses, slices.map fun s => some (pickAll cols s))) := by
  obtain ⟨hp, hsort, hord⟩ := additionalOrder_ok (σ := σ) (table := table) mz hσ
  have hpp := perm_pick hp
  have hnd0 : (origIdx isAdditional 0 table).Nodup := (origIdx_sorted isAdditional table 0).imp Nat.ne_of_lt
  refine ⟨_, columns_spec (fun p => isAdditional_iff) hpp, _,
    masses_spec (f := isAdditional) (fun c hc => hpp.mem_iff.1 (List.mem_filter.1 hc).1), hsort, ?_⟩
  have hi2 : origIdx (fun p => !isNominal p) 0 table = origIdx isAdditional 0 table := rfl
  unfold additionalData
  rw [hord]
  clear hord
  have hlt0 : ∀ k ∈ σ, k < (origIdx isAdditional 0 table).length := by
    intro k hk
    rw [hp.mem_iff, List.mem_range] at hk
    exact hk
  have hin : ∀ c ∈ (pick σ (origIdx isAdditional 0 table)).filter (fun c => inRange mz (massOf table c)),
      c < table.length := by
    intro c hc
    exact lt_of_mem_origIdx (hpp.mem_iff.1 (List.mem_filter.1 hc).1)
  have hin0 : ∀ c ∈ origIdx isAdditional 0 table, c < table.length := fun c hc => lt_of_mem_origIdx hc
  have hndc : ((pick σ (origIdx isAdditional 0 table)).filter fun c => inRange mz (massOf table c)).Nodup :=
    (hpp.nodup_iff.2 hnd0).filter _
  have hcols : mz = none → (pick σ (origIdx isAdditional 0 table)).filter (fun c => inRange mz (massOf table c)) =
      pick σ (origIdx isAdditional 0 table) := by
    rintro rfl
    exact filter_true fun _ => rfl
  generalize (pick σ (origIdx isAdditional 0 table)).filter (fun c => inRange mz (massOf table c)) = cols at *
  by_cases hs : mz.isSome ∧ cols = []
  · rw [if_pos hs, if_pos hs]
  · rw [if_neg hs, if_neg hs]
    dsimp only
    rw [hi2]
    have hr : ∀ (l : List Nat), (∀ c ∈ l, c < table.length) → ∀ s ∈ slices, ∀ row ∈ s, ∀ px ∈ row, ∀ c ∈ l,
        c < List.length px := by
      intro l hl s hs row hr px hp c hc
      rw [hw s hs row hr px hp]
      exact hl c hc
    cases lazy with
    | true =>
      rw [if_pos rfl, mapPy_ok (g := pickAll cols) (fun s hs => columns_ok (hr _ hin s hs))]
      simp only [Except.map]
      rw [List.map_map]
      rfl
    | false =>
      rw [if_neg Bool.false_ne_true]
      by_cases hmz : mz = none
      · rw [if_pos hmz, if_neg (by omega), hcols hmz]
        by_cases hal : σ = List.range σ.length
        · rw [if_pos hal, batches_ok (g := pickAll (origIdx isAdditional 0 table))
            (fun s hs => h5Columns_ok (origIdx_sorted _ _ _) (hr _ hin0 s hs)) hstep]
          dsimp only
          have : pick σ (origIdx isAdditional 0 table) = origIdx isAdditional 0 table := by
            have hl : σ.length = (origIdx isAdditional 0 table).length := by rw [hp.length_eq, List.length_range]
            rw [hal, hl]
            exact pick_range _
          rw [this]
        · rw [if_neg hal, batches_ok (g := pickAll (pick σ (origIdx isAdditional 0 table)))
            (fun s hs => twice_ok (origIdx_sorted _ _ _) (hr _ hin0 s hs) hlt0) hstep]
      · rw [if_neg hmz]
        obtain ⟨u1, u2, u3, u4⟩ := sort_undo ha hndc
        rw [takeAll_pick u2]
        dsimp only
        rw [mapPy_ok (g := pickAll cols)]
        · simp only [Except.map]
          rw [List.map_map]
          rfl
        · intro s hs
          rw [twice_ok u1 (hr _ (fun c hc => hin c (mem_pick hc)) s hs) u3, u4]

/-- C60, files without peak data: the reconstruction uses the peaks of the axis, in the order of the axis. -/
theorem C60_raw {σ : List Nat} {table : List Peak} (mz : Option (Rat × Rat))
    (hσ : IsArgsort ((table.filter fun p => !isNominal p).map Peak.mass) σ) :
    ∃ cols, Columns (fun p => ¬ Nominal p) mz table cols ∧ ∃ masses peaks, MassesOf table cols masses ∧
      masses.Pairwise (· ≤ ·) ∧ peaks.map some = cols.map (fun (c : Nat) => table[c]?) ∧
      additionalTable σ table mz = .ok peaks ∧
      additionalOrder σ table mz = .ok (if mz.isSome ∧ cols = [] then none else some (masses, cols)) := by
  obtain ⟨hp, hsort, hord⟩ := additionalOrder_ok (σ := σ) (table := table) mz hσ
  have hpp := perm_pick hp
  have hm : table.filter isAdditional = (origIdx isAdditional 0 table).filterMap fun c => table[c]? := by
    have key : ∀ (t pre : List Peak), t.filter isAdditional =
        (origIdx isAdditional pre.length t).filterMap fun c => (pre ++ t)[c]? := by
      intro t
      induction t with
      | nil => intro pre; rfl
      | cons q t ih =>
        intro pre
        have ih := ih (pre ++ [q])
        rw [List.append_assoc, List.singleton_append, List.length_append, List.length_singleton] at ih
        rw [origIdx, List.filter_cons]
        by_cases hq : isAdditional q = true
        · rw [if_pos hq, if_pos hq, List.filterMap_cons, ← ih, List.getElem?_append_right (Nat.le_refl _), Nat.sub_self]
          rfl
        · rw [if_neg hq, if_neg hq, ih]
    exact key table []
  have hin0 : ∀ c ∈ origIdx isAdditional 0 table, c < table.length := fun c hc => lt_of_mem_origIdx hc
  have hlt0 : ∀ k ∈ σ, k < (table.filter fun p => !isNominal p).length := by
    intro k hk
    have h := hσ.1
    rw [List.length_map] at h
    rw [h.mem_iff, List.mem_range] at hk
    exact hk
  have hps : takeAll (table.filter fun p => !isNominal p) σ = .ok (pick (pick σ (origIdx isAdditional 0 table)) table) := by
    rw [takeAll_pick hlt0, ← pick_pick hin0]
    congr 2
  refine ⟨_, columns_spec (fun p => isAdditional_iff) hpp, _,
    pick ((pick σ (origIdx isAdditional 0 table)).filter fun c => inRange mz (massOf table c)) table,
    masses_spec (f := isAdditional) (fun c hc => hpp.mem_iff.1 (List.mem_filter.1 hc).1), hsort, ?_, ?_, hord⟩
  · refine (takeAll_inv (takeAll_pick ?_)).symm
    intro c hc
    exact hin0 c (hpp.mem_iff.1 (List.mem_filter.1 hc).1)
  · unfold additionalTable
    rw [hps]
    dsimp only
    have hgen : ∀ l : List Nat, (∀ c ∈ l, c < table.length) →
        (pick l table).filter (fun p => inRange mz p.mass) =
          pick (l.filter fun c => inRange mz (massOf table c)) table := by
      intro l
      induction l with
      | nil => intro _; rfl
      | cons c l ih =>
        intro h
        have hc := h c List.mem_cons_self
        have ih := ih fun d hd => h d (List.mem_cons_of_mem _ hd)
        have hpc : pick (c :: l) table = table[c] :: pick l table := by
          unfold pick
          rw [List.filterMap_cons, List.getElem?_eq_getElem hc]
        have hmass : massOf table c = table[c].mass := by
          rw [massOf, List.getElem?_eq_getElem hc]; rfl
        rw [hpc, List.filter_cons, List.filter_cons, hmass, ih]
        by_cases hr : inRange mz table[c].mass = true
        · rw [if_pos hr, if_pos hr]
          unfold pick
          rw [List.filterMap_cons, List.getElem?_eq_getElem hc]
        · rw [if_neg hr, if_neg hr]
    cases mz with
    | none =>
      rw [if_neg (show ¬ (none : Option (Rat × Rat)).isSome = true from Bool.false_ne_true), filter_true (f := fun c => inRange none (massOf table c)) (fun _ => rfl)]
    | some r =>
      rw [if_pos (show (some r : Option (Rat × Rat)).isSome = true from rfl), hgen _ fun c hc => hin0 c (hpp.mem_iff.1 hc)]

instance : DecidableEq (Slice Nat) := by unfold Slice; infer_instance

def exPeaks : List Peak :=
  [⟨['n', 'o', 'm', 'i', 'n', 'a', 'l', '1'], 1, 0, 2⟩, ⟨['c'], 9, 8, 10⟩, ⟨['n', 'o', 'm', 'i', 'n', 'a', 'l', '3'], 3, 2, 4⟩,
    ⟨['a'], 5, 4, 6⟩, ⟨['b'], 7, 6, 8⟩]

def exSlices : List (Slice Nat) := [[[[10, 11, 12, 13, 14]]], [[[20, 21, 22, 23, 24]]], [[[30, 31, 32, 33, 34]]]]

theorem exArgsort : IsArgsort ((exPeaks.filter fun p => !isNominal p).map Peak.mass) [1, 2, 0] := by
  have e : (exPeaks.filter fun p => !isNominal p).map Peak.mass = [9, 5, 7] := by decide +kernel
  rw [e]
  refine ⟨by decide +kernel, ?_⟩
  rw [List.pairwise_cons, List.pairwise_cons]
  refine ⟨?_, ?_, by simp⟩
  · intro b hb x y hx hy
    simp only [List.mem_cons, List.not_mem_nil, or_false] at hb
    rcases hb with rfl | rfl <;> · cases hx; cases hy; decide +kernel
  · intro b hb x y hx hy
    simp only [List.mem_cons, List.not_mem_nil, or_false] at hb
    subst hb
    cases hx
    cases hy
    decide +kernel

/-- The hypotheses of the theorems above: peaks out of order, batches of two of three slices; the function given
for `argsort` agrees with it on the lists it is given here. -/
example : HasColumns exPeaks.length exSlices ∧
    nominalData false exPeaks none exSlices = .ok (some ([1, 3], [[[[10, 12]]], [[[20, 22]]], [[[30, 32]]]])) ∧
    additionalData (fun l => l) false 2 [1, 2, 0] exPeaks none exSlices =
      .ok (some ([5, 7, 9], [some [[[13, 14, 11]]], some [[[23, 24, 21]]], some [[[33, 34, 31]]]])) ∧
    additionalData (fun _ => [0, 1]) false 2 [1, 2, 0] exPeaks (some (5, 7)) exSlices =
      .ok (some ([5, 7], [some [[[13, 14]]], some [[[23, 24]]], some [[[33, 34]]]])) := by
  refine ⟨?_, by decide +kernel, by decide +kernel, by decide +kernel⟩
  unfold HasColumns
  decide +kernel

/-- C60 fails for the peak table of the metadata: it is not restricted to the range, and not in the order of the
axis. -/
theorem C60_fails_metadata :
    nominalData false exPeaks (some (0, 2)) exSlices = .ok (some ([1], [[[[10]]], [[[20]]], [[[30]]]])) ∧
    (nominalMeta exPeaks).map Peak.mass = [1, 3] ∧
    additionalData (fun l => l) false 2 [1, 2, 0] exPeaks none exSlices =
      .ok (some ([5, 7, 9], [some [[[13, 14, 11]]], some [[[23, 24, 21]]], some [[[33, 34, 31]]]])) ∧
    (additionalMeta exPeaks).map Peak.mass = [9, 5, 7] := by
  decide +kernel

/-- C60 fails for a batch size of zero, which is accepted for lazy reading and for a range, and is a `ValueError`
of `range` otherwise. -/
theorem C60_fails_batch :
    additionalData (fun l => l) false 0 [1, 2, 0] exPeaks none exSlices = .error .valueError ∧
    additionalData (fun l => l) true 0 [1, 2, 0] exPeaks none exSlices =
      .ok (some ([5, 7, 9], [some [[[13, 14, 11]]], some [[[23, 24, 21]]], some [[[33, 34, 31]]]])) := by
  decide +kernel

end Verif.Props.TofwerkData
