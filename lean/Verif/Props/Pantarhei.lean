import Verif.Lemmas.Pantarhei
import Verif.Props.Npy
import Verif.Lemmas.Bytes
import Mathlib.Tactic.FieldSimp
/-! C52, C53, C57: Panta Rhei files. -/
namespace Verif.Props.Pantarhei
open Verif Verif.Pantarhei

/-! ### C57 -/

/-- C57: every axis of the result describes one dimension of the stored array: its size, its content type, its
calibration and its samples. The dimensions without an axis are those of length one whose content type
contains `Index`. `π` is the list of the dimensions
(numpy order) in the order of the axes. Content types and calibrations are stored in reverse order. -/
theorem C57_axes {α : Type} {data out : Arr α} {m m' : Meta} {xs : List Axis} {ct : List (Option Text)}
    (hct : m.contentTypes = some ct) (h1D : m.type ≠ some t1D) (h : importPr data m = .ok (out, xs, m')) :
    ∃ π : List Nat, π.Nodup ∧ (∀ k ∈ π, k < data.shape.length) ∧
      (∀ k, k < data.shape.length → (k ∉ π ↔ data.shape[k]? = some 1 ∧
        ∃ t, ct[data.shape.length - 1 - k]? = some (some t) ∧ tIndex <:+: t)) ∧
      xs.length = π.length ∧ out.shape = xs.map Axis.size ∧
      (∀ (i k : Nat) (a : Axis), π[i]? = some k → xs[i]? = some a → data.shape[k]? = some a.size ∧
        (∀ t, ct[data.shape.length - 1 - k]? = some (some t) → a.name = t) ∧
        (a.navigate = true ↔ a.name = tScanY ∨ a.name = tScanX ∨ a.name = tIndex ∨ a.name = tPlotIndex) ∧
        Calibrated a (match m.deviceCalib with | none => none | some l => l[data.shape.length - 1 - k]?.getD none)
          (m.eels = true ∧ a.name = tEnergy)) ∧
      (∀ idx J : List Nat, idx.length = π.length → J.length = data.shape.length →
        (∀ (i k v : Nat) (a : Axis), π[i]? = some k → xs[i]? = some a → idx[i]? = some v →
          J[k]? = some (if m.eels = true ∧ a.name = tEnergy then a.size - 1 - v else v)) →
        (∀ k, k < data.shape.length → k ∉ π → J[k]? = some 0) → out.val idx = data.val J) := by
  have hct' : contentTypes m data.shape.length = .ok ct := by
    unfold contentTypes
    rw [hct]
    dsimp only
    rw [if_neg h1D]
  obtain ⟨π, h1, h2, h3, h4, h5, h6, h7, -⟩ := import_dims hct' h
  refine ⟨π, h1, h2, h3, h4, h5, ?_, h7⟩
  intro i k a hk ha
  obtain ⟨k1, k2, k3, k4⟩ := h6 i k a hk ha
  refine ⟨k1, k2, ?_, k4⟩
  rw [k3]
  simp [navigationDims]

/-- C57: navigation axes come before signal axes, and axes of the same kind are in the order of the file: the
kinds are ordered as in the list, dimensions of other kinds follow. -/
theorem C57_order {α : Type} {data out : Arr α} {m m' : Meta} {xs : List Axis} {ct : List (Option Text)}
    (hct : m.contentTypes = some ct) (h1D : m.type ≠ some t1D) (hall : ∀ c ∈ ct, c ≠ none)
    (h : importPr data m = .ok (out, xs, m')) :
    xs.Pairwise fun a b => [tScanY, tScanX, tIndex, tPlotIndex, tCameraY, tCameraX, tPixel, tEnergy, ['*']].idxOf a.name ≤
      [tScanY, tScanX, tIndex, tPlotIndex, tCameraY, tCameraX, tPixel, tEnergy, ['*']].idxOf b.name := by
  have hct' : contentTypes m data.shape.length = .ok ct := by
    unfold contentTypes
    rw [hct]
    dsimp only
    rw [if_neg h1D]
  obtain ⟨ct', -, -, -, e1, hlen, -⟩ := importPr_ok h
  rw [hct'] at e1
  cases e1
  obtain ⟨π, h1, h2, h3, h4, h5, h6, h7, h8⟩ := import_dims hct' h
  rw [List.pairwise_iff_getElem] at h8 ⊢
  intro i j hi hj hij
  have hi' : i < π.length := by omega
  have hj' : j < π.length := by omega
  have key : ∀ (i : Nat) (hi : i < xs.length) (hi' : i < π.length),
      rank (ct[data.shape.length - 1 - π[i]]?.getD none) =
        [tScanY, tScanX, tIndex, tPlotIndex, tCameraY, tCameraX, tPixel, tEnergy, ['*']].idxOf xs[i].name := by
    intro i hi hi'
    obtain ⟨-, k2, -⟩ := h6 i _ _ (List.getElem?_eq_getElem hi') (List.getElem?_eq_getElem hi)
    have hlt : data.shape.length - 1 - π[i] < ct.length := by
      have := h2 _ (List.getElem_mem hi')
      omega
    rw [List.getElem?_eq_getElem hlt] at k2 ⊢
    rw [Option.getD_some]
    cases hc : ct[data.shape.length - 1 - π[i]] with
    | none => exact absurd hc (hall _ (List.getElem_mem hlt))
    | some t =>
      rw [k2 t (by rw [hc])]
      rfl
  have := h8 i j hi' hj' hij
  rwa [key i hi hi', key j hj hj'] at this

/-- A spectrum image of 2 by 3 pixels with 4 channels, stored with the energy in the middle. -/
def exData : Arr Nat := ⟨[2, 4, 3], fun idx => idx.foldl (fun a i => a * 10 + i) 0⟩

def exMeta : Meta :=
  { contentTypes := some [some tScanX, some tEnergy, some tScanY]
    deviceCalib := some [some ⟨some 2, some 0, some ['m'], some (1 / 2)⟩, some ⟨some 3, some 1, some ['e', 'V'], none⟩,
      none]
    eels := true }

/-- The hypotheses of `C57_axes` and `C57_order`: the energy axis is moved to the end and reversed. -/
example : (importPr exData exMeta).map (fun r => (r.1.shape, r.2.1, r.1.val [1, 2, 0])) =
    .ok ([2, 3, 4], [⟨true, tScanY, 2, none, none, none⟩, ⟨true, tScanX, 3, some ['m'], some 0, some 1⟩,
      ⟨false, tEnergy, 4, some ['e', 'V'], some (-12), some 3⟩], 132) := by
  decide +kernel

theorem look_all {β : Type} (item : List β) : ∀ (order : List Nat) (new : List β) (i k : Nat),
    order.mapM (look item) = .ok new → order[i]? = some k → ∃ v, item[k]? = some v ∧ new[i]? = some v := by
  intro order
  induction order with
  | nil => intro new i k _ hi; cases hi
  | cons o order ih =>
    intro new i k h hi
    rw [List.mapM_cons] at h
    unfold look at h
    cases ho : item[o]? with
    | none => rw [ho] at h; cases h
    | some v =>
      rw [ho] at h
      change (do let a ← Except.ok v; let l ← order.mapM (look item); pure (a :: l) : Py (List β)) = .ok new at h
      cases hm : order.mapM (look item) with
      | error e => rw [hm] at h; cases h
      | ok l =>
        rw [hm] at h
        cases h
        cases i with
        | zero =>
          cases hi
          exact ⟨v, ho, rfl⟩
        | succ i =>
          rw [List.getElem?_cons_succ] at hi
          obtain ⟨w, h1, h2⟩ := ih l i k hm hi
          exact ⟨w, h1, by rw [List.getElem?_cons_succ]; exact h2⟩

/-- C57: the lists of the metadata are put into the same order if no dimension was removed. -/
theorem C57_lists {β : Type} (order : List Nat) (old new : List β) (hl : order.length = old.length)
    (h : reorder order.length order old = .ok new) (i k : Nat) (hi : order[i]? = some k) :
    new[i]? = old[old.length - 1 - k]? := by
  unfold reorder at h
  rw [if_neg (by omega)] at h
  obtain ⟨v, h1, h2⟩ := look_all _ order new i k h hi
  rw [h2, ← h1]
  rw [List.getElem?_reverse (by
    have := (List.getElem?_eq_some_iff.1 h1).1
    rwa [List.length_reverse] at this)]

/-- C57: the same if one dimension was removed and it is the first of the array (the last of the lists). -/
theorem C57_lists_removed {β : Type} (order : List Nat) (old new : List β) (hl : old.length = order.length + 1)
    (h : reorder order.length order old = .ok new) (i k : Nat) (hi : order[i]? = some k) :
    new[i]? = old[old.length - 1 - (k + 1)]? := by
  unfold reorder at h
  rw [if_pos hl] at h
  obtain ⟨v, h1, h2⟩ := look_all _ order new i k h hi
  have hk := (List.getElem?_eq_some_iff.1 h1).1
  rw [List.length_reverse, List.length_dropLast] at hk
  rw [h2, ← h1, List.getElem?_reverse (by rw [List.length_dropLast]; exact hk), List.length_dropLast,
    List.getElem?_dropLast, if_pos (by omega), show old.length - 1 - (k + 1) = old.length - 1 - 1 - k by omega]

example : reorder 2 [1, 0] ['E', 'Y', 'I'] = .ok ['E', 'Y'] := by decide +kernel

/-- C57 fails for the lists of the metadata: if a dimension of length one that is not the last of the file is
removed, the entry of another dimension is dropped. Here the size of the scan is lost. -/
theorem C57_fails_lists :
    (importPr (⟨[5, 1, 4], fun _ => 0⟩ : Arr Nat)
      { contentTypes := some [some tEnergy, some tIndex, some tScanY], size := some [4, 1, 5] }).map
      (fun r => (r.1.shape, r.2.2.size)) = .ok ([5, 4], some [1, 4]) := by
  decide +kernel

/-! ### C52 -/

theorem defaults_ok {α : Type} (data : Arr α) (m : Meta) (h1 : ∀ n ∈ data.shape, n ≠ 1)
    (hm : m.contentTypes = none) (hd : m.deviceCalib = none) (hu : m.userCalib = none) (hz : m.size = none)
    (ht : m.type = none ∨ m.type = some t1D ∧ (data.shape.length = 2 ∨ data.shape.length = 3))
    (hi : ∀ l, m.inheritedCalib = some l → l.length = data.shape.length)
    (hr : ∀ l, m.refSize = some l → l.length = data.shape.length) :
    ∃ out xs m', importPr data m = .ok (out, xs, m') ∧ out.shape = data.shape ∧
      (∀ idx, idx.length = data.shape.length → out.val idx = data.val idx) ∧ xs.map Axis.size = data.shape ∧
      ∀ a ∈ xs, a.units = none ∧ a.offset = none ∧ a.scale = none := by
  have hne : ∀ {t : Text}, t ≠ tStack → t ≠ t3D → some t ≠ some tStack ∧ some t ≠ some t3D := by
    intro t a b
    exact ⟨fun e => a (Option.some.inj e), fun e => b (Option.some.inj e)⟩
  have finish : ∀ ct, contentTypes m data.shape.length = .ok ct → ct.length = data.shape.length →
      (ct.reverse.Pairwise fun a b => rank a ≤ rank b) → ct.count none ≤ 3 → some tEnergy ∉ ct → _ :=
    fun ct a b c d e => importPr_sorted a b h1 c d hd (fun _ => e) (by rw [hm]; intro l h; cases h)
      (by rw [hu]; intro l h; cases h) hi (by rw [hz]; intro l h; cases h) hr
  rcases ht with ht | ⟨ht, hdim⟩
  · by_cases h3 : 3 ≤ data.shape.length
    · refine finish (none :: none :: List.replicate (data.shape.length - 2) (some tIndex)) ?_ ?_ ?_ ?_ ?_
      · unfold contentTypes
        rw [hm, ht]
        dsimp only
        rw [if_neg (by simp), if_neg (by simp), if_neg (by simp), if_pos h3]
      · simp only [List.length_cons, List.length_replicate]; omega
      · rw [List.reverse_cons, List.reverse_cons, List.reverse_replicate, List.append_assoc, List.pairwise_append]
        refine ⟨?_, ?_, ?_⟩
        · rw [List.pairwise_replicate]
          exact Or.inr (Nat.le_refl _)
        · simp
        · intro a ha b hb
          rw [List.eq_of_mem_replicate ha]
          simp only [List.mem_append, List.mem_cons, List.not_mem_nil, or_false, or_self] at hb
          rw [hb]
          decide
      · rw [List.count_cons_self, List.count_cons_self, List.count_replicate]
        simp
      · simp only [List.mem_cons, List.mem_replicate, reduceCtorEq, false_or, not_and, Option.some.injEq]
        intro _
        decide
    · refine finish (List.replicate data.shape.length none) ?_ ?_ ?_ ?_ ?_
      · unfold contentTypes
        rw [hm, ht]
        dsimp only
        rw [if_neg (by simp), if_neg (by simp), if_neg (by simp), if_neg h3]
      · rw [List.length_replicate]
      · rw [List.reverse_replicate, List.pairwise_replicate]
        exact Or.inr (Nat.le_refl _)
      · rw [List.count_replicate_self]; omega
      · simp
  · rcases hdim with h2 | h3
    · refine finish [none, some tPlotIndex] ?_ h2.symm ?_ ?_ ?_
      · unfold contentTypes
        rw [hm, ht]
        dsimp only
        rw [if_neg (by decide), if_neg (by omega), if_pos rfl]
      · decide
      · decide
      · decide
    · refine finish [none, some tPlotIndex, some tIndex] ?_ h3.symm ?_ ?_ ?_
      · unfold contentTypes
        rw [hm, ht]
        dsimp only
        rw [if_neg (by decide), if_pos ⟨rfl, h3⟩]
      · decide
      · decide
      · decide

/-- C52, data: what has been written is read back with the same data and order of the axes, as long as there are
no axes of length one. Missing from the full claim: calibrations and names of axes are not read
(`C52_fails_calibration`). Metadata is not read because it has been written as a pickle. -/
theorem C52_default_partial {α : Type} (data : Arr α) (m : Meta) (h1 : ∀ n ∈ data.shape, n ≠ 1) :
    ∃ out xs m', importPr data (loaded false false m) = .ok (out, xs, m') ∧ out.shape = data.shape ∧
      (∀ idx, idx.length = data.shape.length → out.val idx = data.val idx) ∧ xs.map Axis.size = data.shape := by
  obtain ⟨out, xs, m', a, b, c, d, -⟩ := defaults_ok data (loaded false false m) h1 rfl rfl rfl rfl (.inl rfl)
    (by intro l h; cases h) (by intro l h; cases h)
  exact ⟨out, xs, m', a, b, c, d⟩

theorem calibsOf_length : ∀ {xs : List AxisIn} {ns rs : List Nat} {cs : List (Option Calib)},
    calibsOf xs ns rs = .ok cs → cs.length = xs.length
  | [], _, _, cs, h => by
    rw [calibsOf] at h
    cases h
    rfl
  | a :: xs, n :: ns, r :: rs, cs, h => by
    rw [calibsOf] at h
    split at h
    · cases h
    · split at h
      · cases h
      · rename_i cs' hcs
        cases h
        rw [List.length_cons, List.length_cons, calibsOf_length hcs]
  | _ :: _, [], _, cs, h => by simp [calibsOf] at h
  | _ :: _, _ :: _, [], cs, h => by simp [calibsOf] at h

/-- The names that stand for a content type. -/
def known : List Text := [tEnergyLoss, tEnergy, tScanX, tScanY]

theorem contentOf_none {a : AxisIn} (h : ∀ t, a.name = some t → t ∉ known) : contentOf a.name = none := by
  unfold contentOf
  cases hn : a.name with
  | none => rfl
  | some t =>
    have := h t hn
    simp only [known, List.mem_cons, List.not_mem_nil, or_false, not_or] at this
    obtain ⟨a1, a2, a3, a4⟩ := this
    rw [if_neg (fun e => a1 (Option.some.inj e)), if_neg (fun e => a2 (Option.some.inj e)),
      if_neg (fun e => a3 (Option.some.inj e)), if_neg (fun e => a4 (Option.some.inj e))]

/-- C52, data, with metadata (`allow_restricted_pickle=True`): the same for signals whose axes have other
names than `Energy`, `Energy loss`, `ScanX`, `ScanY`; with one signal axis there must be one or two
navigation axes. Missing from the full claim: see the cases below. -/
theorem C52_pickle_partial {α : Type} (data : Arr α) (xs : List AxisIn) (eels : Bool) (m : Meta)
    (h1 : ∀ n ∈ data.shape, n ≠ 1) (hlen : xs.length = data.shape.length)
    (hnames : ∀ a ∈ xs, ∀ t, a.name = some t → t ∉ known)
    (hsig : (xs.filter fun a => a.navigate ≠ some true).length = 1 → xs.length = 2 ∨ xs.length = 3)
    (hm : exportPr data.shape xs (newMeta eels) = .ok m) :
    ∃ out ys m', importPr data (loaded false true m) = .ok (out, ys, m') ∧ out.shape = data.shape ∧
      (∀ idx, idx.length = data.shape.length → out.val idx = data.val idx) ∧ ys.map Axis.size = data.shape := by
  unfold exportPr at hm
  dsimp only at hm
  split at hm
  · cases hm
  · rename_i cs hcs
    have hcl := calibsOf_length hcs
    have hts : (xs.map fun a => contentOf a.name).any Option.isSome = false := by
      rw [List.any_eq_false]
      intro o ho
      rw [List.mem_map] at ho
      obtain ⟨a, ha, rfl⟩ := ho
      rw [contentOf_none (hnames a ha)]
      simp
    rw [hts] at hm
    simp only [Bool.false_eq_true, if_false] at hm
    cases hm
    have hmeta : ∀ m0 : Meta, m0.contentTypes = none → m0.deviceCalib = none → m0.userCalib = none → m0.size = none →
        (m0.type = none ∨ m0.type = some t1D ∧ (data.shape.length = 2 ∨ data.shape.length = 3)) →
        (∀ l, m0.inheritedCalib = some l → l.length = data.shape.length) →
        (∀ l, m0.refSize = some l → l.length = data.shape.length) →
        ∃ out ys m', importPr data (loaded false true m0) = .ok (out, ys, m') ∧ out.shape = data.shape ∧
          (∀ idx, idx.length = data.shape.length → out.val idx = data.val idx) ∧ ys.map Axis.size = data.shape := by
      intro m0 a b c d e f g
      obtain ⟨out, ys, m', k1, k2, k3, k4, -⟩ := defaults_ok data m0 h1 a b c d e f g
      exact ⟨out, ys, m', k1, k2, k3, k4⟩
    have hi : ∀ l : List (Option Calib), (if cs.any Option.isSome = true then some cs.reverse else none) = some l →
        l.length = data.shape.length := by
      intro l hl
      split at hl
      · cases hl
        rw [List.length_reverse, hcl, hlen]
      · cases hl
    have hr : ∀ l : List Nat, some data.shape.reverse = some l → l.length = data.shape.length := by
      intro l hl
      cases hl
      rw [List.length_reverse]
    by_cases h1d : (xs.filter fun a => a.navigate ≠ some true).length = 1
    · rw [if_pos h1d]
      refine hmeta _ ?_ ?_ ?_ ?_ (.inr ⟨rfl, by rw [← hlen]; exact hsig h1d⟩) ?_ ?_ <;>
        (by_cases hca : cs.any Option.isSome = true <;> simp only [hca, if_true, if_false, newMeta] at hi ⊢) <;>
        first | trivial | rfl | exact hi | exact hr
    · rw [if_neg h1d]
      refine hmeta _ ?_ ?_ ?_ ?_ (.inl ?_) ?_ ?_ <;>
        (by_cases hca : cs.any Option.isSome = true <;> simp only [hca, if_true, if_false, newMeta] at hi ⊢) <;>
        first | trivial | rfl | exact hi | exact hr

def exAxes : List AxisIn :=
  [⟨some ['y'], some 2, some 10, some ['n', 'm'], some true⟩, ⟨some ['x'], some 3, some 0, some ['n', 'm'], some true⟩,
   ⟨some ['E'], some (1 / 2), some 100, some ['e', 'V'], some false⟩]

/-- The hypotheses of `C52_pickle_partial`. -/
example : (exportPr [2, 3, 4] exAxes (newMeta true)).map (fun m => (m.type, m.refSize, m.inheritedCalib)) =
    .ok (some t1D, some [4, 3, 2], some [some ⟨some (1 / 2), some 200, some ['e', 'V'], none⟩,
      some ⟨some (3 / 1000000000), some 0, some ['m'], none⟩,
      some ⟨some (2 / 1000000000), some 5, some ['m'], none⟩]) := by
  decide +kernel

/-- The unit `u` is the unit `u'` times `f`. -/
def Unit (u : Text) (f : Rat) (u' : Text) : Prop :=
  f = 1 ∧ u' = u ∨ ∃ c, u = c :: u' ∧ (c = 'm' ∧ f = 1 / 1000 ∨ (c = 'u' ∨ c = 'µ') ∧ f = 1 / 1000000 ∨
    c = 'n' ∧ f = 1 / 1000000000 ∨ c = 'p' ∧ f = 1 / 1000000000000)

theorem guess_ok (v : Rat) (u : Text) : ∃ f, Unit u f (guessFromUnit v u).2 ∧ (guessFromUnit v u).1 = v * f := by
  unfold guessFromUnit
  split
  · rename_i c d t
    split
    · rename_i f hf
      split
      · refine ⟨f, Or.inr ⟨c, rfl, ?_⟩, rfl⟩
        unfold prefixFactor at hf
        split at hf
        · cases hf; exact .inl ⟨by assumption, rfl⟩
        · split at hf
          · cases hf; exact .inr (.inl ⟨.inl (by assumption), rfl⟩)
          · split at hf
            · cases hf; exact .inr (.inl ⟨.inr (by assumption), rfl⟩)
            · split at hf
              · cases hf; exact .inr (.inr (.inl ⟨by assumption, rfl⟩))
              · split at hf
                · cases hf; exact .inr (.inr (.inr ⟨by assumption, rfl⟩))
                · cases hf
      · exact ⟨1, Or.inl ⟨rfl, rfl⟩, by simp⟩
    · exact ⟨1, Or.inl ⟨rfl, rfl⟩, by simp⟩
  · exact ⟨1, Or.inl ⟨rfl, rfl⟩, by simp⟩

/-- C52, writing: the calibration that is written for an axis with scale, offset and unit is its
calibration: coordinates agree in the unit that is written. `factor` is the ratio of the reference size and
the size, 1 for new signals; scales are written for the reference size. -/
theorem C52_written {a : AxisIn} {factor s o : Rat} {u : Text} (hs : a.scale = some s) (hs0 : s ≠ 0)
    (hf : factor ≠ 0) (ho : a.offset = some o) (hu : a.units = some u) :
    ∃ v o' f u', calibOf a factor = .ok (some ⟨some v, some o', some u', none⟩) ∧ Unit u f u' ∧
      ∀ i : Nat, coordinate o' v (some factor) i = (o + i * s) * f := by
  have hv : s / factor ≠ 0 := div_ne_zero hs0 hf
  obtain ⟨f, f1, f2⟩ := guess_ok (s / factor) u
  refine ⟨(guessFromUnit (s / factor) u).1, o / (s / factor), f, (guessFromUnit (s / factor) u).2, ?_, f1, ?_⟩
  · unfold calibOf
    rw [if_pos (by unfold AxisIn.calibrated; rw [hs]; simp [hs0])]
    dsimp only
    rw [ho, hs, hu]
    dsimp only [Option.map_some]
    rw [if_neg hv]
  · intro i
    unfold coordinate
    rw [f2, Option.getD_some]
    field_simp

example : ∃ v o' f u', calibOf exAxes[0] 1 = .ok (some ⟨some v, some o', some u', none⟩) ∧ Unit ['n', 'm'] f u' ∧
    ∀ i : Nat, coordinate o' v (some 1) i = (10 + i * 2) * f :=
  C52_written rfl (by decide) (by decide) rfl rfl

theorem calibsOf_get : ∀ {xs : List AxisIn} {ns rs : List Nat} {cs : List (Option Calib)},
    calibsOf xs ns rs = .ok cs → ∀ {i : Nat} {a : AxisIn} {n r : Nat}, xs[i]? = some a → ns[i]? = some n → rs[i]? = some r →
    ∃ c, calibOf a ((r : Rat) / n) = .ok c ∧ cs[i]? = some c
  | [], _, _, _, _, i, a, n, r, h1, _, _ => by cases h1
  | x :: xs, m :: ns, k :: rs, cs, h, i, a, n, r, h1, h2, h3 => by
    rw [calibsOf] at h
    split at h
    · cases h
    · rename_i c hc
      split at h
      · cases h
      · rename_i cs' hcs
        cases h
        cases i with
        | zero => cases h1; cases h2; cases h3; exact ⟨c, hc, rfl⟩
        | succ i =>
          rw [List.getElem?_cons_succ] at h1 h2 h3 ⊢
          exact calibsOf_get hcs h1 h2 h3
  | _ :: _, [], _, _, h, _, _, _, _, _, _, _ => by simp [calibsOf] at h
  | _ :: _, _ :: _, [], _, h, _, _, _, _, _, _, _ => by simp [calibsOf] at h

theorem export_calibs {shape : List Nat} {xs : List AxisIn} {eels : Bool} {m : Meta}
    (hm : exportPr shape xs (newMeta eels) = .ok m) : ∃ cs, calibsOf xs shape shape = .ok cs ∧
      m.inheritedCalib = (if cs.any Option.isSome then some cs.reverse else none) ∧
      m.contentTypes = (if (xs.map fun a => contentOf a.name).any Option.isSome then
        some (xs.map fun a => contentOf a.name).reverse else none) := by
  unfold exportPr at hm
  dsimp only at hm
  split at hm
  · cases hm
  · rename_i cs hcs
    refine ⟨cs, ?_, ?_⟩
    · rw [← hcs]
      unfold newMeta
      dsimp only
      rw [Option.getD_none, List.reverse_reverse]
    · cases hm
      by_cases h1 : cs.any Option.isSome = true <;>
        by_cases h2 : (xs.map fun a => contentOf a.name).any Option.isSome = true <;>
        by_cases h3 : (xs.filter fun a => a.navigate ≠ some true).length = 1 <;>
        simp only [h1, h2, h3, if_true, if_false, Bool.false_eq_true, newMeta, and_self]

/-- C52, writing: each axis with scale, offset and unit has its own calibration in the file, in the order of Panta Rhei, which is
the opposite of that of the axes. -/
theorem C52_written_axes {shape : List Nat} {xs : List AxisIn} {eels : Bool} {m : Meta} {i : Nat} {a : AxisIn} {s o : Rat}
    {u : Text} (hm : exportPr shape xs (newMeta eels) = .ok m) (hlen : xs.length = shape.length)
    (hpos : ∀ n ∈ shape, 0 < n) (hi : xs[i]? = some a) (hs : a.scale = some s) (hs0 : s ≠ 0) (ho : a.offset = some o)
    (hu : a.units = some u) :
    ∃ cs v o' f u', m.inheritedCalib = some cs ∧ cs.length = xs.length ∧
      cs[xs.length - 1 - i]? = some (some ⟨some v, some o', some u', none⟩) ∧ Unit u f u' ∧
      ∀ j : Nat, coordinate o' v (some 1) j = (o + j * s) * f := by
  obtain ⟨cs, hcs, hinh, -⟩ := export_calibs hm
  have hil : i < xs.length := (List.getElem?_eq_some_iff.1 hi).1
  have hn : shape[i]? = some (shape[i]'(by omega)) := List.getElem?_eq_getElem _
  obtain ⟨c, hc, hget⟩ := calibsOf_get hcs hi hn hn
  have hp := hpos _ (List.getElem_mem (h := show i < shape.length by omega))
  have hone : ((shape[i]'(by omega) : Nat) : Rat) / (shape[i]'(by omega) : Nat) = 1 := div_self (by
    intro hz
    have : (shape[i]'(by omega) : Nat) = 0 := by exact_mod_cast hz
    omega)
  rw [hone] at hc
  obtain ⟨v, o', f, u', e1, e2, e3⟩ := C52_written hs hs0 one_ne_zero ho hu
  rw [e1] at hc
  cases hc
  have hl := calibsOf_length hcs
  refine ⟨cs.reverse, v, o', f, u', ?_, by rw [List.length_reverse, hl], ?_, e2, e3⟩
  · rw [hinh, if_pos]
    rw [List.any_eq_true]
    exact ⟨_, List.mem_of_getElem? hget, rfl⟩
  · rw [List.getElem?_reverse (by omega), ← hget]
    congr 1
    omega

/-- C52, writing: an axis called `Energy` or `Energy loss` is marked as energy axis in the file, and an axis with another name
(but `ScanX` and `ScanY`) has no type. -/
theorem C52_written_types {shape : List Nat} {xs : List AxisIn} {eels : Bool} {m : Meta} {i : Nat} {a : AxisIn}
    (hm : exportPr shape xs (newMeta eels) = .ok m) (hi : xs[i]? = some a) :
    (a.name = some tEnergy ∨ a.name = some tEnergyLoss →
      ∃ ts, m.contentTypes = some ts ∧ ts[xs.length - 1 - i]? = some (some tEnergy)) ∧
    ((∀ t, a.name = some t → t ∉ known) → ∀ ts, m.contentTypes = some ts → ts[xs.length - 1 - i]? = some none) := by
  obtain ⟨-, -, -, hts⟩ := export_calibs hm
  have hil : i < xs.length := (List.getElem?_eq_some_iff.1 hi).1
  have hget : (xs.map fun a => contentOf a.name).reverse[xs.length - 1 - i]? = some (contentOf a.name) := by
    rw [List.getElem?_reverse (by rw [List.length_map]; omega), List.length_map,
      show xs.length - 1 - (xs.length - 1 - i) = i by omega, List.getElem?_map, hi]
    rfl
  constructor
  · intro hn
    have hc : contentOf a.name = some tEnergy := by
      rcases hn with hn | hn <;> rw [hn] <;> decide
    rw [hc] at hget
    refine ⟨_, ?_, hget⟩
    rw [hts, if_pos]
    rw [List.any_eq_true]
    exact ⟨some tEnergy, List.mem_map.2 ⟨a, List.mem_of_getElem? hi, hc⟩, rfl⟩
  · intro hn ts h
    rw [contentOf_none hn] at hget
    rw [hts] at h
    split at h
    · cases h; exact hget
    · cases h

/-- The hypotheses of `C52_written_axes` and `C52_written_types`. -/
example : (exportPr [2, 3] [⟨some ['y'], some 2, some 10, some ['n', 'm'], some true⟩,
    ⟨some tEnergy, some (1 / 2), some 100, some ['e', 'V'], some false⟩] (newMeta true)).map
      (fun m => (m.contentTypes, m.inheritedCalib)) =
    .ok (some [some tEnergy, none], some [some ⟨some (1 / 2), some 200, some ['e', 'V'], none⟩,
      some ⟨some (2 / 1000000000), some 5, some ['m'], none⟩]) := by
  decide +kernel

/-- C52 fails: the calibration is written to one entry (`inherited.calib`) and read from another
(`device.calib`): no axis of a new signal is calibrated after reading, with or without metadata. -/
theorem C52_fails_calibration {α : Type} {data out : Arr α} {axes : List AxisIn} {eels allow : Bool} {m m' : Meta}
    {xs : List Axis} (hm : exportPr data.shape axes (newMeta eels) = .ok m)
    (h : importPr data (loaded false allow m) = .ok (out, xs, m')) :
    ∀ a ∈ xs, a.units = none ∧ a.offset = none ∧ a.scale = none := by
  refine import_uncalibrated ?_ h
  unfold loaded
  split
  · unfold exportPr at hm
    dsimp only at hm
    split at hm
    · cases hm
    · rename_i cs _
      cases hm
      by_cases h1 : cs.any Option.isSome = true <;>
        by_cases h2 : (axes.map fun a => contentOf a.name).any Option.isSome = true <;>
        by_cases h3 : (axes.filter fun a => a.navigate ≠ some true).length = 1 <;>
        simp only [h1, h2, h3, if_true, if_false, Bool.false_eq_true, newMeta]
  · rfl

def nav (n : Text) : AxisIn := ⟨some n, some 1, some 0, some ['m'], some true⟩
def sig (n : Text) : AxisIn := ⟨some n, some 1, some 0, some ['e', 'V'], some false⟩

/-- The result of writing and reading a signal with metadata: shape and value at an index. -/
def again (shape : List Nat) (axes : List AxisIn) (eels : Bool) (idx : List Nat) : Py (List Nat × List Text × List Nat) :=
  match exportPr shape axes (newMeta eels) with
  | .error e => .error e
  | .ok m => (importPr ⟨shape, id⟩ (loaded false true m)).map fun r => (r.1.shape, r.2.1.map Axis.name, r.1.val idx)

/-- C52 fails: a spectrum image with axes `y`, `x` and `Energy` comes back with the energy first. -/
theorem C52_fails_spectrum_image :
    again [2, 3, 4] [nav ['y'], nav ['x'], sig tEnergy] false [0, 1, 2] =
      .ok ([4, 2, 3], [tEnergy, ['Y'], ['X']], [1, 2, 0]) := by
  decide +kernel

/-- C52 fails: maps with axes `ScanY` and `ScanX` come back transposed. -/
theorem C52_fails_scan :
    again [2, 3, 4] [nav tScanY, nav tScanX, sig tEnergy] false [0, 1, 2] =
      .ok ([3, 2, 4], [tScanY, tScanX, tEnergy], [1, 0, 2]) := by
  decide +kernel

/-- C52 fails: EELS spectra come back reversed. -/
theorem C52_fails_eels : again [4] [sig tEnergy] true [0] = .ok ([4], [tEnergy], [3]) := by decide +kernel

/-- C52 fails: a single spectrum, or a spectrum image with three navigation axes, is written but cannot be
read. -/
theorem C52_fails_one_spectrum :
    again [4] [sig ['E']] false [0] = .error .runtimeError ∧
    again [2, 2, 2, 4] [nav ['t'], nav ['y'], nav ['x'], sig ['E']] false [0, 0, 0, 0] = .error .runtimeError := by
  decide +kernel

/-- C52 fails: images with an axis of length one are written but cannot be read, not even without
metadata. -/
theorem C52_fails_length_one :
    again [1, 4] [sig ['y'], sig ['x']] false [0, 0] = .error .typeError ∧
    (importPr (⟨[1, 4], id⟩ : Arr (List Nat)) (loaded false false {})).map (fun r => r.1.shape) = .error .typeError := by
  decide +kernel

/-! ### C53 -/

/-- A member of an archive: local header with the lengths of name and extra field, and the stored bytes. -/
def member (head name extra payload : List UInt8) : List UInt8 :=
  head ++ leBytes 2 name.length ++ leBytes 2 extra.length ++ name ++ extra ++ payload

/-- C53: for archives without compression the mapped bytes are those of the array, wherever the member is.
Missing from the full claim: compressed archives, `C53_fails_compressed`, `C53_fails_written`; arrays in Fortran
order, which are mapped in C order, `C53_fails_fortran`. -/
theorem C53_stored_partial {β : Type} (parse : Npy.Enc → List UInt8 → Py (List Nat × Nat × β))
    {before head name extra after magic header data : List UInt8} {major minor : UInt8} {shape : List Nat}
    {item : Nat} {b : β} (hhead : head.length = 26) (hname : name.length < 65536) (hextra : extra.length < 65536)
    (hmagic : magic.length = 6) (hver : major = 1 ∨ major = 2 ∨ major = 3)
    (hlen : header.length < 256 ^ (if major = 1 then 2 else 4))
    (hparse : parse (if major = 3 then .utf8 else .latin1) header = .ok (shape, item, b))
    (hdata : data.length = shape.prod * item) :
    let npy := Npy.npyHead magic major minor header ++ data
    lazyBytes parse (before ++ member head name extra npy ++ after) before.length npy = .ok (shape, data) ∧
      eagerBytes parse npy = .ok (shape, data) := by
  intro npy
  have hn := Npy.C15_npy_offset parse magic header data major minor hmagic hver hlen (shape, item, b) hparse
  constructor
  · unfold lazyBytes
    rw [hn]
    dsimp only
    have hlocal : ((before ++ member head name extra npy ++ after).drop before.length).take 30 =
        head ++ leBytes 2 name.length ++ leBytes 2 extra.length := by
      rw [List.append_assoc, List.drop_left' rfl]
      have e : member head name extra npy ++ after =
          (head ++ leBytes 2 name.length ++ leBytes 2 extra.length) ++ (name ++ extra ++ npy ++ after) := by
        unfold member
        simp only [List.append_assoc]
      rw [e]
      refine List.take_left' ?_
      simp only [List.length_append, leBytes_length, hhead]
    rw [hlocal, if_neg (by simp only [List.length_append, leBytes_length, hhead]; omega)]
    have h26 : (head ++ leBytes 2 name.length ++ leBytes 2 extra.length).drop 26 =
        leBytes 2 name.length ++ leBytes 2 extra.length := by
      rw [List.append_assoc]
      exact List.drop_left' hhead
    have h28 : (head ++ leBytes 2 name.length ++ leBytes 2 extra.length).drop 28 = leBytes 2 extra.length :=
      List.drop_left' (by simp only [List.length_append, leBytes_length, hhead])
    rw [h26, h28, List.take_left' (leBytes_length ..), List.take_of_length_le (by rw [leBytes_length]),
      leVal_leBytes (by simpa using hname), leVal_leBytes (by simpa using hextra)]
    have hsplit : before ++ member head name extra npy ++ after =
        (before ++ head ++ leBytes 2 name.length ++ leBytes 2 extra.length ++ name ++ extra ++
          Npy.npyHead magic major minor header) ++ (data ++ after) := by
      unfold member
      simp only [npy, List.append_assoc]
    have hoff : (before ++ head ++ leBytes 2 name.length ++ leBytes 2 extra.length ++ name ++ extra ++
          Npy.npyHead magic major minor header).length = before.length + 30 + name.length + extra.length +
          (Npy.npyHead magic major minor header).length := by
      simp only [List.length_append, leBytes_length, hhead]
    rw [hsplit, List.drop_left' hoff, if_neg (by
      rw [List.length_append, hoff, List.length_append, hdata]
      omega), List.take_left' hdata]
  · unfold eagerBytes
    rw [hn]
    dsimp only
    rw [if_neg (by omega), List.take_of_length_le (by omega)]

/-- A header `shape` `item` `fortran`, one byte each, stands for the text. -/
def exParse : Npy.Enc → List UInt8 → Py (List Nat × Nat × Bool)
  | _, [a, b, i, f] => .ok ([a.toNat, b.toNat], i.toNat, f = 1)
  | _, _ => .error .valueError

def exNpy (fortran : UInt8) : List UInt8 :=
  Npy.npyHead [147, 78, 85, 77, 80, 89] 1 0 [2, 3, 1, fortran] ++ [10, 20, 30, 40, 50, 60]

def exHead : List UInt8 := List.replicate 26 7

/-- The hypotheses of `C53_stored_partial`. -/
example : lazyBytes exParse ([9, 9] ++ member exHead [100] [1, 2, 3] (exNpy 0) ++ [8]) 2 (exNpy 0) =
    .ok ([2, 3], [10, 20, 30, 40, 50, 60]) := by
  decide +kernel

/-- C53, stored archives in C order, one element: reading lazily or not gives the same. -/
theorem C53_elements_partial (parse : Npy.Enc → List UInt8 → Py (List Nat × Nat × Bool))
    {before head name extra after magic header data : List UInt8} {major minor : UInt8} {shape : List Nat}
    {item : Nat} (hhead : head.length = 26) (hname : name.length < 65536) (hextra : extra.length < 65536)
    (hmagic : magic.length = 6) (hver : major = 1 ∨ major = 2 ∨ major = 3)
    (hlen : header.length < 256 ^ (if major = 1 then 2 else 4))
    (hparse : parse (if major = 3 then .utf8 else .latin1) header = .ok (shape, item, false))
    (hdata : data.length = shape.prod * item) (idx : List Nat) :
    let npy := Npy.npyHead magic major minor header ++ data
    lazyElem parse (before ++ member head name extra npy ++ after) before.length npy item idx =
      eagerElem parse npy idx := by
  intro npy
  have hn := Npy.C15_npy_offset parse magic header data major minor hmagic hver hlen (shape, item, false) hparse
  unfold lazyElem eagerElem
  rw [(C53_stored_partial parse hhead hname hextra hmagic hver hlen hparse hdata).1, hn]
  dsimp only
  rw [if_neg (by omega)]
  simp

/-- `bs` as a DEFLATE stream of one stored block: final block, length, complement of the length. -/
def deflated (bs : List UInt8) : List UInt8 :=
  [1] ++ leBytes 2 bs.length ++ leBytes 2 (65535 - bs.length) ++ bs

/-- C53 fails: the writer compresses the archive. The offset does not take this into account: with a stored
block the values are shifted by five bytes. -/
theorem C53_fails_written :
    lazyBytes exParse (member exHead [100] [] (deflated (exNpy 0)) ++ [8]) 0 (exNpy 0) =
      .ok ([2, 3], [0, 2, 3, 1, 0, 10]) ∧
    eagerBytes exParse (exNpy 0) = .ok ([2, 3], [10, 20, 30, 40, 50, 60]) := by
  decide +kernel

/-- C53 fails: compressed files that are smaller than the data cannot be loaded lazily. -/
theorem C53_fails_compressed {β : Type} (parse : Npy.Enc → List UInt8 → Py (List Nat × Nat × β))
    {file npy data : List UInt8} {header : Nat} {shape : List Nat} (h : eagerBytes parse npy = .ok (shape, data))
    (hsmall : file.length < data.length) : ∃ e, lazyBytes parse file header npy = .error e := by
  unfold eagerBytes at h
  unfold lazyBytes
  split at h
  · cases h
  · rename_i off sh item b rest he
    dsimp only at h ⊢
    split at h
    · cases h
    · cases h
      rw [List.length_take] at hsmall
      split
      · exact ⟨_, rfl⟩
      · rw [if_pos (by omega)]
        exact ⟨_, rfl⟩

/-- C53 fails: arrays stored in Fortran order are mapped in C order. -/
theorem C53_fails_fortran :
    lazyElem exParse (member exHead [100] [] (exNpy 1)) 0 (exNpy 1) 1 [0, 1] = .ok [20] ∧
    eagerElem exParse (exNpy 1) [0, 1] = .ok [30] := by
  decide +kernel

end Verif.Props.Pantarhei
