import Verif.Lemmas.DelmicRead
/-! Removing and sorting dimensions, for `Model/Delmic`. -/
namespace Verif.Delmic
open Verif Verif.Delmic.Spec

/-- The dimensions that are kept. -/
def kept (s : Sig) : List (Nat × Axis) := (s.shape.zip s.axes).filter fun d => d.1 ≠ 1

theorem zip_proj {α β : Type} : ∀ l : List (α × β), (l.map Prod.snd).zip (l.map Prod.fst) = l.map fun d => (d.2, d.1)
  | [] => rfl
  | a :: l => by simp [zip_proj l]

/-- What becomes of a signal whose kept names are different. -/
theorem finish_ok (s : Sig) (hl : s.axes.length = s.shape.length) (hn : ((kept s).map fun d => d.2.name).Nodup)
    (hd : s.data.length = size s.shape) : ∃ s', reorder (squeeze s) = .ok s' ∧ s'.kind = s.kind ∧ s'.metadata = s.metadata ∧
      s'.original = s.original ∧ s'.axes.map Axis.name = sortBy axisRank ((kept s).map fun d => d.2.name) ∧
      (s'.axes.zip s'.shape).Perm ((kept s).map fun d => (d.2, d.1)) ∧ s'.axes.length = s'.shape.length ∧ s'.data.length = size s'.shape ∧
      ∀ g : Text → Nat, (∀ d ∈ s.axes.zip s.shape, g d.1.name < d.2) →
        s'.data[flatIndex s'.shape (s'.axes.map fun x => g x.name)]? = s.data[flatIndex s.shape (s.axes.map fun x => g x.name)]? := by
  have hsh : (squeeze s).shape = (kept s).map Prod.fst := (zip_filter_fst s.shape s.axes hl.symm).symm
  have hax : (squeeze s).axes = (kept s).map Prod.snd := rfl
  obtain ⟨s', h1, h2, h3, h4, h5, h6, h7, h8, h9⟩ := reorder_ok (squeeze s) (by rw [hsh, hax]; simp)
    (by rw [hax, List.map_map]; exact hn) (by rw [squeeze, size_squeeze]; exact hd)
  refine ⟨s', h1, h2, h3, h4, ?_, ?_, h7, h8, ?_⟩
  · rw [h5, hax, List.map_map]; rfl
  · rw [hsh, hax, zip_proj] at h6
    exact h6
  · intro g hg
    rw [h9 g]
    · have hb : InBounds s.shape ((s.axes.map Axis.name).map g) := by
        apply inBounds_of _ _ _ (by simpa using hl)
        intro d hd'
        rw [List.zip_map_left] at hd'
        obtain ⟨d', h1, rfl⟩ := List.mem_map.1 hd'
        exact hg d' h1
      have e1 : (s.axes.map fun x => g x.name) = (s.axes.map Axis.name).map g := by rw [List.map_map]; rfl
      have e2 : ((squeeze s).axes.map fun x => g x.name) = squeezeIdx s.shape ((s.axes.map Axis.name).map g) := by
        rw [squeeze_index _ _ _ (by simpa using hl), hax, kept, List.zip_map_right, List.filter_map, List.map_map, List.map_map, List.map_map]
        rfl
      rw [e1, e2, ← flatIndex_squeeze hb]
      rfl
    · intro d hd'
      rw [hsh, hax, zip_proj] at hd'
      obtain ⟨⟨n, x⟩, h1, rfl⟩ := List.mem_map.1 hd'
      have h2 := (List.mem_filter.1 h1).1
      apply hg
      rw [List.mem_iff_getElem] at h2 ⊢
      obtain ⟨i, hi, e⟩ := h2
      refine ⟨i, by simpa [Nat.min_comm] using hi, ?_⟩
      simp only [List.getElem_zip, Prod.mk.injEq] at e ⊢
      exact ⟨e.2, e.1⟩

theorem filter_one {α : Type} [DecidableEq α] {l : List α} (h : l.Nodup) (a : α) : l.filter (fun x => x = a) = if a ∈ l then [a] else [] := by
  induction l with
  | nil => rfl
  | cons b l ih =>
    rw [List.nodup_cons] at h
    by_cases e : b = a
    · subst e
      rw [List.filter_cons_of_pos (by simp), ih h.2, if_neg h.1, if_pos (by simp)]
    · rw [List.filter_cons_of_neg (by simpa using e), ih h.2]
      have : (a ∈ b :: l) ↔ a ∈ l := by simp [Ne.symm e]
      simp [this]

theorem rank_iff (n : Text) (k : Nat) (h : k < 6) : axisRank n = k ↔ n = axesOrder[k]'(by simpa [axesOrder] using h) := by
  unfold axisRank
  have hnd : axesOrder.Nodup := by decide
  constructor
  · intro e
    split_ifs at e with hm
    · subst e
      exact (List.getElem_idxOf _).symm
    · simp [axesOrder] at e; omega
  · rintro rfl
    rw [if_pos (List.getElem_mem _), hnd.idxOf_getElem]

theorem rank_last (n : Text) : axisRank n = 7 ↔ n ∉ axesOrder := by
  unfold axisRank
  constructor
  · intro e hm
    rw [if_pos hm] at e
    have := List.idxOf_lt_length_of_mem hm
    simp [axesOrder] at this e
    omega
  · intro h
    rw [if_neg h]; rfl

theorem rank_cases (n : Text) : axisRank n < 6 ∨ axisRank n = 7 := by
  unfold axisRank
  split_ifs with h
  · left
    have := List.idxOf_lt_length_of_mem h
    simpa [axesOrder] using this
  · right; rfl

/-- Sorting different names: the known ones in their order, then the others. -/
theorem sort_names {l : List Text} (hn : l.Nodup) : sortBy axisRank l = axisOrder.filter (· ∈ l) ++ l.filter (· ∉ axisOrder) := by
  have ho : axisOrder = axesOrder := rfl
  rw [ho]
  have hnd : axesOrder.Nodup := by decide
  apply sorted_eq axisRank (sortBy_sorted axisRank l)
  · rw [List.pairwise_append]
    refine ⟨?_, ?_, ?_⟩
    · have : axesOrder.Pairwise fun x y => axisRank x ≤ axisRank y := by decide
      exact this.sublist List.filter_sublist
    · apply List.pairwise_of_forall_mem_list
      intro a ha b hb
      rw [List.mem_filter, decide_eq_true_eq] at ha hb
      rw [(rank_last a).2 ha.2, (rank_last b).2 hb.2]
    · intro a ha b hb
      rw [List.mem_filter, decide_eq_true_eq] at ha hb
      rw [(rank_last b).2 hb.2]
      rcases rank_cases a with h | h <;> omega
  · intro k
    rw [sortBy_filter, List.filter_append]
    by_cases hk : k < 6
    · have e1 : ∀ m : List Text, m.filter (fun x => axisRank x = k) = m.filter fun x => x = axesOrder[k]'(by simpa [axesOrder] using hk) := by
        intro m
        apply List.filter_congr
        intro x _
        rw [decide_eq_decide]
        exact rank_iff x k hk
      rw [e1, e1, e1, filter_one hn, List.filter_filter, List.filter_filter]
      have e2 : (l.filter fun a => decide (a = axesOrder[k]'(by simpa [axesOrder] using hk)) && decide (a ∉ axesOrder)) = [] := by
        rw [List.filter_eq_nil_iff]
        intro x _ hx
        rw [Bool.and_eq_true, decide_eq_true_eq, decide_eq_true_eq] at hx
        exact hx.2 (hx.1 ▸ List.getElem_mem _)
      rw [e2, List.append_nil]
      have e3 : (axesOrder.filter fun a => decide (a = axesOrder[k]'(by simpa [axesOrder] using hk)) && decide (a ∈ l)) =
          (axesOrder.filter fun a => decide (a ∈ l)).filter fun a => a = axesOrder[k]'(by simpa [axesOrder] using hk) := by
        rw [List.filter_filter]
      rw [e3, filter_one (hnd.filter _)]
      congr 1
      rw [List.mem_filter, decide_eq_true_eq]
      exact propext ⟨fun h => ⟨List.getElem_mem _, h⟩, fun h => h.2⟩
    · have e1 : (axesOrder.filter fun a => decide (a ∈ l)).filter (fun x => axisRank x = k) = [] := by
        rw [List.filter_eq_nil_iff]
        intro x hx h
        rw [decide_eq_true_eq] at h
        rw [List.mem_filter] at hx
        rcases rank_cases x with h' | h'
        · omega
        · exact (rank_last x).1 h' hx.1
      rw [e1, List.nil_append, List.filter_filter]
      apply List.filter_congr
      intro x _
      by_cases h : axisRank x = k
      · rcases rank_cases x with h' | h'
        · omega
        · simp [h, (rank_last x).1 h']
      · simp [h]

theorem kept_axes (img : List (Text × List ℚ)) : ∀ (ls : List Text) (sh : List Nat),
    ((sh.zip ((ls.zip sh).map fun d => makeAxis img d.1 d.2)).filter fun d => d.1 ≠ 1) =
      ((ls.zip sh).filter fun d => d.2 ≠ 1).map fun d => (d.2, makeAxis img d.1 d.2)
  | [], sh => by simp
  | l :: ls, [] => by simp
  | l :: ls, n :: sh => by
    rw [List.zip_cons_cons, List.map_cons, List.zip_cons_cons]
    by_cases h : n = 1
    · rw [List.filter_cons_of_neg (by simpa using h), List.filter_cons_of_neg (by simpa using h), kept_axes img ls sh]
    · rw [List.filter_cons_of_pos (by simpa using h), List.filter_cons_of_pos (by simpa using h), kept_axes img ls sh, List.map_cons]

theorem long_nodup {r : Rec} (hr : Sound r) : (long r.acq).Nodup := by
  unfold long
  refine List.Nodup.map_on ?_ ?_
  · intro a ha b hb e
    have hm : ∀ x ∈ ((r.acq.labels.zip r.acq.shape).filter fun d => d.2 ≠ 1).map Prod.fst, x ∈ r.acq.labels := by
      intro x hx
      obtain ⟨d, h1, rfl⟩ := List.mem_map.1 hx
      exact (List.of_mem_zip (List.mem_filter.1 h1).1).1
    exact nameOf_inj (fun t ht => ⟨fun h => hr.names t ht (h ▸ hm a ha), fun h => hr.names t ht (h ▸ hm b hb)⟩) e
  · have h1 : List.Sublist (((r.acq.labels.zip r.acq.shape).filter fun d => d.2 ≠ 1).map Prod.fst) ((r.acq.labels.zip r.acq.shape).map Prod.fst) :=
      List.filter_sublist.map _
    rw [List.map_fst_zip (by rw [hr.labels, hr.shape])] at h1
    exact hr.distinct.sublist h1

theorem one_ok {utc : Utc} {r : Rec} {s : Sig} (hr : Sound r) (h : IsRead utc r s) :
    ∃ s', reorder (squeeze s) = .ok s' ∧ Shows r s' ∧ OneMeta utc r s' := by
  have hls : r.acq.labels.length = r.acq.shape.length := by rw [hr.labels, hr.shape]
  have hk : kept s = ((r.acq.labels.zip r.acq.shape).filter fun d => d.2 ≠ 1).map fun d => (d.2, makeAxis r.acq.image d.1 d.2) := by
    rw [kept, h.shape, h.axes, makeAxes, kept_axes]
  have hkn : ((kept s).map fun d => d.2.name) = long r.acq := by
    rw [hk, long, List.map_map, List.map_map]
    apply List.map_congr_left
    intro d _
    exact (makeAxis_shows hr.image d.1 d.2).1
  have hl : s.axes.length = s.shape.length := by
    rw [h.axes, h.shape, makeAxes, List.length_map, List.length_zip, hls, Nat.min_self]
  obtain ⟨s', h1, h2, h3, h4, h5, h6, h7, h8, h9⟩ := finish_ok s hl (by rw [hkn]; exact long_nodup hr)
    (by rw [h.data, h.shape, hr.data, size_prod])
  have hmem : ∀ x n, (x, n) ∈ s'.axes.zip s'.shape → ∃ l, (l, n) ∈ r.acq.labels.zip r.acq.shape ∧ x = makeAxis r.acq.image l n := by
    intro x n hx
    have := h6.mem_iff.1 hx
    rw [hk, List.map_map] at this
    obtain ⟨d, hd, e⟩ := List.mem_map.1 this
    obtain ⟨rfl, rfl⟩ := Prod.mk.inj e
    exact ⟨d.1, (List.mem_filter.1 hd).1, rfl⟩
  refine ⟨s', h1, ⟨by rw [h2, h.kind], ?_, ?_, ?_, by rw [h8, size_prod], ?_⟩, ?_⟩
  · rw [h5, hkn, sort_names (long_nodup hr)]
  · intro x hx
    obtain ⟨i, hi, e⟩ := List.mem_iff_getElem.1 hx
    have : (s'.axes[i], s'.shape[i]'(h7 ▸ hi)) ∈ s'.axes.zip s'.shape := by
      rw [List.mem_iff_getElem]
      exact ⟨i, by simp [h7 ▸ hi, hi], by simp⟩
    obtain ⟨l, h10, h11⟩ := hmem _ _ this
    refine ⟨_, h10, ?_⟩
    rw [← e, h11]
    exact makeAxis_shows hr.image _ _
  · rw [List.forall₂_map_left_iff, List.forall₂_iff_zip]
    refine ⟨h7, fun {x n} hx => ?_⟩
    obtain ⟨l, h10, h11⟩ := hmem x n hx
    exact ⟨l, h10, by rw [h11]; exact (makeAxis_shows hr.image _ _).1⟩
  · intro g hg
    have e1 : (s.axes.map fun x => g x.name) = r.acq.labels.map fun l => g (nameOf l) := by
      have := makeAxes_names r.acq hls hr.image
      rw [h.axes]
      have e := congrArg (List.map g) this
      rw [List.map_map, List.map_map] at e
      exact e
    rw [h9 g, e1, h.data, h.shape]
    intro d hd
    rw [h.axes, h.shape, makeAxes] at hd
    obtain ⟨i, hi, e⟩ := List.mem_iff_getElem.1 hd
    have hi' : i < (r.acq.labels.zip r.acq.shape).length := by simp at hi ⊢; omega
    have := hg ((r.acq.labels.zip r.acq.shape)[i]) (List.getElem_mem _)
    rw [← e]
    simp only [List.getElem_zip, List.getElem_map] at this ⊢
    rw [(makeAxis_shows hr.image _ _).1]
    exact this
  · unfold OneMeta
    rw [h3, h4]
    exact h.info

end Verif.Delmic
