import Verif.Spec.Delmic
import Mathlib.Data.List.Perm.Basic
import Mathlib.Data.List.Forall2
import Mathlib.Tactic.Ring
import Mathlib.Tactic.Linarith
import Mathlib.Tactic.FieldSimp
import Mathlib.Tactic.NormNum
/-! Lemmas about sorting, places by name, and units for `Model/Delmic`. -/
namespace Verif.Delmic
open Verif

/-! ### Sorting -/

section sort
variable {α β : Type} [LinearOrder β]

theorem sortBy_perm (key : α → β) (l : List α) : (sortBy key l).Perm l := List.perm_insertionSort _ l

theorem sortBy_sorted (key : α → β) (l : List α) : (sortBy key l).Pairwise fun x y => key x ≤ key y := by
  haveI : IsTrans α fun x y => key x ≤ key y := ⟨fun _ _ _ h h' => le_trans h h'⟩
  haveI : Std.Total (α := α) fun x y => key x ≤ key y := ⟨fun _ _ => le_total _ _⟩
  exact List.pairwise_insertionSort _ l

theorem sortBy_filter (key : α → β) (k : β) (l : List α) : (sortBy key l).filter (fun x => key x = k) = l.filter fun x => key x = k := by
  haveI : IsTrans α fun x y => key x ≤ key y := ⟨fun _ _ _ h h' => le_trans h h'⟩
  haveI : Std.Total (α := α) fun x y => key x ≤ key y := ⟨fun _ _ => le_total _ _⟩
  have hp : (l.filter fun x => key x = k).Pairwise fun x y => key x ≤ key y := by
    apply List.pairwise_of_forall_mem_list
    intro a ha b hb
    simp only [List.mem_filter, decide_eq_true_eq] at ha hb
    rw [ha.2, hb.2]
  have hs : List.Sublist (l.filter fun x => key x = k) (sortBy key l) :=
    List.sublist_insertionSort hp List.filter_sublist
  have h2 := hs.filter (fun x => key x = k)
  rw [List.filter_filter] at h2
  simp only [Bool.and_self] at h2
  refine (h2.eq_of_length ?_).symm
  exact ((sortBy_perm key l).filter _).length_eq.symm

/-- A sorted list is known from its parts with one key. -/
theorem sorted_eq (key : α → β) : ∀ {l l' : List α}, l.Pairwise (fun x y => key x ≤ key y) → l'.Pairwise (fun x y => key x ≤ key y) →
    (∀ k, l.filter (fun x => key x = k) = l'.filter fun x => key x = k) → l = l'
  | [], [], _, _, _ => rfl
  | [], b :: l', _, _, h => by have := h (key b); simp at this
  | a :: l, [], _, _, h => by have := h (key a); simp at this
  | a :: l, b :: l', hl, hl', h => by
    rw [List.pairwise_cons] at hl hl'
    have hab : key a = key b := by
      apply le_antisymm
      · have : b ∈ (a :: l).filter fun x => key x = key b := by rw [h]; simp
        simp only [List.mem_filter, List.mem_cons] at this
        rcases this.1 with e | e
        · rw [e]
        · exact hl.1 _ e
      · have : a ∈ (b :: l').filter fun x => key x = key a := by rw [← h]; simp
        simp only [List.mem_filter, List.mem_cons] at this
        rcases this.1 with e | e
        · rw [e]
        · exact hl'.1 _ e
    have h1 := h (key a)
    rw [List.filter_cons_of_pos (by simp), List.filter_cons_of_pos (by simp [hab])] at h1
    obtain ⟨e, -⟩ := List.cons.inj h1
    subst e
    rw [sorted_eq key hl.2 hl'.2]
    intro k
    have := h k
    by_cases hk : key a = k
    · rw [List.filter_cons_of_pos (by simp [hk]), List.filter_cons_of_pos (by simp [hk])] at this
      exact (List.cons.inj this).2
    · rwa [List.filter_cons_of_neg (by simp [hk]), List.filter_cons_of_neg (by simp [hk])] at this

/-- In a list sorted by different keys, the number of smaller keys is the place. -/
theorem rank_at (key : α → β) : ∀ {l : List α}, l.Pairwise (fun x y => key x < key y) → ∀ i (h : i < l.length),
    (l.filter fun x => key x < key l[i]).length = i
  | [], _, i, h => by simp at h
  | a :: l, hl, 0, _ => by
    rw [List.pairwise_cons] at hl
    rw [List.length_eq_zero_iff, List.filter_eq_nil_iff]
    intro x hx
    simp only [List.getElem_cons_zero, decide_eq_true_eq, not_lt]
    rcases List.mem_cons.1 hx with e | e
    · rw [e]
    · exact (hl.1 x e).le
  | a :: l, hl, i + 1, h => by
    rw [List.pairwise_cons] at hl
    simp only [List.getElem_cons_succ]
    rw [List.filter_cons_of_pos (by simpa using hl.1 _ (List.getElem_mem _)), List.length_cons,
      rank_at key hl.2 i (by simpa using h)]

/-- The element with a given number of smaller keys is at that place of the sorted list. -/
theorem sortBy_rank (key : α → β) {l : List α} (hn : (l.map key).Nodup) {a : α} (ha : a ∈ l) :
    (sortBy key l)[(l.filter fun x => key x < key a).length]? = some a := by
  have hp := sortBy_perm key l
  have hs : (sortBy key l).Pairwise fun x y => key x < key y := by
    have h1 := sortBy_sorted key l
    have h2 : ((sortBy key l).map key).Nodup := (hp.map key).nodup_iff.2 hn
    rw [List.Nodup, List.pairwise_map] at h2
    exact (h1.and h2).imp fun h => lt_of_le_of_ne h.1 h.2
  obtain ⟨i, hi, e⟩ := List.mem_iff_getElem.1 (hp.mem_iff.2 ha)
  have := rank_at key hs i hi
  rw [e] at this
  rw [← (hp.filter _).length_eq, this, List.getElem?_eq_getElem hi, e]

end sort

/-! ### Places by name -/

theorem size_prod : ∀ l : List Nat, size l = l.prod
  | [] => rfl
  | n :: l => by rw [size, size_prod l, List.prod_cons]

/-- Removing dimensions of length one. -/
theorem squeeze_index (g : Text → Nat) : ∀ (names : List Text) (shape : List Nat), names.length = shape.length →
    squeezeIdx shape (names.map g) = (((shape.zip names).filter fun d => d.1 ≠ 1).map Prod.snd).map g
  | [], [], _ => rfl
  | t :: names, n :: shape, h => by
    have ih := squeeze_index g names shape (by simpa using h)
    by_cases h1 : n = 1
    · subst h1
      simp only [List.map_cons, squeezeIdx, if_true, List.zip_cons_cons]
      rw [ih, List.filter_cons_of_neg (by simp)]
    · simp only [List.map_cons, squeezeIdx, if_neg h1, List.zip_cons_cons]
      rw [ih, List.filter_cons_of_pos (by simpa using h1)]
      simp

theorem zip_filter_fst : ∀ (shape : List Nat) {α : Type} (l : List α), shape.length = l.length →
    (((shape.zip l).filter fun d => d.1 ≠ 1).map Prod.fst) = shape.filter (· ≠ 1)
  | [], _, [], _ => rfl
  | n :: shape, _, x :: l, h => by
    have ih := zip_filter_fst shape l (by simpa using h)
    by_cases h1 : n = 1
    · subst h1
      rw [List.zip_cons_cons, List.filter_cons_of_neg (by simp), List.filter_cons_of_neg (by simp), ih]
    · rw [List.zip_cons_cons, List.filter_cons_of_pos (by simpa using h1), List.filter_cons_of_pos (by simpa using h1), List.map_cons, ih]

theorem inBounds_of (g : Text → Nat) : ∀ (names : List Text) (shape : List Nat), names.length = shape.length →
    (∀ d ∈ names.zip shape, g d.1 < d.2) → InBounds shape (names.map g)
  | [], [], _, _ => .nil
  | t :: names, n :: shape, h, hg => by
    refine .cons (hg (t, n) (by simp)) (inBounds_of g names shape (by simpa using h) ?_)
    intro d hd
    exact hg d (by simp [hd])

/-- What `reorder` does to a signal with different names. -/
theorem reorder_ok (s : Sig) (hl : s.axes.length = s.shape.length) (hn : (s.axes.map Axis.name).Nodup)
    (hd : s.data.length = size s.shape) : ∃ s', reorder s = .ok s' ∧ s'.kind = s.kind ∧ s'.metadata = s.metadata ∧ s'.original = s.original ∧
      s'.axes.map Axis.name = sortBy axisRank (s.axes.map Axis.name) ∧ (s'.axes.zip s'.shape).Perm (s.axes.zip s.shape) ∧
      s'.axes.length = s'.shape.length ∧ s'.data.length = size s'.shape ∧
      ∀ g : Text → Nat, (∀ d ∈ s.axes.zip s.shape, g d.1.name < d.2) →
        s'.data[flatIndex s'.shape (s'.axes.map fun x => g x.name)]? = s.data[flatIndex s.shape (s.axes.map fun x => g x.name)]? := by
  unfold reorder
  dsimp only
  by_cases hs : sortBy axisRank (s.axes.map Axis.name) = s.axes.map Axis.name
  · rw [if_pos hs]
    exact ⟨s, rfl, rfl, rfl, rfl, hs.symm, List.Perm.refl _, hl, hd, fun _ _ => rfl⟩
  · rw [if_neg hs]
    have hp := sortBy_perm axisRank (s.axes.map Axis.name)
    generalize sortBy axisRank (s.axes.map Axis.name) = sorted at hp hs
    have hsn : sorted.Nodup := hp.nodup_iff.2 hn
    generalize hN : s.axes.map Axis.name = names at hp hn hs
    have hNl : names.length = s.axes.length := by rw [← hN, List.length_map]
    have hlt : ∀ n ∈ sorted, names.idxOf n < names.length := fun n h => List.idxOf_lt_length_of_mem (hp.mem_iff.1 h)
    have hget : ∀ n (h : n ∈ sorted), names[names.idxOf n]'(hlt n h) = n := fun n h => List.getElem_idxOf (hlt n h)
    have hon : (sorted.map fun n => names.idxOf n).Nodup := by
      refine List.Nodup.map_on ?_ hsn
      intro a ha b hb e
      have h1 := hget a ha
      have h2 := hget b hb
      rw [← h1, ← h2]
      simp [e]
    rw [if_neg (by simpa using hon)]
    generalize ho : (sorted.map fun n => names.idxOf n) = order at hon
    have hlt' : ∀ i ∈ order, i < s.axes.length := by
      intro i hi
      rw [← ho] at hi
      obtain ⟨n, hn', rfl⟩ := List.mem_map.1 hi
      rw [← hNl]; exact hlt n hn'
    have hax : (order.filterMap fun i => s.axes[i]?) = order.attach.map fun i => s.axes[i.1]'(hlt' _ i.2) := by
      rw [← List.filterMap_eq_map]
      conv_lhs => rw [← List.attach_map_subtype_val order, List.filterMap_map]
      apply List.filterMap_congr
      intro i _
      simp [hlt' _ i.2]
    have hperm : order.Perm (List.range s.axes.length) := by
      have : order.Perm (names.map fun n => names.idxOf n) := ho ▸ hp.map _
      refine this.trans ?_
      have : (names.map fun n => names.idxOf n) = List.range s.axes.length := by
        apply List.ext_getElem
        · simp [hNl]
        · intro i h1 h2
          simp [hn.idxOf_getElem]
      rw [this]
    have hsh : ∀ i ∈ order, s.shape.getD i 0 = s.shape.getD i 0 := fun _ _ => rfl
    -- pairs
    have hpair : (order.filterMap fun i => s.axes[i]?).zip (order.map fun i => s.shape.getD i 0) =
        order.filterMap fun i => (s.axes.zip s.shape)[i]? := by
      clear hon hperm hax hsh ho
      induction order with
      | nil => rfl
      | cons i order ih =>
        have hi := hlt' i (by simp)
        rw [List.filterMap_cons_some (List.getElem?_eq_getElem hi), List.map_cons, List.zip_cons_cons,
          ih (fun j hj => hlt' j (by simp [hj]))]
        rw [List.filterMap_cons_some (b := (s.axes[i], s.shape.getD i 0))]
        rw [List.getElem?_eq_getElem (by simp; omega)]
        have : i < s.shape.length := by omega
        simp [this]
    have hrange : ∀ {α : Type} (l : List α), (List.range l.length).filterMap (fun i => l[i]?) = l := by
      intro α l
      apply List.ext_getElem?
      intro i
      have : (List.range l.length).filterMap (fun i => l[i]?) = (List.range l.length).pmap (fun i h => l[i]'h) (fun i hi => by simpa using hi) := by
        have key : ∀ (is : List Nat) (h : ∀ i ∈ is, i < l.length), is.filterMap (fun i => l[i]?) = is.pmap (fun i h => l[i]'h) h := by
          intro is
          induction is with
          | nil => intro _; rfl
          | cons j is ih =>
            intro h
            rw [List.filterMap_cons_some (List.getElem?_eq_getElem (h j (by simp))), List.pmap, ih]
        exact key _ _
      rw [this]
      by_cases hi : i < l.length
      · simp [hi]
      · simp [hi]
    have hnames : (order.filterMap fun i => s.axes[i]?).map Axis.name = sorted := by
      rw [List.map_filterMap]
      have : ∀ n ∈ sorted, (s.axes[names.idxOf n]?).map Axis.name = some n := by
        intro n h
        have h1 := hlt n h
        have h2 := hget n h
        rw [← List.getElem?_map, hN, List.getElem?_eq_getElem h1, h2]
      rw [← ho, List.filterMap_map]
      have : ∀ l : List Text, (∀ n ∈ l, n ∈ sorted) → l.filterMap ((fun x => Option.map Axis.name s.axes[x]?) ∘ fun n => names.idxOf n) = l := by
        intro l
        induction l with
        | nil => intro _; rfl
        | cons n l ih =>
          intro h
          rw [List.filterMap_cons_some (by simpa using this n (h n (by simp))), ih (fun m hm => h m (by simp [hm]))]
      exact this sorted fun _ h => h
    have hlen : (order.filterMap fun i => s.axes[i]?).length = order.length := by
      rw [← List.length_map (f := Axis.name), hnames, ← ho, List.length_map]
    refine ⟨_, rfl, rfl, rfl, rfl, hnames, ?_, ?_, ?_, ?_⟩
    · dsimp only
      rw [hpair]
      refine (hperm.filterMap _).trans ?_
      have := hrange (s.axes.zip s.shape)
      rw [List.length_zip, ← hl, Nat.min_self] at this
      rw [this]
    · dsimp only
      rw [hlen, List.length_map]
    · dsimp only
      rw [transpose, length_ravel]
    · intro g hg
      dsimp only
      have e1 : ((order.filterMap fun i => s.axes[i]?).map fun x => g x.name) = sorted.map g := by
        rw [← hnames, List.map_map]; rfl
      have hb : InBounds s.shape (names.map g) := by
        apply inBounds_of g names s.shape (by omega)
        intro d hd'
        rw [← hN, List.zip_map_left] at hd'
        obtain ⟨d', h1, rfl⟩ := List.mem_map.1 hd'
        exact hg d' h1
      have hb' : InBounds (order.map fun i => s.shape.getD i 0) (sorted.map g) := by
        rw [← ho, List.map_map]
        unfold InBounds
        rw [List.forall₂_map_left_iff, List.forall₂_map_right_iff, List.forall₂_same]
        intro n h
        have h1 := hlt n h
        have h2 := hget n h
        have h3 : names.idxOf n < s.shape.length := by omega
        have := hb.get (i := names.idxOf n) (by simpa using h3) (by simpa using h1)
        simp only [List.get_eq_getElem, List.getElem_map, h2] at this
        simpa [h3] using this
      rw [e1, transpose, ravel_getElem _ hb']
      have e2 : ((List.range s.shape.length).map fun k => (sorted.map g).getD (order.idxOf k) 0) = names.map g := by
        apply List.ext_getElem
        · simp; omega
        · intro k h1 h2
          simp only [List.getElem_map, List.getElem_range]
          have hk : k < names.length := by simpa using h2
          have hm : names[k] ∈ sorted := hp.mem_iff.2 (List.getElem_mem _)
          have hk2 : order.idxOf k = sorted.idxOf names[k] := by
            have hi := List.idxOf_lt_length_of_mem hm
            have : order[sorted.idxOf names[k]]'(by rw [← ho, List.length_map]; exact hi) = k := by
              simp only [← ho, List.getElem_map, List.getElem_idxOf]
              exact hn.idxOf_getElem _ _
            conv_lhs => rw [← this]
            exact hon.idxOf_getElem _ _
          rw [hk2]
          have hi := List.idxOf_lt_length_of_mem hm
          simp [hi]
      rw [e2]
      have e3 : (s.axes.map fun x => g x.name) = names.map g := by rw [← hN, List.map_map]; rfl
      rw [e3]
      have : flatIndex s.shape (names.map g) < s.data.length := by rw [hd]; exact flatIndex_lt hb
      simp [this]

end Verif.Delmic
