import Verif.Spec.Tofwerk
import Mathlib.Order.Basic
/-! Lemmas on the reconstruction of peak data. -/
namespace Verif.Tofwerk
open Verif.Spec.Tofwerk

theorem takeAll_ok {α : Type} {l : List α} : ∀ {σ : List Nat} {vs : List α},
    σ.map (l[·]?) = vs.map some → takeAll l σ = .ok vs
  | [], vs, h => by
    cases vs with
    | nil => rfl
    | cons v vs => cases h
  | k :: σ, vs, h => by
    cases vs with
    | nil => cases h
    | cons v vs =>
      rw [List.map_cons, List.map_cons, List.cons.injEq] at h
      rw [takeAll, h.1]
      dsimp only
      rw [takeAll_ok h.2]

theorem takeAll_inv {α : Type} {l : List α} : ∀ {σ : List Nat} {vs : List α},
    takeAll l σ = .ok vs → σ.map (l[·]?) = vs.map some
  | [], vs, h => by
    rw [takeAll] at h
    cases h
    rfl
  | k :: σ, vs, h => by
    rw [takeAll] at h
    split at h
    · cases h
    · rename_i v hv
      split at h
      · cases h
      · rename_i ws hws
        cases h
        rw [List.map_cons, List.map_cons, hv, takeAll_inv hws]

theorem takeAll_exists {α : Type} {l : List α} : ∀ {σ : List Nat}, (∀ k ∈ σ, k < l.length) →
    takeAll l σ = .ok (σ.filterMap (l[·]?))
  | [], _ => rfl
  | k :: σ, h => by
    have hk := h k List.mem_cons_self
    rw [takeAll, List.filterMap_cons, List.getElem?_eq_getElem hk]
    dsimp only
    rw [takeAll_exists fun k hk => h k (List.mem_cons_of_mem _ hk)]

theorem map_of_takeAll {α : Type} {l : List α} {σ : List Nat} {vs : List α} (h : takeAll l σ = .ok vs)
    {i k : Nat} (hk : σ[i]? = some k) : vs[i]? = l[k]? := by
  have := congrArg (fun x => x[i]?) (takeAll_inv h)
  simp only [List.getElem?_map, hk, Option.map_some] at this
  cases hv : vs[i]? with
  | none => rw [hv] at this; cases this
  | some v => rw [hv] at this; exact (Option.some.inj this).symm

theorem length_of_takeAll {α : Type} {l : List α} {σ : List Nat} {vs : List α} (h : takeAll l σ = .ok vs) :
    vs.length = σ.length := by
  have := congrArg List.length (takeAll_inv h)
  simpa using this.symm

theorem searchRight_iff {m : Rat} : ∀ {l : List Rat}, l.Pairwise (· ≤ ·) → ∀ {i : Nat} {x : Rat}, l[i]? = some x →
    (i < searchRight l m ↔ x ≤ m)
  | a :: l, h, i, x, hx => by
    rw [List.pairwise_cons] at h
    unfold searchRight
    by_cases ha : a ≤ m
    · rw [List.countP_cons_of_pos (by simpa using ha)]
      cases i with
      | zero =>
        cases hx
        exact ⟨fun _ => ha, fun _ => Nat.succ_pos _⟩
      | succ i =>
        rw [List.getElem?_cons_succ] at hx
        have := searchRight_iff (m := m) h.2 hx
        unfold searchRight at this
        rw [← this]
        omega
    · have h0 : List.countP (fun x => decide (x ≤ m)) (a :: l) = 0 := by
        rw [List.countP_eq_zero]
        intro y hy
        rw [decide_eq_true_iff]
        intro hle
        rcases List.mem_cons.1 hy with rfl | hy
        · exact ha hle
        · exact ha (le_trans (h.1 y hy) hle)
      rw [h0]
      refine ⟨fun h => absurd h (Nat.not_lt_zero _), fun hxm => ?_⟩
      exfalso
      cases i with
      | zero => cases hx; exact ha hxm
      | succ i =>
        rw [List.getElem?_cons_succ] at hx
        exact ha (le_trans (h.1 x (List.mem_of_getElem? hx)) hxm)

theorem searchRight_le (l : List Rat) (m : Rat) : searchRight l m ≤ l.length := List.countP_le_length

/-- The bin of an event. -/
def bin (S : Setup) (e : Nat) : Option Nat :=
  if S.samples ≤ e / S.clock then none
  else match S.mass[e / S.clock]? with
    | none => none
    | some m => match searchRight S.low m with
      | 0 => none
      | b + 1 => match S.high[b]? with
        | none => none
        | some h => if m ≤ h then some b else none

/-- What both implementations need of their input. -/
structure Ok (S : Setup) : Prop where
  samples : S.samples ≤ S.mass.length
  high : S.high.length = S.low.length

theorem bin_lt {S : Setup} (hS : Ok S) {e b : Nat} (h : bin S e = some b) : b < S.low.length := by
  unfold bin at h
  split at h
  · cases h
  · split at h
    · cases h
    · split at h
      · cases h
      · split at h
        · cases h
        · rename_i b' _ x hx
          split at h
          · cases h
            have := (List.getElem?_eq_some_iff.1 hx).1
            rw [hS.high] at this
            exact this
          · cases h

theorem accumulateEvent_ok {S : Setup} (hS : Ok S) (hc : S.clock ≠ 0) (x e : Nat) (r : List (List Nat)) :
    accumulateEvent S x e r = .ok (match bin S e with
      | none => r
      | some b => bump r x b) := by
  unfold accumulateEvent bin
  rw [if_neg hc]
  by_cases hs : S.samples ≤ e / S.clock
  · rw [if_pos hs, if_pos hs]
  · rw [if_neg hs, if_neg hs]
    have hlt : e / S.clock < S.mass.length := by have := hS.samples; omega
    rw [List.getElem?_eq_getElem hlt]
    dsimp only
    cases hb : searchRight S.low S.mass[e / S.clock] with
    | zero => rfl
    | succ b =>
      dsimp only
      have hbl : b < S.high.length := by
        have := searchRight_le S.low S.mass[e / S.clock]
        rw [hS.high]
        omega
      rw [List.getElem?_eq_getElem hbl]
      dsimp only
      split <;> rfl

/-- One more in the bin of the event. -/
def addEvent (S : Setup) (row : List Nat) (e : Nat) : List Nat :=
  match bin S e with
  | none => row
  | some b => row.modify b (· + 1)

theorem modify_id {α : Type} {f : α → α} (hf : ∀ a, f a = a) : ∀ (l : List α) (i : Nat), l.modify i f = l
  | [], i => by simp
  | a :: l, 0 => by simp [hf]
  | a :: l, i + 1 => by rw [List.modify_succ_cons, modify_id hf l i]

theorem modify_modify {α : Type} (f g : α → α) : ∀ (l : List α) (i : Nat),
    (l.modify i f).modify i g = l.modify i fun a => g (f a)
  | [], i => by simp
  | a :: l, 0 => by simp
  | a :: l, i + 1 => by rw [List.modify_succ_cons, List.modify_succ_cons, List.modify_succ_cons, modify_modify f g l i]

theorem accumulatePixel_ok {S : Setup} (hS : Ok S) (hc : S.clock ≠ 0) (x : Nat) :
    ∀ (es before after : List Nat) (r : List (List Nat)),
      accumulatePixel S (before ++ es ++ after) x before.length es.length r =
        .ok (r.modify x fun row => es.foldl (addEvent S) row)
  | [], before, after, r => by
    rw [List.length_nil, accumulatePixel]
    simp only [List.foldl_nil]
    rw [modify_id (fun _ => rfl)]
  | e :: es, before, after, r => by
    rw [List.length_cons, accumulatePixel]
    have he : (before ++ (e :: es) ++ after)[before.length]? = some e := by
      rw [List.append_assoc, List.getElem?_append_right (Nat.le_refl _)]
      simp
    rw [he]
    dsimp only
    rw [accumulateEvent_ok hS hc]
    dsimp only
    have := accumulatePixel_ok hS hc x es (before ++ [e]) after
      (match bin S e with | none => r | some b => bump r x b)
    rw [List.length_append, List.length_singleton] at this
    rw [show before ++ (e :: es) ++ after = before ++ [e] ++ es ++ after by simp, this]
    congr 1
    cases hb : bin S e with
    | none =>
      have : addEvent S = addEvent S := rfl
      congr 1
      funext row
      rw [List.foldl_cons]
      congr 1
      unfold addEvent
      rw [hb]
    | some b =>
      dsimp only
      unfold bump
      rw [modify_modify]
      congr 1
      funext row
      rw [List.foldl_cons]
      congr 1
      unfold addEvent
      rw [hb]

/-- Pixels from `x` on. -/
def addRows (S : Setup) : Nat → List (List Nat) → List (List Nat) → List (List Nat)
  | _, [], r => r
  | x, es :: rest, r => addRows S (x + 1) rest (r.modify x fun row => es.foldl (addEvent S) row)

theorem accumulate_ok {S : Setup} (hS : Ok S) (hc : S.clock ≠ 0) :
    ∀ (rest : List (List Nat)) (before offsets : List Nat) (x : Nat) (r : List (List Nat)),
      offsets[x]? = some before.length →
      (∀ j n, (cumsum before.length (rest.map List.length))[j]? = some n → offsets[x + 1 + j]? = some n) →
      accumulate S (before ++ rest.flatten) offsets x rest.length r = .ok (addRows S x rest r)
  | [], before, offsets, x, r, _, _ => rfl
  | es :: rest, before, offsets, x, r, h0, h1 => by
    rw [List.length_cons, accumulate, h0]
    have hstop : offsets[x + 1]? = some (before.length + es.length) := by
      have := h1 0 (before.length + es.length) (by rw [List.map_cons, cumsum, List.getElem?_cons_zero])
      simpa using this
    rw [hstop]
    dsimp only
    rw [Nat.add_sub_cancel_left, List.flatten_cons, ← List.append_assoc, accumulatePixel_ok hS hc]
    dsimp only
    have := accumulate_ok hS hc rest (before ++ es) offsets (x + 1)
      (r.modify x fun row => es.foldl (addEvent S) row) (by rw [List.length_append]; exact hstop) (by
        intro j n hj
        rw [show x + 1 + 1 + j = x + 1 + (j + 1) by omega]
        refine h1 (j + 1) n ?_
        rw [List.map_cons, cumsum, List.getElem?_cons_succ]
        rw [List.length_append] at hj
        exact hj)
    rw [this]
    rfl

theorem addRows_replicate (S : Setup) (zero : List Nat) : ∀ (rest done : List (List Nat)),
    addRows S done.length rest (done ++ List.replicate rest.length zero) =
      done ++ rest.map fun es => es.foldl (addEvent S) zero
  | [], done => by simp [addRows]
  | es :: rest, done => by
    rw [addRows, List.length_cons, List.replicate_succ]
    have hm : (done ++ zero :: List.replicate rest.length zero).modify done.length
        (fun row => es.foldl (addEvent S) row) =
        (done ++ [es.foldl (addEvent S) zero]) ++ List.replicate rest.length zero := by
      clear * -
      induction done with
      | nil => simp
      | cons d done ih =>
        rw [List.cons_append, List.length_cons, List.modify_succ_cons, ih]
        simp
    rw [hm]
    have := addRows_replicate S zero rest (done ++ [es.foldl (addEvent S) zero])
    rw [List.length_append, List.length_singleton] at this
    rw [this]
    simp

theorem numba_sorted {S : Setup} (hS : Ok S) (hc : S.clock ≠ 0) (row : List (List Nat)) :
    accumulate S (flattenRow row).1 (flattenRow row).2 0 row.length
        (List.replicate row.length (List.replicate S.low.length 0)) =
      .ok (row.map fun es => es.foldl (addEvent S) (List.replicate S.low.length 0)) := by
  have hflat : (flattenRow row).1 = row.flatten := by
    unfold flattenRow
    dsimp only
    split
    · rfl
    · rename_i h
      have hsum : ∀ (row : List (List Nat)) (a : Nat), (cumsum a (row.map List.length)).getLastD a = a + row.flatten.length := by
        intro row
        induction row with
        | nil => intro a; rfl
        | cons es row ih =>
          intro a
          rw [List.map_cons, cumsum, List.getLastD_cons, ih, List.flatten_cons, List.length_append]
          omega
      rw [List.getLastD_cons, hsum, Nat.zero_add] at h
      have : row.flatten.length = 0 := by omega
      rw [List.length_eq_zero_iff.1 this]
  have := accumulate_ok hS hc row [] (flattenRow row).2 0 (List.replicate row.length (List.replicate S.low.length 0))
    rfl (by
      intro j n hj
      rw [show 0 + 1 + j = j + 1 by omega]
      exact hj)
  rw [List.nil_append, ← hflat] at this
  rw [this]
  have := addRows_replicate S (List.replicate S.low.length 0) row []
  rw [List.length_nil, List.nil_append, List.nil_append] at this
  rw [this]

theorem foldl_addEvent (S : Setup) : ∀ (es : List Nat) (row : List Nat) (b : Nat),
    (es.foldl (addEvent S) row)[b]? = row[b]?.map (· + es.countP fun e => bin S e = some b)
  | [], row, b => by
    simp only [List.foldl_nil, List.countP_nil, Nat.add_zero]
    cases row[b]? <;> rfl
  | e :: es, row, b => by
    rw [List.foldl_cons, foldl_addEvent S es, List.countP_cons]
    unfold addEvent
    cases hb : bin S e with
    | none => simp
    | some c =>
      dsimp only
      rw [List.getElem?_modify]
      by_cases hcb : c = b
      · subst hcb
        cases row[c]? with
        | none => rfl
        | some v =>
          simp
          omega
      · simp only [if_neg hcb]
        cases row[b]? with
        | none => rfl
        | some v => simp [hcb]

theorem foldl_zeros (S : Setup) (es : List Nat) :
    es.foldl (addEvent S) (List.replicate S.low.length 0) =
      (List.range S.low.length).map fun b => es.countP fun e => bin S e = some b := by
  refine List.ext_getElem? ?_
  intro b
  rw [foldl_addEvent, List.getElem?_replicate, List.getElem?_map]
  by_cases hb : b < S.low.length
  · rw [if_pos hb, List.getElem?_range hb]
    simp
  · rw [if_neg hb, List.getElem?_eq_none (by rw [List.length_range]; omega)]
    rfl

/-- The bins that `binsOf` finds. -/
theorem binsOf_ok {S : Setup} (hS : Ok S) (hn : S.low ≠ []) : ∀ (es : List Nat),
    binsOf S ((es.map (· / S.clock)).filter (· < S.samples)) = .ok (es.filterMap (bin S))
  | [] => rfl
  | e :: es => by
    rw [List.map_cons, List.filterMap_cons]
    generalize hB : es.filterMap (bin S) = B
    have ih : binsOf S ((es.map (· / S.clock)).filter (· < S.samples)) = .ok B := by rw [← hB]; exact binsOf_ok hS hn es
    by_cases hs : e / S.clock < S.samples
    · rw [List.filter_cons_of_pos (by simpa using hs), binsOf]
      have hlt : e / S.clock < S.mass.length := by have := hS.samples; omega
      unfold bin
      rw [if_neg (by omega), List.getElem?_eq_getElem hlt]
      dsimp only
      have hpos : 0 < S.low.length := List.length_pos_iff.2 hn
      have hle := searchRight_le S.low S.mass[e / S.clock]
      cases hb : searchRight S.low S.mass[e / S.clock] with
      | zero =>
        dsimp only
        have hg : ∃ h, pyGet S.high (((0 : Nat) : Int) - 1) = .ok h := by
          unfold pyGet
          rw [if_neg (by omega)]
          have e1 : (-(((0 : Nat) : Int) - 1)).toNat = 1 := rfl
          have hlt : S.high.length - 1 < S.high.length := by rw [hS.high]; omega
          rw [e1, if_pos (by rw [hS.high]; omega), List.getElem?_eq_getElem hlt]
          exact ⟨_, rfl⟩
        obtain ⟨h, hh⟩ := hg
        rw [hh]
        dsimp only
        rw [ih]
        dsimp only
        rw [if_neg (by omega)]
      | succ b =>
        dsimp only
        have hbl : b < S.high.length := by rw [hS.high]; omega
        have hg : pyGet S.high (((b + 1 : Nat) : Int) - 1) = .ok S.high[b] := by
          unfold pyGet
          have e1 : (((b + 1 : Nat) : Int) - 1) = (b : Int) := by omega
          rw [e1, if_pos (by omega), Int.toNat_natCast, List.getElem?_eq_getElem hbl]
        rw [hg]
        dsimp only
        rw [ih, List.getElem?_eq_getElem hbl]
        dsimp only
        have e1 : (((b + 1 : Nat) : Int) - 1) = (b : Int) := by omega
        rw [e1, Int.toNat_natCast]
        by_cases hm : S.mass[e / S.clock] ≤ S.high[b]
        · rw [if_pos ⟨by omega, by omega, hm⟩, if_pos hm]
        · rw [if_neg (fun h => hm h.2.2), if_neg hm]
    · rw [List.filter_cons_of_neg (by simpa using hs), ih]
      unfold bin
      rw [if_pos (by omega)]

theorem count_filterMap (S : Setup) (b : Nat) : ∀ es : List Nat,
    (es.filterMap (bin S)).count b = es.countP fun e => bin S e = some b
  | [] => rfl
  | e :: es => by
    rw [List.filterMap_cons, List.countP_cons, ← count_filterMap S b es]
    cases hb : bin S e with
    | none => simp
    | some c =>
      dsimp only
      rw [List.count_cons]
      by_cases hcb : c = b
      · subst hcb; simp
      · simp [hcb]

theorem scatter_get : ∀ {σ cs row : List Nat}, σ.length = cs.length → σ.Nodup → ∀ k,
    (scatter σ cs row)[k]? = if k ∈ σ then (if k < row.length then cs[σ.idxOf k]? else none) else row[k]?
  | [], cs, row, _, _, k => by
    cases cs <;> simp [scatter]
  | s :: σ, [], row, hl, _, k => by cases hl
  | s :: σ, c :: cs, row, hl, hnd, k => by
    rw [List.nodup_cons] at hnd
    rw [scatter, scatter_get (by simpa using hl) hnd.2, List.length_set]
    by_cases hs : s = k
    · subst hs
      rw [if_neg hnd.1, if_pos List.mem_cons_self, List.getElem?_set_self', List.idxOf_cons_self]
      by_cases hlt : s < row.length
      · rw [if_pos hlt, List.getElem?_eq_getElem hlt]
        rfl
      · rw [if_neg hlt, List.getElem?_eq_none (by omega)]
        rfl
    · rw [List.idxOf_cons, show (s == k) = false by simpa using hs, cond_false, List.getElem?_set_ne hs, List.getElem?_cons_succ]
      have : (k ∈ s :: σ) ↔ k ∈ σ := by
        rw [List.mem_cons]
        exact ⟨fun h => h.resolve_left fun e => hs e.symm, Or.inr⟩
      simp only [this]

/-- The counts of a pixel in the order of the table. -/
def counts (S : Setup) (σ : List Nat) (es : List Nat) : List Nat :=
  (List.range σ.length).map fun p => es.countP fun e => bin S e = some (σ.idxOf p)

theorem numpyPixel_ok {S : Setup} (hS : Ok S) (hn : S.low ≠ []) {σ : List Nat}
    (hσ : σ.Perm (List.range S.low.length)) (es : List Nat) : numpyPixel S σ es = .ok (counts S σ es) := by
  have hsl : σ.length = S.low.length := by rw [hσ.length_eq, List.length_range]
  have hnd : σ.Nodup := hσ.nodup_iff.2 List.nodup_range
  have hzero : (∀ e ∈ es, bin S e = none) → List.replicate S.low.length 0 = counts S σ es := by
    intro h
    unfold counts
    rw [hsl]
    refine List.ext_getElem? ?_
    intro b
    rw [List.getElem?_replicate, List.getElem?_map]
    by_cases hb : b < S.low.length
    · rw [if_pos hb, List.getElem?_range hb, Option.map_some]
      congr 1
      symm
      rw [List.countP_eq_zero]
      intro e he
      rw [h e he]
      simp
    · rw [if_neg hb, List.getElem?_eq_none (by rw [List.length_range]; omega)]
      rfl
  unfold numpyPixel
  dsimp only
  by_cases h0 : es.length = 0
  · rw [if_pos h0]
    rw [List.length_eq_zero_iff] at h0
    rw [hzero (by rw [h0]; intro e he; cases he)]
  · rw [if_neg h0]
    by_cases hv : ((es.map (· / S.clock)).filter (· < S.samples)).length = 0
    · rw [if_pos hv]
      rw [hzero]
      intro e he
      rw [List.length_eq_zero_iff, List.filter_eq_nil_iff] at hv
      have := hv (e / S.clock) (List.mem_map.2 ⟨e, he, rfl⟩)
      unfold bin
      rw [if_pos (by simpa using this)]
    · rw [if_neg hv, binsOf_ok hS hn]
      dsimp only
      congr 1
      refine List.ext_getElem? ?_
      intro k
      rw [scatter_get (by unfold bincount; rw [List.length_map, List.length_range, hsl]) hnd]
      unfold counts bincount
      rw [List.getElem?_map, hsl]
      by_cases hk : k < S.low.length
      · have hmem : k ∈ σ := by rw [hσ.mem_iff, List.mem_range]; exact hk
        have hidx : σ.idxOf k < S.low.length := by rw [← hsl]; exact List.idxOf_lt_length_of_mem hmem
        rw [if_pos hmem, if_pos (by rw [List.length_replicate]; exact hk), List.getElem?_map,
          List.getElem?_range hidx, List.getElem?_range hk, Option.map_some, Option.map_some, count_filterMap]
      · have hmem : k ∉ σ := by rw [hσ.mem_iff, List.mem_range]; exact hk
        rw [if_neg hmem, List.getElem?_replicate, if_neg hk,
          List.getElem?_eq_none (by rw [List.length_map, List.length_range]; omega)]

theorem numpyRow_ok {S : Setup} (hS : Ok S) (hn : S.low ≠ []) {σ : List Nat}
    (hσ : σ.Perm (List.range S.low.length)) : ∀ row, numpyRow S σ row = .ok (row.map (counts S σ))
  | [] => rfl
  | es :: row => by
    rw [numpyRow, numpyPixel_ok hS hn hσ]
    dsimp only
    rw [numpyRow_ok hS hn hσ row]
    rfl

/-! ### Sorting -/

theorem pairwise_le_perm_eq : ∀ {l l' : List Nat}, l.Perm l' → l.Pairwise (· ≤ ·) → l'.Pairwise (· ≤ ·) → l = l' := by
  intro l l' hp h1 h2
  exact hp.eq_of_pairwise (fun a b _ _ h h' => Nat.le_antisymm h h') h1 h2

theorem filterMap_range {α : Type} (l : List α) : (List.range l.length).filterMap (l[·]?) = l := by
  refine List.ext_getElem? ?_
  have : (List.range l.length).filterMap (l[·]?) = l := by
    have h := takeAll_exists (l := l) (σ := List.range l.length) (by intro k hk; exact List.mem_range.1 hk)
    have h2 : takeAll l (List.range l.length) = .ok l := by
      refine takeAll_ok ?_
      refine List.ext_getElem? ?_
      intro i
      rw [List.getElem?_map, List.getElem?_map]
      by_cases hi : i < l.length
      · rw [List.getElem?_range hi, Option.map_some, List.getElem?_eq_getElem hi]
        rfl
      · rw [List.getElem?_eq_none (by rw [List.length_range]; omega), List.getElem?_eq_none (by omega)]
        rfl
    rw [h] at h2
    exact Except.ok.inj h2
  intro i
  rw [this]

/-- Sorting the positions of a permutation gives its inverse. -/
theorem argsort_perm {n : Nat} {σ inv : List Nat} (hσ : σ.Perm (List.range n)) (hi : IsArgsort σ inv) :
    inv = (List.range n).map fun p => σ.idxOf p := by
  have hsl : σ.length = n := by rw [hσ.length_eq, List.length_range]
  have hnd : σ.Nodup := hσ.nodup_iff.2 List.nodup_range
  obtain ⟨hp, hs⟩ := hi
  rw [hsl] at hp
  have hlt : ∀ k ∈ inv, k < σ.length := by
    intro k hk
    rw [hp.mem_iff, List.mem_range] at hk
    omega
  have hcomp : inv.filterMap (σ[·]?) = List.range n := by
    refine pairwise_le_perm_eq ?_ ?_ ?_
    · refine (List.Perm.filterMap _ hp).trans ?_
      rw [← hsl, filterMap_range]
      rw [hsl]
      exact hσ
    · rw [List.pairwise_filterMap]
      refine hs.imp ?_
      intro a b h x hx y hy
      exact h x y hx hy
    · exact List.pairwise_lt_range.imp fun h => Nat.le_of_lt h
  have htake := takeAll_inv (takeAll_exists hlt)
  rw [hcomp] at htake
  refine List.ext_getElem? ?_
  intro p
  rw [List.getElem?_map]
  have hpl : inv.length = n := by rw [hp.length_eq, List.length_range]
  by_cases hpn : p < n
  · have h1 := congrArg (fun x => x[p]?) htake
    simp only [List.getElem?_map] at h1
    have hpi : p < inv.length := by omega
    rw [List.getElem?_range hpn, List.getElem?_eq_getElem hpi] at h1
    have h2 : σ[inv[p]]? = some p := by simpa using h1
    obtain ⟨h3, h4⟩ := List.getElem?_eq_some_iff.1 h2
    rw [List.getElem?_eq_getElem hpi, List.getElem?_range hpn, Option.map_some]
    congr 1
    conv_rhs => rw [← h4]
    exact (hnd.idxOf_getElem _ h3).symm
  · rw [List.getElem?_eq_none (by omega), List.getElem?_eq_none (by rw [List.length_range]; omega)]
    rfl

theorem takeColumns_ok {σ : List Nat} : ∀ {r : List (List Nat)}, (∀ row ∈ r, ∀ k ∈ σ, k < row.length) →
    takeColumns r σ = .ok (r.map fun row => σ.filterMap (row[·]?))
  | [], _ => rfl
  | row :: r, h => by
    rw [takeColumns, takeAll_exists (h row List.mem_cons_self)]
    dsimp only
    rw [takeColumns_ok fun row hr => h row (List.mem_cons_of_mem _ hr)]
    rfl

theorem numbaRow_ok {S : Setup} (hS : Ok S) (hc : S.clock ≠ 0) {σ inv : List Nat}
    (hσ : σ.Perm (List.range S.low.length)) (hi : IsArgsort σ inv) (row : List (List Nat)) :
    numbaRow S inv row = .ok (row.map (counts S σ)) := by
  have hsl : σ.length = S.low.length := by rw [hσ.length_eq, List.length_range]
  unfold numbaRow
  have h := numba_sorted hS hc row
  rw [show flattenRow row = ((flattenRow row).1, (flattenRow row).2) from rfl]
  dsimp only
  rw [h]
  dsimp only
  rw [argsort_perm hσ hi]
  have hlt : ∀ k ∈ (List.range S.low.length).map (fun p => σ.idxOf p), k < S.low.length := by
    intro k hk
    rw [List.mem_map] at hk
    obtain ⟨p, hp, rfl⟩ := hk
    rw [← hsl]
    refine List.idxOf_lt_length_of_mem ?_
    rw [hσ.mem_iff]
    exact hp
  rw [takeColumns_ok (by
    intro row' hr k hk
    rw [List.mem_map] at hr
    obtain ⟨es, -, rfl⟩ := hr
    rw [foldl_zeros, List.length_map, List.length_range]
    exact hlt k hk)]
  rw [List.map_map]
  congr 1
  refine List.map_congr_left ?_
  intro es _
  show _ = counts S σ es
  dsimp only [Function.comp_apply]
  rw [foldl_zeros]
  unfold counts
  rw [hsl, List.filterMap_map]
  have key : ∀ l : List Nat, (∀ p ∈ l, p ∈ List.range S.low.length) →
      l.filterMap ((fun x => ((List.range S.low.length).map fun b => es.countP fun e => bin S e = some b)[x]?) ∘
        fun p => σ.idxOf p) = l.map fun p => es.countP fun e => bin S e = some (σ.idxOf p) := by
    intro l
    induction l with
    | nil => intro _; rfl
    | cons p l ih =>
      intro h
      rw [List.filterMap_cons, List.map_cons, ih fun p hp => h p (List.mem_cons_of_mem _ hp)]
      dsimp only [Function.comp_apply]
      rw [List.getElem?_map, List.getElem?_range (hlt _ (List.mem_map.2 ⟨p, h p List.mem_cons_self, rfl⟩))]
      rfl
  exact key _ fun _ h => h

end Verif.Tofwerk
