import Verif.Lemmas.EmdNcemSignal
import Mathlib.Tactic.Linarith
/-! Lemmas for EMD files: stacks of datasets. -/
namespace Verif.Lemmas.EmdNcem
open Verif Verif.EmdNcem Verif.Spec.EmdNcem

theorem isclose_iff (a b : ℚ) : isclose a b = true ↔ |a - b| ≤ max |a| |b| / 10000 := by
  unfold isclose
  rw [decide_eq_true_iff]
  have e : 1 / 10000 * max |a| |b| = max |a| |b| / 10000 := by ring
  rw [e]
  constructor
  · rintro (rfl | h)
    · rw [sub_self, abs_zero]
      have : 0 ≤ max |a| |a| := le_max_of_le_left (abs_nonneg a)
      linarith
    · exact h
  · exact Or.inr

/-- The calibration of the axis of a stack. -/
theorem stackCal_ok {f : File} {om : Original} {key : Text} {n : Nat}
    (h : Prismatic f → Has "depth".toList key → ∃ b o s u, om.simulation = some b ∧ Depth b n o s u) :
    ∃ o s u, stackCal f om key n = .ok (o, s, u) ∧ (¬ (Prismatic f ∧ Has "depth".toList key) → o = 0 ∧ s = 1 ∧ u = none) ∧
      (Prismatic f ∧ Has "depth".toList key → ∃ b, om.simulation = some b ∧ Depth b n o s u) := by
  unfold stackCal
  by_cases hp : Prismatic f ∧ Has "depth".toList key
  · rw [if_pos ⟨prismatic_iff.2 hp.1, inText_iff.2 hp.2⟩]
    obtain ⟨b, o, s, u, hb, hd⟩ := h hp.1 hp.2
    refine ⟨o, s, u, ?_, fun h => absurd hp h, fun _ => ⟨b, hb, hd⟩⟩
    obtain ⟨slices, thick, start, tile, cell, ts, cs, h1, h2, h3, h4, h5, h6, h7, hd⟩ := hd
    have e1 : depthScale b = .ok (slices * thick) := by
      unfold depthScale; rw [h1, h2]; rfl
    have e2 : ∀ sc, depthOffset b sc = .ok (if start = 0 then sc else start) := by
      intro sc; unfold depthOffset; rw [h3]; rfl
    have e3 : element b "tile".toList 2 = .ok tile := by unfold element; rw [h4]; dsimp only; rw [h5]
    have e4 : element b "cellDimension".toList 0 = .ok cell := by unfold element; rw [h6]; dsimp only; rw [h7]
    rw [hb]
    simp only [Option.getD_some, e1, e2, e3, e4, bind, Except.bind]
    rcases hd with ⟨hc, rfl, rfl, ho1, ho2⟩ | ⟨hc, rfl, rfl, rfl⟩
    · rw [if_pos ((isclose_iff _ _).2 hc)]
      by_cases hs : start = 0
      · rw [if_pos hs, ho1 hs]
      · rw [if_neg hs, ho2 hs]
    · rw [if_neg (fun e => hc ((isclose_iff _ _).1 e))]
  · rw [if_neg (fun e => hp ⟨prismatic_iff.1 e.1, inText_iff.1 e.2⟩)]
    exact ⟨0, 1, none, rfl, fun _ => ⟨rfl, rfl, rfl⟩, fun h => absurd h hp⟩

theorem mapM_read {f : File} : ∀ {rs : List Rec} {n : Text}, (∀ r ∈ rs, HoldsData f r ∧ r.name = n) →
    ∃ os : List Obj, rs.map (fun r => get f (child r.group n)) = os.map some ∧
      os.mapM readDataset = .ok (rs.map fun r => (⟨r.shape, ravel r.shape r.val⟩ : Arr))
  | [], _, _ => ⟨[], rfl, rfl⟩
  | r :: rs, n, h => by
    obtain ⟨os, h1, h2⟩ := mapM_read (rs := rs) (n := n) fun q hq => h q (List.mem_cons_of_mem _ hq)
    obtain ⟨hd, hn⟩ := h r List.mem_cons_self
    obtain ⟨o, ho, hr⟩ := getKw_holds hd
    rw [hn] at ho
    refine ⟨o :: os, by rw [List.map_cons, List.map_cons, ho, h1], ?_⟩
    rw [List.mapM_cons, hr, h2]
    rfl

theorem reduceOption_some {α : Type} : ∀ l : List α, (l.map some).reduceOption = l
  | [] => rfl
  | a :: l => by
    show a :: (l.map some).reduceOption = _
    rw [reduceOption_some l]

theorem any_none {α : Type} : ∀ l : List α, (l.map some).any Option.isNone = false
  | [] => rfl
  | a :: l => by rw [List.map_cons, List.any_cons, any_none l]; rfl

/-- The stack of the arrays of datasets of the same shape. -/
theorem stack_ok {rev : Bool} {sh : List Nat} {rs : List Rec} (h2 : 2 ≤ rs.length) (hs : ∀ r ∈ rs, r.shape = sh) (h1 : ∀ n ∈ sh, n ≠ 1) :
    ∃ a, stack (rs.map fun r => orient rev ⟨r.shape, ravel r.shape r.val⟩) = .ok a ∧
      a.shape = rs.length :: (if rev then sh.reverse else sh) ∧ a.data.length = size a.shape ∧
      ∀ k r idx, rs[k]? = some r → InBounds sh idx →
        a.data[flatIndex a.shape (k :: (if rev then idx.reverse else idx))]? = some (r.val idx) := by
  have hshape : ∀ r ∈ rs, (orient rev ⟨r.shape, ravel r.shape r.val⟩).shape = (if rev then sh.reverse else sh) := by
    intro r hr
    rw [orient_data.1, hs r hr]
  have hlen : ∀ r ∈ rs, (orient rev ⟨r.shape, ravel r.shape r.val⟩).data.length = size (if rev then sh.reverse else sh) := by
    intro r hr
    rw [orient_data.2.1, hs r hr]
    split
    · rw [size_reverse]
    · rfl
  obtain ⟨r0, rs', rfl⟩ : ∃ r0 rs', rs = r0 :: rs' := by
    cases rs with
    | nil => simp at h2
    | cons a l => exact ⟨a, l, rfl⟩
  refine ⟨⟨(r0 :: rs').length :: (if rev then sh.reverse else sh), (r0 :: rs').flatMap fun r => (orient rev ⟨r.shape, ravel r.shape r.val⟩).data⟩, ?_, rfl, ?_, ?_⟩
  · rw [List.map_cons, stack, if_pos]
    · rw [List.length_map, hshape r0 List.mem_cons_self]
      congr 2
      · refine (List.filter_eq_self.2 ?_).trans rfl
        · intro n hn
          rw [decide_eq_true_iff]
          rcases List.mem_cons.1 hn with rfl | hn
          · simp at h2; omega
          · have : n ∈ sh := by
              split at hn
              · exact List.mem_reverse.1 hn
              · exact hn
            exact h1 n this
      · rw [List.flatMap_cons, List.flatMap_cons, List.flatMap_map]
    · rw [List.all_eq_true]
      intro a ha
      obtain ⟨r, hr, rfl⟩ := List.mem_map.1 ha
      rw [decide_eq_true_iff, hshape r (List.mem_cons_of_mem _ hr), hshape r0 List.mem_cons_self]
  · dsimp only
    rw [Verif.Props.JobinYvon.flatMap_length hlen, size]
  · intro k r idx hk hb
    have hr : r ∈ r0 :: rs' := List.mem_of_getElem? hk
    have hb' : InBounds r.shape idx := by rw [hs r hr]; exact hb
    have hd := (orient_data (rev := rev) (shape := r.shape) (val := r.val)).2.2 idx hb'
    dsimp only
    rw [flatIndex]
    rw [hs r hr] at hd
    have hlt : flatIndex (if rev then sh.reverse else sh) (if rev then idx.reverse else idx) < size (if rev then sh.reverse else sh) := by
      split
      · exact flatIndex_lt (inBounds_reverse hb)
      · exact flatIndex_lt hb
    rw [Verif.Props.JobinYvon.flatMap_getElem hlen hk hlt, hs r hr]
    exact hd

/-- A stack. -/
theorem read_stack {env : Env} {f : File} {t : Stack} (h : HoldsStack env f t) (hm : t.more ≠ []) {key : Text} {om : Original}
    (hd : Prismatic f → Has "depth".toList key → ∃ b o s u, om.simulation = some b ∧ Depth b (t.more.length + 1) o s u)
    (hk : ∀ l, Last t.base l → l = key) :
    ∃ a axes, readGroups env f t.first.group (t.more.map Rec.group) t.first.name key om = .ok (a, axes) ∧
      ∀ ti n s, ShowsStack f t ⟨a, axes, ti, n, s, om⟩ := by
  obtain ⟨hf, hmore, hz⟩ := h
  have hg := hf.1.1
  obtain ⟨hz, h1⟩ := hz hm
  have hz' : dim0 f t.first.group = false := by rw [Bool.eq_false_iff]; exact fun e => hz ((dim0_iff hg).1 e)
  have hall : ∀ r ∈ t.all, HoldsData f r ∧ r.name = t.first.name := by
    intro r hr
    rcases List.mem_cons.1 hr with rfl | hr
    · exact ⟨hf.1, rfl⟩
    · exact ⟨(hmore r hr).1, (hmore r hr).2.1⟩
  have hsh : ∀ r ∈ t.all, r.shape = t.first.shape := by
    intro r hr
    rcases List.mem_cons.1 hr with rfl | hr
    · rfl
    · exact (hmore r hr).2.2
  obtain ⟨os, ho, hr⟩ := mapM_read hall
  have hml : 1 ≤ t.more.length := List.length_pos_iff.2 hm
  obtain ⟨a, ha, hash, halen, haval⟩ := stack_ok (rev := transposed f t.first.group t.first.name) (rs := t.all)
    (by simp only [Stack.all, List.length_cons]; omega) hsh h1
  have hashl : a.shape.length = t.first.shape.length + 1 := by
    rw [hash, List.length_cons]; split <;> simp
  obtain ⟨o, s, u, hcal, hc1, hc2⟩ := stackCal_ok hd
  obtain ⟨axes, hax, hlen, haxes⟩ := axes_ok hf (sh := a.shape)
    (off := 1) (L := indices true (dim0 f t.first.group) (transposed f t.first.group t.first.name) (t.first.shape.length + 1)) indices_stack_len
    (fun i hi => by rw [indices_stack hi, hz']; rfl)
  have hempty : (t.more.map Rec.group).isEmpty = false := by
    cases hh : t.more with
    | nil => exact absurd hh hm
    | cons x l => rfl
  refine ⟨a, ⟨0, some key, u, t.more.length + 1, o, some s, true⟩ :: axes, ?_, ?_⟩
  · unfold readGroups datasets
    have e0 : List.map (fun g => get f (child g t.first.name)) (t.first.group :: t.more.map Rec.group) = os.map some := by
      rw [← ho]
      simp [Stack.all]
    have e1 : stackAxis f om key (t.more.map Rec.group) = .ok [⟨0, some key, u, t.more.length + 1, o, some s, true⟩] := by
      unfold stackAxis
      rw [hempty]
      simp only [Bool.false_eq_true, if_false, List.length_map]
      rw [hcal]
      rfl
    have e2 : loadData (transposed f t.first.group t.first.name) os = .ok a := by
      unfold loadData
      rw [hr]
      simp only [bind, Except.bind]
      have e : (if transposed f t.first.group t.first.name then
          (t.all.map fun r => (⟨r.shape, ravel r.shape r.val⟩ : Arr)).map transpose
          else t.all.map fun r => (⟨r.shape, ravel r.shape r.val⟩ : Arr)) =
          t.all.map fun r => orient (transposed f t.first.group t.first.name) ⟨r.shape, ravel r.shape r.val⟩ := by
        cases transposed f t.first.group t.first.name
        · rfl
        · simp [orient]
      rw [e]
      rw [← ha]
      unfold Stack.all
      cases hh : t.more with
      | nil => exact absurd hh hm
      | cons x l => rfl
    dsimp only
    rw [e0, reduceOption_some, any_none]
    simp only [Bool.false_eq_true, if_false, e1, e2, bind, Except.bind, hempty, Bool.not_false, hashl, hax]
    rfl
  · intro ti n st
    refine ⟨⟨_, (placeIdx_iff hg).2 rfl, hash⟩, halen, ?_, by simp [hlen], ?_, ?_⟩
    · intro k r idx idx' hkr hb hp
      rw [placeIdx_iff hg] at hp
      subst hp
      exact haval k r idx hkr (by rw [← hsh r (List.mem_of_getElem? hkr)]; exact hb)
    · intro l hl
      rw [hk l hl]
      refine ⟨_, rfl, rfl, rfl, rfl, rfl, ?_, ?_⟩
      · intro hn
        obtain ⟨rfl, rfl, rfl⟩ := hc1 hn
        exact ⟨rfl, rfl, rfl⟩
      · intro hy
        obtain ⟨b, hb, hdep⟩ := hc2 hy
        exact ⟨b, s, hb, rfl, hdep⟩
    · intro j i x hx hp
      have hj : j < t.first.shape.length := by
        rw [← hf.2.1]
        exact (List.getElem?_eq_some_iff.1 hx).1
      obtain ⟨hi, hai⟩ := haxes j i x hx hp
      refine ⟨_, by rw [List.getElem?_cons_succ]; exact hai, rfl, rfl, rfl, ?_, rfl, rfl, nav_dim hg j⟩
      show some (a.shape.getD (i + 1) 0) = _
      rw [hash, List.getD_cons_succ]
      exact place_size hg ((placeIdx_iff hg).2 rfl) hj hp

end Verif.Lemmas.EmdNcem
