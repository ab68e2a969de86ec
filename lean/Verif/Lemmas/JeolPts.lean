import Verif.Spec.JeolPts
import Verif.Props.Jeol
import Mathlib.Data.Nat.ModEq
/-! Lemmas about the set-up of spectrum images of JEOL. -/
namespace Verif.Jeol
open Verif

theorem bind_ok' {α β : Type} {m : Py α} {k : α → Py β} {b : β} (h : (m >>= k) = .ok b) : ∃ a, m = .ok a ∧ k a = .ok b := by
  cases m with
  | error e => cases h
  | ok a => exact ⟨a, rfl, h⟩

theorem checkDivisor_ok {f n : Nat} {u : Unit} (h : checkDivisor f n = .ok u) (h0 : f ≠ 0) : f ∣ n := by
  unfold checkDivisor at h
  by_cases h1 : 1 < f
  · by_cases h2 : n % f = 0
    · exact Nat.dvd_of_mod_eq_zero h2
    · rw [if_pos ⟨h1, h2⟩] at h; cases h
  · rw [show f = 1 by omega]
    exact Nat.one_dvd n

theorem no_x (n : Nat) : 'x' ∉ decChars n := by
  intro h
  exact absurd (decChars_digits n _ h) (by decide)

theorem parsePixels_text (W H : Nat) : parsePixels (decChars W ++ 'x' :: decChars H) = .ok ((W : Int), (H : Int)) := by
  unfold parsePixels
  rw [splitChar_append (no_x W), splitChar_none (no_x H)]
  dsimp only
  rw [intLit_dec, intLit_dec]
  rfl

theorem downFactors_ok {d : Down} {w h dw dh : Nat} (hd : downFactors d w h = .ok (dw, dh)) :
    DownIs d dw dh ∧ (dw ≠ 0 → dw ∣ w) ∧ (dh ≠ 0 → dh ∣ h) := by
  unfold downFactors at hd
  cases d with
  | one n =>
    obtain ⟨_, h1, hd⟩ := bind_ok' hd
    obtain ⟨_, h2, hd⟩ := bind_ok' hd
    obtain ⟨rfl, rfl⟩ := Prod.mk.inj (Except.ok.inj hd)
    exact ⟨.one _, checkDivisor_ok h1, checkDivisor_ok h2⟩
  | many l =>
    dsimp only at hd
    split at hd
    · cases hd
    · split at hd
      · obtain ⟨_, h1, hd⟩ := bind_ok' hd
        obtain ⟨_, h2, hd⟩ := bind_ok' hd
        obtain ⟨rfl, rfl⟩ := Prod.mk.inj (Except.ok.inj hd)
        exact ⟨.many _ _, checkDivisor_ok h1, checkDivisor_ok h2⟩
      · cases hd

theorem foldl_max_le : ∀ (l : List Nat) (a : Nat), a ≤ l.foldl max a ∧ ∀ k ∈ l, k ≤ l.foldl max a
  | [], a => ⟨Nat.le_refl _, by simp⟩
  | b :: l, a => by
    obtain ⟨h1, h2⟩ := foldl_max_le l (max a b)
    refine ⟨le_trans (le_max_left a b) h1, ?_⟩
    intro k hk
    rcases List.mem_cons.1 hk with rfl | hk
    · exact le_trans (le_max_right a k) h1
    · exact h2 k hk

theorem maxFrame_ok {ks : List Nat} {n : Nat} (h : maxFrame ks = .ok n) : ks ≠ [] ∧ ∀ k ∈ ks, k < n := by
  cases ks with
  | nil => cases h
  | cons k ks =>
    obtain rfl := Except.ok.inj h
    refine ⟨by simp, ?_⟩
    intro j hj
    obtain ⟨h1, h2⟩ := foldl_max_le ks k
    rcases List.mem_cons.1 hj with rfl | hj
    · omega
    · have := h2 j hj; omega

theorem maxOf_isMax : ∀ (l : List Int), l ≠ [] → IsMax l (maxOf l) := by
  have key : ∀ (l : List Int) (a : Int), IsMax (a :: l) (l.foldl max a) := by
    intro l
    induction l with
    | nil => intro a; exact ⟨by simp, by simp⟩
    | cons b l ih =>
      intro a
      obtain ⟨h1, h2⟩ := ih (max a b)
      constructor
      · rcases List.mem_cons.1 h1 with h | h
        · rw [List.foldl_cons, h]
          rcases max_choice a b with e | e <;> rw [e] <;> simp
        · rw [List.foldl_cons]
          exact List.mem_cons_of_mem _ (List.mem_cons_of_mem _ h)
      · intro u hu
        rw [List.foldl_cons]
        have h3 := h2 _ List.mem_cons_self
        rcases List.mem_cons.1 hu with rfl | hu
        · exact le_trans (le_max_left u b) h3
        · rcases List.mem_cons.1 hu with rfl | hu
          · exact le_trans (le_max_right a u) h3
          · exact h2 u (List.mem_cons_of_mem _ hu)
  intro l hl
  cases l with
  | nil => exact absurd rfl hl
  | cons a l => exact key l a

theorem minOf_isMin : ∀ (l : List Int), l ≠ [] → IsMin l (minOf l) := by
  have key : ∀ (l : List Int) (a : Int), IsMin (a :: l) (l.foldl min a) := by
    intro l
    induction l with
    | nil => intro a; exact ⟨by simp, by simp⟩
    | cons b l ih =>
      intro a
      obtain ⟨h1, h2⟩ := ih (min a b)
      constructor
      · rcases List.mem_cons.1 h1 with h | h
        · rw [List.foldl_cons, h]
          rcases min_choice a b with e | e <;> rw [e] <;> simp
        · rw [List.foldl_cons]
          exact List.mem_cons_of_mem _ (List.mem_cons_of_mem _ h)
      · intro u hu
        rw [List.foldl_cons]
        have h3 := h2 _ List.mem_cons_self
        rcases List.mem_cons.1 hu with rfl | hu
        · exact le_trans h3 (min_le_left u b)
        · rcases List.mem_cons.1 hu with rfl | hu
          · exact le_trans h3 (min_le_right a u)
          · exact h2 u (List.mem_cons_of_mem _ hu)
  intro l hl
  cases l with
  | nil => exact absurd rfl hl
  | cons a l => exact key l a

theorem startTable_ok (o : Opts) (n : Nat) (fs : List (List Nat)) (hn : 0 < n) (h : RightStarts o fs) :
    Table fs (startTable o n) ∧ n ≤ (startTable o n).length := by
  have hsum : ∀ i, ((fs.take i).map List.length).sum = startOf fs i := by
    intro i
    unfold startOf
    rw [List.length_flatten]
  unfold startTable
  cases hs : o.starts with
  | none =>
    dsimp only
    refine ⟨⟨?_, ?_⟩, by rw [List.length_set, List.length_replicate]⟩
    · rw [List.getElem?_set]
      simp [hn]
    · intro i s hi
      rw [List.getElem?_set] at hi
      split at hi
      · rename_i h0
        subst h0
        split at hi
        · cases hi; rfl
        · cases hi
      · rw [List.getElem?_replicate] at hi
        split at hi <;> cases hi
  | some l =>
    dsimp only
    obtain ⟨h1, h2⟩ := h l hs
    have ht : Table fs l := ⟨h1, fun i s hi => by rw [← hsum]; exact h2 i s hi⟩
    split
    · rename_i hlt
      refine ⟨⟨?_, ?_⟩, by rw [List.length_append, List.length_replicate]; omega⟩
      · rw [List.getElem?_append_left]
        · exact h1
        · cases l with
          | nil => simp at h1
          | cons _ _ => simp
      · intro i s hi
        by_cases hl : i < l.length
        · rw [List.getElem?_append_left hl] at hi
          exact ht.2 i s hi
        · rw [List.getElem?_append_right (by omega), List.getElem?_replicate] at hi
          split at hi <;> cases hi
    · exact ⟨ht, by omega⟩

theorem getD_map_rows (f : List Int → Int × Int × Int) (l : List (List Int)) (t : List (Int × Int × Int)) (k : Nat) (hk : k < l.length) :
    (l.map f ++ t).getD k (0, 0, 0) = f (l.getD k []) := by
  rw [List.getD_eq_getElem?_getD, List.getElem?_append_left (by rw [List.length_map]; exact hk), List.getElem?_map,
    List.getD_eq_getElem?_getD, List.getElem?_eq_getElem hk]
  rfl

theorem shiftTable_ok {o : Opts} {n : Nat} {t : List (Int × Int × Int)} (h : shiftTable o n = .ok t) (k : Nat)
    (hk : ∀ l, o.shifts = some l → k < l.length) : t.getD k (0, 0, 0) = shiftOf o k := by
  unfold shiftTable at h
  unfold shiftOf
  cases hs : o.shifts with
  | none =>
    rw [hs] at h
    dsimp only at h ⊢
    obtain rfl := Except.ok.inj h
    rw [List.getD_eq_getElem?_getD, List.getElem?_replicate]
    split <;> rfl
  | some l =>
    have hk := hk l hs
    rw [hs] at h
    cases l with
    | nil => simp at hk
    | cons r rs =>
      dsimp only at h ⊢
      split at h
      · rename_i h2
        split at h
        · cases h
        · rename_i hall
          obtain rfl := Except.ok.inj h
          rw [getD_map_rows _ (r :: rs) _ k hk]
          have hlen : ((r :: rs).getD k []).length = 2 := by
            have hmem : (r :: rs).getD k [] ∈ r :: rs := by
              rw [List.getD_eq_getElem?_getD, List.getElem?_eq_getElem hk]
              exact List.getElem_mem hk
            rcases List.mem_cons.1 hmem with e | e
            · rw [e]; exact h2
            · have := Classical.not_not.1 (fun hn => hall (Or.inr hn))
              rw [List.all_eq_true] at this
              simpa using this _ e
          rw [show ((r :: rs).getD k []).getD 2 0 = 0 by
            rw [List.getD_eq_getElem?_getD, List.getElem?_eq_none (by omega)]; rfl]
      · split at h
        · split at h
          · cases h
          · obtain rfl := Except.ok.inj h
            have := getD_map_rows (fun r => (r.getD 0 0, r.getD 1 0, r.getD 2 0)) (r :: rs) [] k hk
            rw [List.append_nil] at this
            exact this
        · cases h

theorem keep_eq (o : Opts) (sweep n : Nat) :
    (decide (0 ≤ (n : Int) ∧ (n : Int) ≤ (sweep : Int)) && inShifts o n) = keepFrame o sweep n := by
  unfold inShifts keepFrame
  congr 1
  · simp
  · cases o.shifts with
    | none => rfl
    | some l => simp

theorem frameList_wanted (o : Opts) (sweep : Nat) : frameList o sweep = wanted o sweep := by
  have hfm : ∀ (l : List Int), (l.filter fun (k : Int) => decide (0 ≤ k ∧ k ≤ (sweep : Int)) && inShifts o k).map Int.toNat =
      l.filterMap (keepNumber o sweep) := by
    intro l
    induction l with
    | nil => rfl
    | cons k l ih =>
      rw [List.filter_cons, List.filterMap_cons]
      cases k with
      | ofNat n =>
        have hk := keep_eq o sweep n
        rw [show Int.ofNat n = (n : Int) from rfl, hk]
        by_cases hc : keepFrame o sweep n = true
        · rw [if_pos hc, show keepNumber o sweep (n : Int) = some n from if_pos hc, List.map_cons, ih]
          rfl
        · rw [if_neg hc, show keepNumber o sweep (n : Int) = none from if_neg hc, ih]
      | negSucc n =>
        rw [if_neg, show keepNumber o sweep (Int.negSucc n) = none from rfl]
        · exact ih
        · rw [Bool.and_eq_true]
          intro hc
          have := (of_decide_eq_true hc.1).1
          omega
  have hrange : ∀ (l : List Nat), (l.map fun (k : Nat) => (k : Int)).filterMap (keepNumber o sweep) = l.filter (keepFrame o sweep) := by
    intro l
    induction l with
    | nil => rfl
    | cons n l ih =>
      rw [List.map_cons, List.filterMap_cons, List.filter_cons]
      by_cases hc : keepFrame o sweep n = true
      · rw [if_pos hc, show keepNumber o sweep (n : Int) = some n from if_pos hc, ih]
      · rw [if_neg hc, show keepNumber o sweep (n : Int) = none from if_neg hc, ih]
  unfold frameList wanted askedFrames
  rw [hfm]
  cases hf : o.frames with
  | none => exact hrange _
  | some l =>
    cases l with
    | nil => exact hrange _
    | cons k ks => rfl

theorem wanted_shift {o : Opts} {sweep k : Nat} (h : k ∈ wanted o sweep) (l : List (List Int)) (hl : o.shifts = some l) : k < l.length := by
  rw [← frameList_wanted] at h
  unfold frameList at h
  obtain ⟨i, hi, rfl⟩ := List.mem_map.1 h
  have := (List.mem_filter.1 hi).2
  rw [Bool.and_eq_true] at this
  obtain ⟨h1, h2⟩ := this
  have h1 := of_decide_eq_true h1
  unfold inShifts at h2
  rw [hl] at h2
  have h2 := of_decide_eq_true h2
  omega

/-- What a successful set-up has found. -/
structure SetupOk (h : PtsHeader) (o : Opts) (W H dw dh : Nat) (s : Setup) : Prop where
  down : DownIs o.down dw dh
  dw0 : 0 < dw
  dh0 : 0 < dh
  dwW : dw ∣ W
  dhH : dh ∣ H
  W0 : 0 < W
  H0 : 0 < H
  rebin0 : 0 < o.rebin
  rebin : o.rebin ∣ 4096
  width : s.width = W / dw
  height : s.height = H / dh
  wnorm : s.wnorm = 4096 * dw / W
  hnorm : s.hnorm = 4096 * dh / H
  offset : s.offset = h.coefB - h.coefA * h.digZ
  scale : s.scale = h.coefA * o.rebin
  channels : channelNumber o s.offset s.scale = .ok s.channels
  frames : s.frames = wanted o h.sweep
  some : s.frames ≠ []
  starts : ∃ n, 0 < n ∧ s.starts = startTable o n ∧ ∀ k ∈ s.frames, k < n
  shifts : ∀ k ∈ s.frames, s.shifts.getD k (0, 0, 0) = shiftOf o k

theorem setup_ok {h : PtsHeader} {o : Opts} {s : Setup} {W H : Nat} (hp : h.pixels = decChars W ++ 'x' :: decChars H)
    (hs : setup h o = .ok s) : ∃ dw dh, SetupOk h o W H dw dh s := by
  unfold setup at hs
  obtain ⟨_, h1, hs⟩ := bind_ok' hs
  rw [hp, parsePixels_text] at hs
  obtain ⟨p, h2, hs⟩ := bind_ok' hs
  obtain rfl := (Except.ok.inj h2).symm
  dsimp only at hs
  simp only [Int.toNat_natCast] at hs
  obtain ⟨⟨dw, dh⟩, h3, hs⟩ := bind_ok' hs
  obtain ⟨wn, h4, hs⟩ := bind_ok' hs
  obtain ⟨hn, h5, hs⟩ := bind_ok' hs
  obtain ⟨wd, h6, hs⟩ := bind_ok' hs
  obtain ⟨hd, h7, hs⟩ := bind_ok' hs
  obtain ⟨ch, h8, hs⟩ := bind_ok' hs
  obtain ⟨n, h9, hs⟩ := bind_ok' hs
  obtain ⟨sh, h10, hs⟩ := bind_ok' hs
  obtain rfl := Except.ok.inj hs
  dsimp only at h4 h5 h6 h7
  obtain ⟨d1, d2, d3⟩ := downFactors_ok h3
  unfold normOf at h4 h5
  unfold divBy at h6 h7
  split at h4
  · cases h4
  split at h5
  · cases h5
  split at h6
  · cases h6
  split at h7
  · cases h7
  rename_i w0 hh0 dw0 dh0
  obtain rfl := Except.ok.inj h4
  obtain rfl := Except.ok.inj h5
  obtain rfl := Except.ok.inj h6
  obtain rfl := Except.ok.inj h7
  have hr0 : o.rebin ≠ 0 := by
    intro hc
    unfold channelNumber at h8
    rw [if_pos hc] at h8
    cases h8
  obtain ⟨f1, f2⟩ := maxFrame_ok h9
  have hn0 : 0 < n := by
    obtain ⟨k, hk⟩ := List.exists_mem_of_ne_nil _ f1
    have := f2 k hk
    omega
  refine ⟨dw, dh, ⟨d1, by omega, by omega, d2 dw0, d3 dh0, by omega, by omega, by omega, checkDivisor_ok h1 hr0, rfl, rfl, rfl, rfl, rfl, rfl, h8,
    frameList_wanted o h.sweep, f1, ⟨n, hn0, rfl, f2⟩, ?_⟩⟩
  intro k hk
  dsimp only at hk ⊢
  rw [frameList_wanted] at hk
  exact shiftTable_ok h10 k fun l hl => wanted_shift hk l hl

/-- The events of a frame depend on the bins, the shift and the size of the map only. -/
theorem eventsOf_congr {p q : Par} (h1 : p.width = q.width) (h2 : p.height = q.height) (h3 : p.channels = q.channels) (h4 : p.wnorm = q.wnorm)
    (h5 : p.hnorm = q.hnorm) (h6 : p.rebin = q.rebin) (h7 : p.dx = q.dx) (h8 : p.dy = q.dy) (h9 : p.dz = q.dz) :
    ∀ (ws : List Nat) (x y : Int), eventsOf p x y ws = eventsOf q x y ws
  | [], _, _ => rfl
  | w :: ws, x, y => by
    unfold eventsOf
    rw [h1, h2, h3, h4, h5, h6, h7, h8, h9]
    simp only [eventsOf_congr h1 h2 h3 h4 h5 h6 h7 h8 h9 ws]

theorem emEventsOf_congr {p q : Par} (h1 : p.width = q.width) (h2 : p.height = q.height) (h4 : p.wnorm = q.wnorm)
    (h5 : p.hnorm = q.hnorm) (h7 : p.dx = q.dx) (h8 : p.dy = q.dy) :
    ∀ (ws : List Nat) (x y : Int), emEventsOf p x y ws = emEventsOf q x y ws
  | [], _, _ => rfl
  | w :: ws, x, y => by
    unfold emEventsOf
    rw [h1, h2, h4, h5, h7, h8]
    simp only [emEventsOf_congr h1 h2 h4 h5 h7 h8 ws]

end Verif.Jeol
