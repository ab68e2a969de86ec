import Verif.Spec.Tia
import Verif.Lemmas.Bytes
/-! Lemmas for C64: `.ser` files as bytes. -/
namespace Verif.Tia
open Verif Verif.Spec.Tia Verif.BytesSpec

theorem chunk_append {pre b post : Bytes} {o : Nat} (h : pre.length = o) : chunk (pre ++ b ++ post) o b.length = b := by
  subst h
  unfold chunk
  rw [List.append_assoc, List.drop_left, List.take_left]

theorem part_iff {f : Bytes} {o : Nat} {b : Bytes} (hb : b ≠ [] ∨ o ≤ f.length) :
    Part f o b ↔ chunk f o b.length = b := by
  constructor
  · rintro ⟨pre, post, rfl, h⟩
    exact chunk_append h
  · intro h
    have hl : o ≤ f.length := by
      rcases hb with hb | hb
      · by_contra hc
        unfold chunk at h
        rw [List.drop_eq_nil_of_le (by omega), List.take_nil] at h
        exact hb h.symm
      · exact hb
    refine ⟨f.take o, (f.drop o).drop b.length, ?_, by rw [List.length_take]; omega⟩
    conv_rhs => rw [← h, h]
    rw [← h]
    unfold chunk
    have hlen : ((f.drop o).take b.length).length = b.length := by
      have := congrArg List.length h
      exact this
    rw [hlen, List.append_assoc, List.take_append_drop, List.take_append_drop]

theorem stored_leVal (b : Bytes) : stored false b = leVal b := by
  rw [stored_eq]; rfl

theorem readLE_iff {f : Bytes} {o w v : Nat} (hw : 0 < w) : readLE f o w = .ok v ↔ Holds f o w v := by
  unfold readLE Holds
  constructor
  · intro h
    split at h
    · cases h
    · rename_i hl
      cases h
      have hlen : (chunk f o w).length = w := by
        have : (chunk f o w).length ≤ w := by unfold chunk; rw [List.length_take]; omega
        omega
      refine ⟨chunk f o w, ?_, hlen, stored_leVal _⟩
      rw [part_iff, hlen]
      left
      intro he
      rw [he] at hlen
      simp at hlen
      omega
  · rintro ⟨b, hp, hl, rfl⟩
    have hb : b ≠ [] := by
      intro he
      rw [he] at hl
      simp at hl
      omega
    have hc := (part_iff (.inl hb)).1 hp
    rw [hl] at hc
    rw [hc, if_neg (by omega), stored_leVal]

theorem holds_unique {f : Bytes} {o w v v' : Nat} (hw : 0 < w) (h : Holds f o w v) (h' : Holds f o w v') : v = v' := by
  have a := (readLE_iff hw).2 h
  have b := (readLE_iff hw).2 h'
  rw [a] at b
  exact Except.ok.inj b

theorem trimmed_iff {b t : Bytes} : Trimmed b t ↔ stripNull b = t := by
  unfold stripNull Trimmed
  constructor
  · rintro ⟨⟨n, rfl⟩, ht⟩
    rw [List.reverse_append, List.reverse_replicate]
    have h1 : ∀ n : Nat, (List.replicate n (0 : UInt8) ++ t.reverse).dropWhile (· = 0) = t.reverse.dropWhile (· = 0) := by
      intro n
      induction n with
      | zero => rfl
      | succ n ih =>
        rw [List.replicate_succ, List.cons_append, List.dropWhile_cons_of_pos (by simp), ih]
    rw [h1]
    have h2 : t.reverse.dropWhile (· = 0) = t.reverse := by
      cases hr : t.reverse with
      | nil => rfl
      | cons a l =>
        rw [List.dropWhile_cons_of_neg]
        intro ha
        apply ht
        rw [List.getLast?_eq_head?_reverse, hr]
        simp at ha
        simp [ha]
    rw [h2, List.reverse_reverse]
  · rintro rfl
    constructor
    · have h := List.takeWhile_append_dropWhile (p := fun x : UInt8 => decide (x = 0)) (l := b.reverse)
      refine ⟨(b.reverse.takeWhile fun x => decide (x = 0)).length, ?_⟩
      have h2 : b.reverse.takeWhile (fun x => decide (x = 0)) =
          List.replicate (b.reverse.takeWhile fun x => decide (x = 0)).length 0 := by
        rw [List.eq_replicate_iff]
        refine ⟨rfl, ?_⟩
        intro x hx
        have := List.all_takeWhile (p := fun x : UInt8 => decide (x = 0)) (l := b.reverse)
        rw [List.all_eq_true] at this
        simpa using this x hx
      have h3 := congrArg List.reverse h
      rw [List.reverse_append, List.reverse_reverse] at h3
      have h4 := congrArg List.reverse h2
      rw [List.reverse_replicate] at h4
      rw [← h4]
      exact h3.symm
    · intro hl
      rw [List.getLast?_eq_head?_reverse, List.reverse_reverse] at hl
      have := List.head?_dropWhile_not (fun x : UInt8 => decide (x = 0)) b.reverse
      rw [hl] at this
      simp at this

theorem dimsAt_iff {f : Bytes} : ∀ {n p : Nat} {ds : List Dim}, dimsAt f n p = .ok ds ↔ ds.length = n ∧ DimsHold f p ds
  | 0, p, ds => by
    rw [dimsAt]
    constructor
    · intro h
      cases h
      exact ⟨rfl, trivial⟩
    · rintro ⟨h, -⟩
      rw [List.length_eq_zero_iff.1 h]
  | n + 1, p, ds => by
    rw [dimsAt]
    constructor
    · intro h
      simp only [bind, Except.bind] at h
      cases h1 : readLE f p 4 with
      | error e => rw [h1] at h; cases h
      | ok size =>
      rw [h1] at h; dsimp only at h
      cases h2 : readLE f (p + 4) 8 with
      | error e => rw [h2] at h; cases h
      | ok offset =>
      rw [h2] at h; dsimp only at h
      cases h3 : readLE f (p + 12) 8 with
      | error e => rw [h3] at h; cases h
      | ok delta =>
      rw [h3] at h; dsimp only at h
      cases h4 : readLE f (p + 20) 4 with
      | error e => rw [h4] at h; cases h
      | ok element =>
      rw [h4] at h; dsimp only at h
      cases h5 : readLE f (p + 24) 4 with
      | error e => rw [h5] at h; cases h
      | ok dl =>
      rw [h5] at h; dsimp only at h
      cases h6 : readLE f (p + 28 + dl) 4 with
      | error e => rw [h6] at h; cases h
      | ok ul =>
      rw [h6] at h; dsimp only at h
      by_cases h7 : (chunk f (p + 32 + dl) ul).length < ul
      · rw [if_pos h7] at h; cases h
      rw [if_neg h7] at h
      cases h8 : dimsAt f n (p + 32 + dl + ul) with
      | error e => rw [h8] at h; cases h
      | ok ds' =>
      rw [h8] at h; dsimp only at h
      cases h
      obtain ⟨g1, g2⟩ := dimsAt_iff.1 h8
      have hul : (chunk f (p + 32 + dl) ul).length = ul := by
        have : (chunk f (p + 32 + dl) ul).length ≤ ul := by unfold chunk; rw [List.length_take]; omega
        omega
      have r6 := (readLE_iff (by omega)).1 h6
      obtain ⟨b6, ⟨pre, post, e6, e7⟩, e8, -⟩ := id r6
      have hfl : p + 28 + dl + 4 ≤ f.length := by
        rw [e6]
        simp only [List.length_append]
        omega
      have hdl : (chunk f (p + 28) dl).length = dl := by
        unfold chunk; rw [List.length_take, List.length_drop]; omega
      refine ⟨by rw [List.length_cons, g1], chunk f (p + 28) dl, chunk f (p + 32 + dl) ul,
        (readLE_iff (by omega)).1 h1, (readLE_iff (by omega)).1 h2, (readLE_iff (by omega)).1 h3,
        (readLE_iff (by omega)).1 h4, ?_, ?_, ?_, ?_, trimmed_iff.2 rfl, ?_⟩
      · rw [hdl]; exact (readLE_iff (by omega)).1 h5
      · rw [part_iff (.inr (by omega)), hdl]
      · rw [hdl, hul]; exact r6
      · rw [hdl, part_iff (.inr (by omega)), hul]
      · rw [hdl, hul]; exact g2
    · rintro ⟨hl, hd⟩
      cases ds with
      | nil => cases hl
      | cons d ds =>
      obtain ⟨descr, units, h1, h2, h3, h4, h5, h6, h7, h8, h9, h10⟩ := hd
      rw [(readLE_iff (by omega)).2 h1, (readLE_iff (by omega)).2 h2, (readLE_iff (by omega)).2 h3,
        (readLE_iff (by omega)).2 h4, (readLE_iff (by omega)).2 h5]
      simp only [bind, Except.bind]
      rw [(readLE_iff (by omega)).2 h7]
      dsimp only
      have hc : chunk f (p + 32 + descr.length) units.length = units := by
        obtain ⟨pre, post, rfl, hp⟩ := h8
        exact chunk_append hp
      rw [hc, if_neg (by omega)]
      have := dimsAt_iff.2 ⟨(by rw [List.length_cons] at hl; omega : ds.length = n), h10⟩
      rw [this]
      dsimp only
      rw [trimmed_iff.1 h9]

theorem width_eq (v : Nat) : offsetWidth v = width v := rfl

theorem width_pos (v : Nat) : 0 < width v := by unfold width; split <;> omega

theorem header_iff {f : Bytes} {h : Header} : header f = .ok h ↔ SerFile f h := by
  unfold header SerFile
  constructor
  · intro hh
    simp only [bind, Except.bind] at hh
    cases h1 : readLE f 4 2 with
    | error e => rw [h1] at hh; cases hh
    | ok version =>
    rw [h1] at hh; dsimp only at hh
    cases h2 : readLE f 6 4 with
    | error e => rw [h2] at hh; cases hh
    | ok dataType =>
    rw [h2] at hh; dsimp only at hh
    cases h3 : readLE f 10 4 with
    | error e => rw [h3] at hh; cases hh
    | ok tagType =>
    rw [h3] at hh; dsimp only at hh
    cases h4 : readLE f 14 4 with
    | error e => rw [h4] at hh; cases hh
    | ok total =>
    rw [h4] at hh; dsimp only at hh
    cases h5 : readLE f 18 4 with
    | error e => rw [h5] at hh; cases hh
    | ok valid =>
    rw [h5] at hh; dsimp only at hh
    cases h6 : readLE f 22 (offsetWidth version) with
    | error e => rw [h6] at hh; cases hh
    | ok arrayOffset =>
    rw [h6] at hh; dsimp only at hh
    cases h7 : readLE f (22 + offsetWidth version) 4 with
    | error e => rw [h7] at hh; cases hh
    | ok ndim =>
    rw [h7] at hh; dsimp only at hh
    cases h8 : dimsAt f ndim (26 + offsetWidth version) with
    | error e => rw [h8] at hh; cases hh
    | ok dims =>
    rw [h8] at hh; dsimp only at hh
    cases hh
    obtain ⟨g1, g2⟩ := dimsAt_iff.1 h8
    subst g1
    exact ⟨(readLE_iff (by omega)).1 h1, (readLE_iff (by omega)).1 h2, (readLE_iff (by omega)).1 h3,
      (readLE_iff (by omega)).1 h4, (readLE_iff (by omega)).1 h5, (readLE_iff (width_pos _)).1 h6,
      (readLE_iff (by omega)).1 h7, g2⟩
  · rintro ⟨h1, h2, h3, h4, h5, h6, h7, h8⟩
    rw [(readLE_iff (by omega)).2 h1, (readLE_iff (by omega)).2 h2, (readLE_iff (by omega)).2 h3,
      (readLE_iff (by omega)).2 h4, (readLE_iff (by omega)).2 h5]
    simp only [bind, Except.bind]
    rw [width_eq, (readLE_iff (width_pos _)).2 h6]
    dsimp only
    rw [(readLE_iff (by omega)).2 h7]
    dsimp only
    rw [dimsAt_iff.2 ⟨rfl, h8⟩]

theorem itemSize_eq (ty : Nat) : itemSize ty = bytesOf ty := by
  unfold bytesOf
  by_cases h : ty < 11
  · revert ty
    decide
  · rw [List.getElem?_eq_none (by simp; omega)]
    unfold itemSize
    split <;> first | rfl | omega

theorem layout_ok {f : Bytes} {h : Header} {o : Nat} {L : Layout} (hL : HasLayout f h o L) :
    layout f o (kindOf h.dataType) h.tagType = .ok L := by
  obtain ⟨⟨ty, ht, hk⟩, htag⟩ := hL
  obtain ⟨kind, front, x, y, item, tag⟩ := L
  dsimp only at ht hk htag
  unfold kindOf
  by_cases hd : h.dataType = 16672
  · rw [if_pos hd] at hk ⊢
    obtain ⟨rfl, rfl, rfl, h1, h2⟩ := hk
    unfold layout
    dsimp only
    rw [(readLE_iff (by omega)).2 h1, (readLE_iff (by omega)).2 h2]
    simp only [bind, Except.bind]
    rw [itemSize_eq, ht]
    dsimp only
    rw [htag]
    rfl
  · rw [if_neg hd] at hk ⊢
    obtain ⟨rfl, rfl, h1, h2, h3⟩ := hk
    unfold layout
    dsimp only
    rw [(readLE_iff (by omega)).2 h1, (readLE_iff (by omega)).2 h2, (readLE_iff (by omega)).2 h3]
    simp only [bind, Except.bind]
    rw [itemSize_eq, ht]
    dsimp only
    rw [htag]
    rfl

theorem chunk_length {f : Bytes} {o n : Nat} (h : o + n ≤ f.length) : (chunk f o n).length = n := by
  unfold chunk; rw [List.length_take, List.length_drop]; omega

theorem intsAt_ok {f : Bytes} {w : Nat} (hw : 0 < w) : ∀ (os : List Nat) (o : Nat),
    (∀ (i v : Nat), os[i]? = some v → Holds f (o + i * w) w v) → intsAt f w os.length o = os
  | [], _, _ => rfl
  | v :: os, o, h => by
    rw [List.length_cons, intsAt]
    have h0 := h 0 v rfl
    rw [Nat.zero_mul, Nat.add_zero] at h0
    have hr := (readLE_iff hw).2 h0
    unfold readLE at hr
    split at hr
    · cases hr
    · rename_i hc
      rw [if_neg hc]
      have := Except.ok.inj hr
      rw [this, intsAt_ok hw os (o + w)]
      intro i u hu
      have := h (i + 1) u (by rw [List.getElem?_cons_succ]; exact hu)
      rw [Nat.add_mul, Nat.one_mul] at this
      rwa [show o + w + i * w = o + (i * w + w) by omega]

theorem elements_ok {f : Bytes} {size : Nat} : ∀ (os : List Nat) (pos last : Nat),
    (∀ o ∈ pos :: os, o + size ≤ f.length) →
    elements f size pos (os ++ [last]) = .ok ((pos :: os).map fun o => chunk f o size)
  | [], pos, last, h => by
    rw [List.nil_append, elements, chunk_length (h pos List.mem_cons_self), if_neg (by omega), elements]
    rfl
  | o :: os, pos, last, h => by
    rw [List.cons_append, elements, chunk_length (h pos List.mem_cons_self), if_neg (by omega),
      elements_ok os o last fun x hx => h x (List.mem_cons_of_mem _ hx)]
    rfl

end Verif.Tia
