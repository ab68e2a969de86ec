import Mathlib.Data.List.TakeDrop
import Verif.Spec.Xml
/-! Lemmas for C81-C83. -/
namespace Verif.Lemmas.Xml
open Verif.Xml Verif.Spec.Xml

theorem isDigit_iff (c : Char) : isDigit c = true ↔ c ∈ ['0', '1', '2', '3', '4', '5', '6', '7', '8', '9'] := by
  unfold isDigit
  constructor
  · intro h
    simp only [Bool.and_eq_true, decide_eq_true_eq] at h
    have h1 : 48 ≤ c.toNat := h.1
    have h2 : c.toNat ≤ 57 := h.2
    have key : ∀ n < 58, 48 ≤ n → Char.ofNat n ∈ ['0', '1', '2', '3', '4', '5', '6', '7', '8', '9'] := by decide
    have := key c.toNat (by omega) h1
    rwa [Char.ofNat_toNat] at this
  · intro h
    revert h
    revert c
    decide

theorem span_stop {p : Char → Bool} : ∀ {ds : Text} {c : Char} {r : Text}, (∀ x ∈ ds, p x = true) → p c = false →
    (ds ++ c :: r).span p = (ds, c :: r) := by
  intro ds c r h1 h2
  rw [List.span_eq_takeWhile_dropWhile]
  congr 1
  · rw [List.takeWhile_append_of_pos h1, List.takeWhile_cons_of_neg (by simp [h2]), List.append_nil]
  · rw [List.dropWhile_append_of_pos h1, List.dropWhile_cons_of_neg (by simp [h2])]

theorem digits_stop {ds : Text} {c : Char} {r : Text} (h : Digits ds) (hc : isDigit c = false) : digits (ds ++ c :: r) = (ds, c :: r) :=
  span_stop (fun x hx => (isDigit_iff x).mpr (h x hx)) hc

theorem all_takeWhile {p : Char → Bool} : ∀ (l : Text), ∀ c ∈ l.takeWhile p, p c = true
  | [], c, hc => nomatch hc
  | x :: l, c, hc => by
    by_cases hx : p x = true
    · rw [List.takeWhile_cons_of_pos hx] at hc
      rcases List.mem_cons.mp hc with rfl | hc
      · exact hx
      · exact all_takeWhile l c hc
    · rw [List.takeWhile_cons_of_neg hx] at hc
      exact nomatch hc

theorem digits_spec (s : Text) : Digits (digits s).1 ∧ s = (digits s).1 ++ (digits s).2 := by
  unfold digits
  rw [List.span_eq_takeWhile_dropWhile]
  exact ⟨fun c hc => (isDigit_iff c).mp (all_takeWhile _ c hc), (List.takeWhile_append_dropWhile).symm⟩

theorem minus_spec (s : Text) : Sign (minus s).1 ∧ s = (minus s).1 ++ (minus s).2 := by
  unfold minus
  split
  · exact ⟨Or.inr rfl, rfl⟩
  · exact ⟨Or.inl rfl, rfl⟩

theorem minus_stop {sg r : Text} {c : Char} (h : Sign sg) (hc : c ≠ '-') : minus (sg ++ c :: r) = (sg, c :: r) := by
  rcases h with rfl | rfl
  · unfold minus
    split
    · rename_i hh
      injection hh with hh _
      exact absurd hh hc
    · rfl
  · rfl

theorem exponent_spec (s : Text) : Expo (exponent s).1 ∧ s = (exponent s).1 ++ (exponent s).2 := by
  unfold exponent
  split
  · rename_i c t
    split
    · rename_i hc
      refine ⟨Or.inr ⟨c, _, _, rfl, hc, (minus_spec t).1, (digits_spec _).1⟩, ?_⟩
      show c :: t = _
      rw [List.append_assoc, ← (digits_spec _).2, List.cons_append, ← (minus_spec t).2]
    · exact ⟨Or.inl rfl, rfl⟩
  · exact ⟨Or.inl rfl, rfl⟩

theorem exponent_stop {ex r : Text} (h : Expo ex) : exponent (ex ++ '<' :: r) = (ex, '<' :: r) := by
  rcases h with rfl | ⟨e, sg, ds, rfl, he, hs, hd⟩
  · rfl
  · unfold exponent
    have hm : minus (sg ++ ds ++ '<' :: r) = (sg, ds ++ '<' :: r) := by
      cases ds with
      | nil => rw [List.append_nil]; exact minus_stop hs (by decide)
      | cons d ds =>
        rw [List.append_assoc]
        refine minus_stop hs ?_
        intro hh
        have := hd d List.mem_cons_self
        rw [hh] at this
        exact absurd this (by decide)
    simp only [List.cons_append]
    rw [if_pos he, hm]
    dsimp only
    rw [digits_stop hd (by decide)]

theorem matchAt_complete {sg int frac ex b : Text} (hs : Sign sg) (hi : Digits int) (hn : int ≠ []) (hf : Digits frac) (he : Expo ex) :
    matchAt ('>' :: sg ++ int ++ ',' :: frac ++ ex ++ '<' :: b) = some ('>' :: sg ++ int, frac ++ ex ++ ['<'], b) := by
  have hm : minus (sg ++ (int ++ ',' :: (frac ++ (ex ++ '<' :: b)))) = (sg, int ++ ',' :: (frac ++ (ex ++ '<' :: b))) := by
    cases int with
    | nil => exact absurd rfl hn
    | cons d int =>
      refine minus_stop hs ?_
      intro hh
      have := hi d List.mem_cons_self
      rw [hh] at this
      exact absurd this (by decide)
  have hd : digits (int ++ ',' :: (frac ++ (ex ++ '<' :: b))) = (int, ',' :: (frac ++ (ex ++ '<' :: b))) := digits_stop hi (by decide)
  have hfr : digits (frac ++ (ex ++ '<' :: b)) = (frac, ex ++ '<' :: b) := by
    rcases he with rfl | ⟨e, sg', ds, rfl, he, _, _⟩
    · exact digits_stop hf (by decide)
    · refine digits_stop hf ?_
      rcases he with rfl | rfl <;> decide
  have heq : '>' :: sg ++ int ++ ',' :: frac ++ ex ++ '<' :: b = '>' :: (sg ++ (int ++ ',' :: (frac ++ (ex ++ '<' :: b)))) := by
    simp [List.append_assoc]
  rw [heq, matchAt, hm]
  dsimp only
  rw [hd]
  dsimp only
  rw [if_neg hn]
  simp only [hfr, exponent_stop he]

theorem matchAt_sound {s p q r : Text} (h : matchAt s = some (p, q, r)) :
    ∃ sg int frac ex, s = p ++ ',' :: q ++ r ∧ p = '>' :: sg ++ int ∧ q = frac ++ ex ++ ['<'] ∧ Sign sg ∧ Digits int ∧ int ≠ [] ∧ Digits frac ∧ Expo ex := by
  unfold matchAt at h
  split at h
  · rename_i t
    dsimp only at h
    split at h
    · cases h
    · rename_i hne
      split at h
      · rename_i u hu
        split at h
        · rename_i r' hr'
          injection h with h
          injection h with h1 h
          injection h with h2 h3
          refine ⟨_, _, _, _, ?_, h1.symm, h2.symm, (minus_spec t).1, (digits_spec _).1, hne, (digits_spec u).1, (exponent_spec _).1⟩
          rw [← h1, ← h2, ← h3]
          have e1 := (minus_spec t).2
          have e2 := (digits_spec (minus t).2).2
          have e3 := (digits_spec u).2
          have e4 := (exponent_spec (digits u).2).2
          rw [hr'] at e4
          rw [hu] at e2
          calc '>' :: t = '>' :: ((minus t).1 ++ (minus t).2) := by rw [← e1]
            _ = '>' :: ((minus t).1 ++ ((digits (minus t).2).1 ++ ',' :: u)) := by rw [← e2]
            _ = '>' :: ((minus t).1 ++ ((digits (minus t).2).1 ++ ',' :: ((digits u).1 ++ (digits u).2))) := by rw [← e3]
            _ = '>' :: ((minus t).1 ++ ((digits (minus t).2).1 ++ ',' :: ((digits u).1 ++ ((exponent (digits u).2).1 ++ '<' :: r')))) := by rw [← e4]
            _ = _ := by simp [List.append_assoc]
        · cases h
      · cases h
  · cases h

theorem sign_no {sg : Text} (h : Sign sg) : '>' ∉ sg ∧ '<' ∉ sg ∧ ',' ∉ sg := by
  rcases h with rfl | rfl <;> decide

theorem digits_no {ds : Text} (h : Digits ds) : '>' ∉ ds ∧ '<' ∉ ds ∧ ',' ∉ ds :=
  ⟨fun hh => absurd (h _ hh) (by decide), fun hh => absurd (h _ hh) (by decide), fun hh => absurd (h _ hh) (by decide)⟩

theorem expo_no {ex : Text} (h : Expo ex) : '>' ∉ ex ∧ '<' ∉ ex ∧ ',' ∉ ex := by
  rcases h with rfl | ⟨e, sg, ds, rfl, he, hs, hd⟩
  · decide
  · have h1 := sign_no hs
    have h2 := digits_no hd
    rcases he with rfl | rfl <;> simp [h1, h2]

theorem comma_none {c : Char} {t : Text} (h : matchAt (c :: t) = none) (i : Nat) : Comma (c :: t) i ↔ ∃ j, i = j + 1 ∧ Comma t j := by
  constructor
  · rintro ⟨a, sg, int, frac, ex, b, h1, h2, h3, h4, h5, h6, h7⟩
    cases a with
    | nil =>
      rw [List.nil_append] at h1
      rw [h1, matchAt_complete h2 h3 h4 h5 h6] at h
      cases h
    | cons x a =>
      simp only [List.cons_append, List.cons.injEq] at h1
      refine ⟨a.length + 1 + sg.length + int.length, by rw [h7, List.length_cons]; omega, a, sg, int, frac, ex, b, ?_, h2, h3, h4, h5, h6, rfl⟩
      rw [h1.2]
  · rintro ⟨j, rfl, a, sg, int, frac, ex, b, h1, h2, h3, h4, h5, h6, h7⟩
    refine ⟨c :: a, sg, int, frac, ex, b, by rw [h1]; simp, h2, h3, h4, h5, h6, by rw [h7, List.length_cons]; omega⟩

theorem comma_some {s p q r : Text} (h : matchAt s = some (p, q, r)) (i : Nat) :
    Comma s i ↔ i = p.length ∨ ∃ j, i = p.length + 1 + q.length + j ∧ Comma r j := by
  obtain ⟨sg, int, frac, ex, h1, h2, h3, hs, hi, hn, hf, he⟩ := matchAt_sound h
  have hM : '>' ∉ sg ++ int ++ ',' :: q := by
    have a1 := (sign_no hs).1
    have a2 := (digits_no hi).1
    have a3 := (digits_no hf).1
    have a4 := (expo_no he).1
    rw [h3]
    simp [a1, a2, a3, a4]
  constructor
  · rintro ⟨a, sg', int', frac', ex', b, g1, g2, g3, g4, g5, g6, g7⟩
    cases a with
    | nil =>
      left
      rw [List.nil_append] at g1
      have := matchAt_complete (b := b) g2 g3 g4 g5 g6
      rw [← g1, h] at this
      injection this with this
      injection this with this _
      rw [g7, this]
      simp
      omega
    | cons x a =>
      right
      have hlen : (p ++ ',' :: q).length ≤ (x :: a).length := by
        refine Nat.le_of_not_lt fun hlt => ?_
        have hget : s[(x :: a).length]? = some '>' := by
          rw [g1]
          simp only [List.append_assoc, List.cons_append]
          rw [← List.cons_append, List.getElem?_append_right (by simp)]
          simp
        rw [h1, List.getElem?_append_left hlt, h2] at hget
        rw [List.length_cons, List.cons_append, List.cons_append, List.getElem?_cons_succ] at hget
        exact hM (List.mem_of_getElem? hget)
      obtain ⟨a', ha'⟩ : ∃ a', x :: a = p ++ ',' :: q ++ a' := by
        have hp : p ++ ',' :: q <+: s := ⟨r, h1.symm⟩
        have hxa : x :: a <+: s := ⟨_, by rw [g1]; simp only [List.append_assoc, List.cons_append]; rfl⟩
        obtain ⟨a', ha'⟩ := List.prefix_of_prefix_length_le hp hxa hlen
        exact ⟨a', ha'.symm⟩
      refine ⟨a'.length + 1 + sg'.length + int'.length, ?_, a', sg', int', frac', ex', b, ?_, g2, g3, g4, g5, g6, rfl⟩
      · rw [g7, ha']
        simp
        omega
      · rw [ha', h1] at g1
        simp only [List.append_assoc, List.cons_append] at g1
        have := List.append_cancel_left g1
        injection this with _ this
        have := List.append_cancel_left this
        rw [this]
        simp
  · rintro (rfl | ⟨j, rfl, a, sg', int', frac', ex', b, g1, g2, g3, g4, g5, g6, g7⟩)
    · refine ⟨[], sg, int, frac, ex, r, ?_, hs, hi, hn, hf, he, ?_⟩
      · rw [h1, h2, h3]
        simp
      · rw [h2]
        simp
        omega
    · refine ⟨p ++ ',' :: q ++ a, sg', int', frac', ex', b, ?_, g2, g3, g4, g5, g6, ?_⟩
      · rw [h1, g1]
        simp
      · rw [g7]
        simp
        omega

/-- Each character of the result. -/
theorem sanitizeLoop_get : ∀ (n : Nat) (s : Text), s.length ≤ n → (sanitizeLoop n s).length = s.length ∧
    ∀ i, (Comma s i → (sanitizeLoop n s)[i]? = some '.') ∧ (¬ Comma s i → (sanitizeLoop n s)[i]? = s[i]?) := by
  intro n
  induction n with
  | zero =>
    intro s hs
    have : s = [] := List.length_eq_zero_iff.mp (by omega)
    subst this
    refine ⟨rfl, fun i => ⟨?_, fun _ => rfl⟩⟩
    rintro ⟨a, sg, int, frac, ex, b, h1, _⟩
    simp at h1
  | succ n ih =>
    intro s hs
    cases s with
    | nil =>
      refine ⟨rfl, fun i => ⟨?_, fun _ => rfl⟩⟩
      rintro ⟨a, sg, int, frac, ex, b, h1, _⟩
      simp at h1
    | cons c t =>
      cases hm : matchAt (c :: t) with
      | none =>
        have e : sanitizeLoop (n + 1) (c :: t) = c :: sanitizeLoop n t := by rw [sanitizeLoop, hm]
        obtain ⟨i1, i2⟩ := ih t (by rw [List.length_cons] at hs; omega)
        rw [e]
        refine ⟨by rw [List.length_cons, List.length_cons, i1], fun i => ?_⟩
        rw [comma_none hm]
        cases i with
        | zero =>
          refine ⟨?_, fun _ => rfl⟩
          rintro ⟨j, hj, _⟩
          omega
        | succ i =>
          rw [List.getElem?_cons_succ, List.getElem?_cons_succ]
          refine ⟨?_, ?_⟩
          · rintro ⟨j, hj, hc⟩
            have : j = i := by omega
            subst this
            exact (i2 j).1 hc
          · intro hc
            exact (i2 i).2 fun hh => hc ⟨i, rfl, hh⟩
      | some x =>
        obtain ⟨p, q, r⟩ := x
        obtain ⟨sg, int, frac, ex, h1, h2, h3, _⟩ := matchAt_sound hm
        have e : sanitizeLoop (n + 1) (c :: t) = p ++ '.' :: q ++ sanitizeLoop n r := by rw [sanitizeLoop, hm]
        have hlen : (c :: t).length = p.length + 1 + q.length + r.length := by rw [h1]; simp; omega
        obtain ⟨i1, i2⟩ := ih r (by omega)
        rw [e, h1]
        refine ⟨by simp [i1], fun i => ?_⟩
        rw [← h1, comma_some hm, h1]
        rcases Nat.lt_trichotomy i p.length with hi | hi | hi
        · have e1 : (p ++ '.' :: q ++ sanitizeLoop n r)[i]? = p[i]? := by
            rw [List.append_assoc, List.getElem?_append_left hi]
          have e2 : (p ++ ',' :: q ++ r)[i]? = p[i]? := by rw [List.append_assoc, List.getElem?_append_left hi]
          rw [e1, e2]
          refine ⟨?_, fun _ => rfl⟩
          rintro (hh | ⟨j, hh, _⟩) <;> omega
        · subst hi
          refine ⟨fun _ => ?_, fun hh => absurd (Or.inl rfl) hh⟩
          rw [List.append_assoc, List.getElem?_append_right (Nat.le_refl _)]
          simp
        · by_cases hi2 : i < p.length + 1 + q.length
          · obtain ⟨k, rfl⟩ : ∃ k, i = p.length + (k + 1) := ⟨i - p.length - 1, by omega⟩
            have hk : k < q.length := by omega
            have e1 : (p ++ '.' :: q ++ sanitizeLoop n r)[p.length + (k + 1)]? = q[k]? := by
              rw [List.append_assoc, List.getElem?_append_right (by omega), Nat.add_sub_cancel_left, List.cons_append, List.getElem?_cons_succ,
                List.getElem?_append_left hk]
            have e2 : (p ++ ',' :: q ++ r)[p.length + (k + 1)]? = q[k]? := by
              rw [List.append_assoc, List.getElem?_append_right (by omega), Nat.add_sub_cancel_left, List.cons_append, List.getElem?_cons_succ,
                List.getElem?_append_left hk]
            rw [e1, e2]
            refine ⟨?_, fun _ => rfl⟩
            rintro (hh | ⟨j, hh, _⟩) <;> omega
          · obtain ⟨k, rfl⟩ : ∃ k, i = (p ++ ',' :: q).length + k := ⟨i - (p ++ ',' :: q).length, by simp; omega⟩
            have e1 : (p ++ '.' :: q ++ sanitizeLoop n r)[(p ++ ',' :: q).length + k]? = (sanitizeLoop n r)[k]? := by
              rw [List.getElem?_append_right (by simp), show (p ++ ',' :: q).length + k - (p ++ '.' :: q).length = k by simp]
            have e2 : (p ++ ',' :: q ++ r)[(p ++ ',' :: q).length + k]? = r[k]? := by
              rw [List.getElem?_append_right (by simp), Nat.add_sub_cancel_left]
            rw [e1, e2]
            refine ⟨?_, ?_⟩
            · rintro (hh | ⟨j, hh, hc⟩)
              · rw [List.length_append, List.length_cons] at hh; omega
              · have : j = k := by rw [List.length_append, List.length_cons] at hh; omega
                subst this
                exact (i2 j).1 hc
            · intro hc
              exact (i2 k).2 fun hh => hc (Or.inr ⟨k, by rw [List.length_append, List.length_cons]; omega, hh⟩)

end Verif.Lemmas.Xml
