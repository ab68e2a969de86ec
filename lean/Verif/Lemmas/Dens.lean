import Verif.Model.Dens
import Verif.Spec.Dens
import Verif.Lemmas.HamamatsuImage
import Verif.Lemmas.RenishawData
import Mathlib.Tactic.Linarith
import Mathlib.Tactic.NormNum
/-! Lemmas for C92. -/
namespace Verif.Lemmas.Dens
open Verif.Dens Verif.Spec.Dens
open Verif.Renishaw (fitAxis)

/-! ### Clocks -/

theorem isDigit_digitChar {d : Nat} (h : d < 10) : isDigit (digitChar d) = true := by
  unfold isDigit
  rw [digitChar_toNat h]
  simp
  omega

theorem field_two {n limit : Nat} (h : n < limit) (hl : limit ≤ 100) : field (two n) limit = some n := by
  have h1 : n / 10 < 10 := by omega
  have h2 : n % 10 < 10 := by omega
  have hv : decVal (two n) = n := by
    unfold two decVal
    simp only [List.foldl_cons, List.foldl_nil, digitChar_toNat h1, digitChar_toNat h2]
    omega
  unfold field
  rw [hv, if_pos]
  exact ⟨Or.inr rfl, by simp [two, isDigit_digitChar h1, isDigit_digitChar h2], h⟩

theorem digit_ne {c d : Char} (hc : isDigit c = true) (hd : isDigit d = false) : c ≠ d := by
  intro e
  rw [e, hd] at hc
  exact absurd hc (by simp)

theorem two_no {n : Nat} (h : n < 100) {d : Char} (hd : isDigit d = false) : d ∉ two n := by
  have h1 : n / 10 < 10 := by omega
  have h2 : n % 10 < 10 := by omega
  intro hm
  simp only [two, List.mem_cons, List.not_mem_nil, or_false] at hm
  rcases hm with rfl | rfl
  · rw [isDigit_digitChar h1] at hd; exact absurd hd (by simp)
  · rw [isDigit_digitChar h2] at hd; exact absurd hd (by simp)

theorem clock_text {num : Text → Option Rat} {e : Entry} {v : Rat} (h : EntryOk num e v) : clock (clockText e) = some (clockValue e) := by
  have hh := h.h
  have hm := h.m
  have hs := h.s
  obtain ⟨f1, f2, f3⟩ := h.frac
  have hf : '.' ∉ e.frac := fun hm => absurd (f3 _ hm) (by decide)
  have hf' : ':' ∉ two e.s ++ '.' :: e.frac := by
    intro hm
    rcases List.mem_append.1 hm with hm | hm
    · exact two_no (by omega) (by decide) hm
    · rcases List.mem_cons.1 hm with hm | hm
      · exact absurd hm (by decide)
      · exact absurd (f3 _ hm) (by decide)
  have e0 : clockText e = two e.h ++ ':' :: (two e.m ++ ':' :: (two e.s ++ '.' :: e.frac)) := by simp [clockText]
  have e1 : splitChar ':' (clockText e) = [two e.h, two e.m, two e.s ++ '.' :: e.frac] := by
    rw [e0, splitChar_append (two_no (by omega) (by decide)), splitChar_append (two_no (by omega) (by decide)), splitChar_none hf']
  have e2 : splitChar '.' (two e.s ++ '.' :: e.frac) = [two e.s, e.frac] := by
    rw [splitChar_append (two_no (by omega) (by decide)), splitChar_none hf]
  have e3 : fraction e.frac = some ((decVal e.frac : Rat) / 10 ^ e.frac.length) := by
    unfold fraction
    rw [if_pos ⟨f1, f2, by simpa using f3⟩]
  have e4 : seconds (two e.s ++ '.' :: e.frac) = some ((e.s : Rat) + (decVal e.frac : Rat) / 10 ^ e.frac.length) := by
    unfold seconds
    rw [e2]
    dsimp only
    rw [field_two hs (by omega), e3]
  unfold clock
  rw [e1]
  dsimp only
  rw [field_two hh (by omega), field_two hm (by omega), e4]
  dsimp only
  unfold clockValue
  congr 1
  ring

theorem clock_range {num : Text → Option Rat} {e : Entry} {v : Rat} (h : EntryOk num e v) : 0 ≤ clockValue e ∧ clockValue e < 86400 := by
  have hd : ∀ (l : Text) (a : Nat), (∀ c ∈ l, isDigit c = true) → l.foldl (fun a c => 10 * a + (c.toNat - 48)) a < (a + 1) * 10 ^ l.length := by
    intro l
    induction l with
    | nil => intro a _; simp
    | cons c l ih =>
      intro a hl
      have hc : c.toNat - 48 ≤ 9 := by
        have := hl c (List.mem_cons_self ..)
        unfold isDigit at this
        simp at this
        omega
      rw [List.foldl_cons]
      have := ih (10 * a + (c.toNat - 48)) fun x hx => hl x (List.mem_cons_of_mem _ hx)
      have h2 : (10 * a + (c.toNat - 48) + 1) * 10 ^ l.length ≤ (10 * (a + 1)) * 10 ^ l.length := Nat.mul_le_mul_right _ (by omega)
      rw [List.length_cons, Nat.pow_succ]
      calc _ < _ := this
        _ ≤ _ := h2
        _ = _ := by ring
  have hb := hd e.frac 0 h.frac.2.2
  have hb' : decVal e.frac < 10 ^ e.frac.length := by simpa [decVal] using hb
  have hp : (0 : Rat) < 10 ^ e.frac.length := by positivity
  have hf1 : (decVal e.frac : Rat) / 10 ^ e.frac.length < 1 := by
    rw [div_lt_one hp]
    exact_mod_cast hb'
  have hf0 : (0 : Rat) ≤ (decVal e.frac : Rat) / 10 ^ e.frac.length := by positivity
  have h1 : (e.h : Rat) ≤ 23 := by exact_mod_cast (by have := h.h; omega : e.h ≤ 23)
  have h2 : (e.m : Rat) ≤ 59 := by exact_mod_cast (by have := h.m; omega : e.m ≤ 59)
  have h3 : (e.s : Rat) ≤ 59 := by exact_mod_cast (by have := h.s; omega : e.s ≤ 59)
  have p1 : (0 : Rat) ≤ e.h := by positivity
  have p2 : (0 : Rat) ≤ e.m := by positivity
  have p3 : (0 : Rat) ≤ e.s := by positivity
  unfold clockValue
  constructor
  · linarith
  · linarith

/-! ### Midnight -/

theorem addDay_get (l : List Rat) (r i : Nat) : (addDay l r).getD i 0 = if i < l.length then l.getD i 0 + (if r ≤ i then 86400 else 0) else 0 := by
  unfold addDay
  by_cases hi : i < l.length
  · rw [if_pos hi]
    by_cases hr : r ≤ i
    · rw [if_pos hr, List.getD_eq_getElem?_getD, List.getElem?_append_right (by simp; omega), List.length_take, Nat.min_eq_left (by omega), List.getElem?_map, List.getElem?_drop,
        Nat.add_sub_cancel' hr, List.getElem?_eq_getElem hi]
      simp only [Option.map_some, Option.getD_some, List.getD_eq_getElem?_getD, List.getElem?_eq_getElem hi]
      norm_num
    · rw [if_neg hr, List.getD_eq_getElem?_getD, List.getElem?_append_left (by simp; omega), List.getElem?_take_of_lt (by omega), List.getD_eq_getElem?_getD, add_zero]
  · rw [if_neg hi, List.getD_eq_getElem?_getD, List.getElem?_eq_none (by simp; omega), Option.getD_none]

theorem addDay_length (l : List Rat) (r : Nat) : (addDay l r).length = l.length := by
  unfold addDay
  rw [List.length_append, List.length_map, List.length_take, List.length_drop]
  omega

theorem fold_length : ∀ (rs : List Nat) (l : List Rat), (rs.foldl addDay l).length = l.length
  | [], _ => rfl
  | r :: rs, l => by rw [List.foldl_cons, fold_length rs, addDay_length]

theorem fold_get : ∀ (rs : List Nat) (l : List Rat) {i : Nat}, i < l.length → (rs.foldl addDay l).getD i 0 = l.getD i 0 + 86400 * ((rs.filter (· ≤ i)).length : Rat)
  | [], l, i, _ => by simp
  | r :: rs, l, i, hi => by
    rw [List.foldl_cons, fold_get rs (addDay l r) (by rw [addDay_length]; exact hi), addDay_get, if_pos hi]
    by_cases hr : r ≤ i
    · rw [if_pos hr, List.filter_cons_of_pos (by simpa using hr), List.length_cons]
      push_cast
      ring
    · rw [if_neg hr, List.filter_cons_of_neg (by simpa using hr)]
      ring

theorem rollovers_count (l : List Rat) {i : Nat} (hi : i < l.length) : ((rollovers l).filter (· ≤ i)).length = ((List.range i).filter fun k => l.getD (k + 1) 0 - l.getD k 0 < 0).length := by
  unfold rollovers
  rw [List.filter_map, List.length_map, List.filter_filter]
  obtain ⟨m, hm⟩ : ∃ m, l.length - 1 = i + m := ⟨l.length - 1 - i, by omega⟩
  rw [hm, List.range_add, List.filter_append, List.length_append]
  have e1 : ((List.range i).filter fun a => (((fun x => decide (x ≤ i)) ∘ fun x => 1 + x) a && decide (l.getD (a + 1) 0 - l.getD a 0 < 0))) =
      (List.range i).filter fun k => decide (l.getD (k + 1) 0 - l.getD k 0 < 0) := by
    apply List.filter_congr
    intro k hk
    have : k < i := List.mem_range.1 hk
    simp
    intro _
    omega
  have e2 : (((List.range m).map (i + ·)).filter fun a => (((fun x => decide (x ≤ i)) ∘ fun x => 1 + x) a && decide (l.getD (a + 1) 0 - l.getD a 0 < 0))) = [] := by
    rw [List.filter_eq_nil_iff]
    intro a ha
    obtain ⟨k, _, rfl⟩ := List.mem_map.1 ha
    simp
    intro h
    omega
  rw [e1, e2]
  rfl

theorem unroll_length (l : List Rat) : (unroll l).length = l.length := fold_length _ _

theorem unroll_get {T : List Rat} {day : List Nat} {clocks : List Rat} (h : Happened T day clocks) : ∀ {i : Nat}, i < clocks.length →
    (unroll clocks).getD i 0 = T.getD i 0 - 86400 * (day.getD 0 0 : Rat) := by
  have hc : ∀ i, i < clocks.length → (((List.range i).filter fun k => clocks.getD (k + 1) 0 - clocks.getD k 0 < 0).length : Rat) = (day.getD i 0 : Rat) - day.getD 0 0 := by
    intro i
    induction i with
    | zero => intro _; simp
    | succ i ih =>
      intro hi
      have ihi := ih (by omega)
      have c0 := h.clock i (by omega)
      have c1 := h.clock (i + 1) hi
      obtain ⟨a0, b0⟩ := h.range i (by omega)
      obtain ⟨a1, b1⟩ := h.range (i + 1) hi
      have hf := h.forward i hi
      have hw := h.within i hi
      rw [List.range_succ, List.filter_append, List.length_append]
      push_cast
      rw [ihi]
      by_cases hlt : clocks.getD (i + 1) 0 - clocks.getD i 0 < 0
      · rw [List.filter_cons_of_pos (by simpa using hlt)]
        have g1 : (day.getD i 0 : Rat) < (day.getD (i + 1) 0 : Rat) := by linarith
        have g2 : (day.getD (i + 1) 0 : Rat) < (day.getD i 0 : Rat) + 2 := by linarith
        have g1' : day.getD i 0 < day.getD (i + 1) 0 := by exact_mod_cast g1
        have g2' : day.getD (i + 1) 0 < day.getD i 0 + 2 := by exact_mod_cast g2
        have g3 : day.getD (i + 1) 0 = day.getD i 0 + 1 := by omega
        rw [g3]
        push_cast
        simp
        ring
      · rw [List.filter_cons_of_neg (by simpa using hlt)]
        have g1 : (day.getD i 0 : Rat) < (day.getD (i + 1) 0 : Rat) + 1 := by linarith
        have g2 : (day.getD (i + 1) 0 : Rat) < (day.getD i 0 : Rat) + 1 := by linarith
        have g1' : day.getD i 0 < day.getD (i + 1) 0 + 1 := by exact_mod_cast g1
        have g2' : day.getD (i + 1) 0 < day.getD i 0 + 1 := by exact_mod_cast g2
        have g3 : day.getD (i + 1) 0 = day.getD i 0 := by omega
        rw [g3]
        simp
  intro i hi
  unfold unroll
  rw [fold_get _ _ hi, rollovers_count _ hi, hc i hi, h.clock i hi]
  ring

theorem unroll_eq {T : List Rat} {day : List Nat} {clocks : List Rat} (h : Happened T day clocks) : unroll clocks = T.map (· - 86400 * (day.getD 0 0 : Rat)) := by
  apply List.ext_getElem
  · rw [unroll_length, List.length_map, h.length.1]
  · intro i h1 h2
    have hi : i < clocks.length := by rwa [unroll_length] at h1
    have hT : i < T.length := by rw [h.length.1]; exact hi
    have := unroll_get h hi
    rw [List.getD_eq_getElem?_getD, List.getD_eq_getElem?_getD, List.getElem?_eq_getElem h1, List.getElem?_eq_getElem hT] at this
    simpa using this

/-! ### Files -/

theorem strip_blank {b : Text} (h : ∀ c ∈ b, isSpace c = true) : stripBy isSpace b = [] := by
  unfold stripBy lstripBy
  rw [dropWhile_all h]
  rfl

theorem skip_blanks {l : Text} (hl : stripBy isSpace l ≠ []) (ls : List Text) : ∀ {bs : List Text}, (∀ b ∈ bs, ∀ c ∈ b, isSpace c = true) → skipBlank (bs ++ l :: ls) = some (l, ls)
  | [], _ => by
    rw [List.nil_append, skipBlank, if_neg hl]
  | b :: bs, h => by
    rw [List.cons_append, skipBlank, if_pos (strip_blank (h b (List.mem_cons_self ..))), skip_blanks hl ls fun x hx => h x (List.mem_cons_of_mem _ hx)]

theorem mapM_ok {α β : Type} {f : α → Py β} {g : α → β} : ∀ {l : List α}, (∀ x ∈ l, f x = .ok (g x)) → l.mapM f = .ok (l.map g)
  | [], _ => rfl
  | a :: l, h => by
    rw [List.mapM_cons, h a (List.mem_cons_self ..), mapM_ok fun x hx => h x (List.mem_cons_of_mem _ hx)]
    rfl

theorem mapM_pair {α β : Type} {f : α → Py β} : ∀ {l : List α} {vs : List β}, l.map f = vs.map .ok → l.mapM f = .ok vs
  | [], [], _ => rfl
  | [], _ :: _, h => absurd h (by simp)
  | _ :: _, [], h => absurd h (by simp)
  | a :: l, v :: vs, h => by
    simp only [List.map_cons, List.cons.injEq] at h
    rw [List.mapM_cons, h.1, mapM_pair h.2]
    rfl

end Verif.Lemmas.Dens
