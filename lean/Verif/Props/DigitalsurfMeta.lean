import Verif.Spec.DigitalsurfMeta
import Verif.Lemmas.DigitalsurfComment
import Verif.Props.DigitalsurfComment
/-!
Metadata of Digital Surf files.
-/
namespace Verif.Props.DigitalsurfMeta
open Verif Verif.DigitalsurfMeta Verif.Spec.DigitalsurfMeta
open Verif.DigitalsurfComment (Node isBreak pyLines stringify popKey strNode parse units)
open Verif.Lemmas.DigitalsurfComment (pyLines_append leaves nested nested_keys name_break word_break not_blank)
open Verif.Spec.DigitalsurfComment (Sections)

/-! ### Date and time -/

theorem digit_ok {n : Nat} (h : n < 10) : digitChar n = digit n := by
  unfold digitChar digit
  rw [Nat.mod_eq_of_lt h]

theorem digit_mod (n : Nat) : digitChar (n % 10) = digit n := by
  unfold digitChar digit
  rfl

theorem two_ok {n : Nat} (h : n < 100) : two n = digits2 n := by
  unfold two
  have hn : ¬ (n : Int) < 0 := by omega
  simp only [if_neg hn, Int.natAbs_natCast]
  rw [decChars_eq]
  by_cases h1 : n < 10
  · rw [if_pos h1]
    have : n / 10 = 0 := by omega
    simp only [digits2, this, digit_ok h1]
    rfl
  · rw [if_neg h1, decChars_eq, if_pos (by omega), digit_ok (by omega), digit_mod]
    rfl

theorem four_ok {n : Nat} (h : 1000 ≤ n) (h' : n ≤ 9999) : four n = digits4 n := by
  unfold four
  have hn : ¬ (n : Int) < 0 := by omega
  simp only [if_neg hn, Int.natAbs_natCast]
  rw [decChars_eq, if_neg (by omega), decChars_eq, if_neg (by omega), decChars_eq, if_neg (by omega), decChars_eq, if_pos (by omega)]
  rw [digit_mod, digit_mod, digit_mod, digit_ok (by omega)]
  have e1 : n / 10 / 10 = n / 100 := by omega
  have e2 : n / 10 / 10 / 10 = n / 1000 := by omega
  rw [e2, e1]
  rfl

/-- **C142, date.** The date of a header is shown in the format of ISO. -/
theorem C142_date {h : Head} {c : Clock} (hc : Holds h c) (name : Text) : (generic name h).date = c.date := by
  obtain ⟨h1, h2, h3, _⟩ := hc
  have hy := c.hy
  show dateText h = _
  unfold dateText
  rw [if_neg (by rw [h1]; omega), h1, h2, h3, four_ok hy.1 hy.2, two_ok (by have := c.hm; omega), two_ok (by have := c.hd; omega)]
  rfl

/-- **C142, time, partial.** The time of a header is shown in the format of ISO. Missing: midnight, see `C142_fails_midnight`. -/
theorem C142_time_partial {h : Head} {c : Clock} (hc : Holds h c) (name : Text) (hm : ¬ (c.hour = 0 ∧ c.minute = 0 ∧ c.second = 0)) :
    (generic name h).time = c.time := by
  obtain ⟨_, _, _, h4, h5, h6⟩ := hc
  show timeText h = _
  unfold timeText
  rw [if_neg (by rw [h4, h5, h6]; omega), h4, h5, h6, two_ok (by have := c.hh; omega), two_ok (by have := c.hi; omega), two_ok (by have := c.hs; omega)]
  rfl

/-- **C142, unknown date.** A header of zeros has neither date nor time. -/
theorem C142_unknown {h : Head} (name : Text) (hd : h.year = 0 ∧ h.month = 0 ∧ h.day = 0) (ht : h.hours = 0 ∧ h.minutes = 0 ∧ h.seconds = 0) :
    (generic name h).date = [] ∧ (generic name h).time = [] := ⟨if_pos hd, if_pos ht⟩

/-- **C142, others.** Author, name of the file, and kind of signal. -/
theorem C142_others (h : Head) {name dir base : Text} (hb : '/' ∉ base) (hn : name = base ∨ name = dir ++ '/' :: base) :
    (generic name h).authors = h.operator ∧ (generic name h).filename = base ∧
    (h.zName = "CL Intensity".toList → (generic name h).signalType = "CL".toList) ∧
    (h.zName ≠ "CL Intensity".toList → (generic name h).signalType = []) := by
  refine ⟨rfl, ?_, fun e => if_pos e, fun e => if_neg e⟩
  show (splitChar '/' name).getLastD [] = base
  rcases hn with rfl | rfl
  · rw [splitChar_none hb]
    rfl
  · have : ∀ a : Text, ∃ l, l ≠ [] ∧ splitChar '/' (a ++ '/' :: base) = l ++ [base] := by
      intro a
      induction a with
      | nil => exact ⟨[[]], by simp, by simp [splitChar, splitChar_none hb]⟩
      | cons x a ih =>
        obtain ⟨l, h1, h2⟩ := ih
        rw [List.cons_append, splitChar, h2]
        split
        · exact ⟨[] :: l, by simp, rfl⟩
        · cases l with
          | nil => exact absurd rfl h1
          | cons p l => exact ⟨(x :: p) :: l, by simp, rfl⟩
    obtain ⟨l, _, hl⟩ := this dir
    rw [hl]
    simp

/-- **C142, date and time come back, partial.** What is written for a date and a time is read as the same date and time. Missing:
midnight, see `C142_fails_midnight`, a date alone, see `C142_fails_alone`, and the time zone, see `C142_fails_zone`. -/
theorem C142_back_partial {P : Parser} (hP : Parses P) (c : Clock) (zone : Option Text)
    (hz : zone = none ∨ zone = some [] ∨ ∃ z, zone = some z ∧ P.zone z = true) (hm : ¬ (c.hour = 0 ∧ c.minute = 0 ∧ c.second = 0))
    (h : Head) (name : Text) :
    ∃ l h', dateFields P (some c.date) (some c.time) zone = .ok l ∧ withFields h l = some h' ∧
      (generic name h').date = c.date ∧ (generic name h').time = c.time := by
  have e1 : given (some c.date) = some c.date := rfl
  have e2 : given (some c.time) = some c.time := rfl
  have e3 : together P c.date c.time zone = .ok ⟨c.year, c.month, c.day, c.hour, c.minute, c.second⟩ := by
    unfold together
    rw [hP c]
    rcases hz with rfl | rfl | ⟨z, rfl, hz⟩
    · rfl
    · rfl
    · cases z with
      | nil => rfl
      | cons a b =>
        simp only [bind, Except.bind, given, hz, if_true]
        rfl
  refine ⟨[c.second, c.minute, c.hour, c.day, c.month, c.year, P.weekday c.year c.month c.day], _, ?_, rfl, ?_, ?_⟩
  · unfold dateFields stampOf
    rw [e1, e2]
    simp only [bind, Except.bind, e3, pure, Except.pure]
  · exact C142_date ⟨rfl, rfl, rfl, rfl, rfl, rfl⟩ name
  · exact C142_time_partial ⟨rfl, rfl, rfl, rfl, rfl, rfl⟩ name hm

/-- **C142, no date.** Without date and time zeros are written. -/
theorem C142_no_date (P : Parser) (zone : Option Text) {date time : Option Text} (hd : date = none ∨ date = some []) (ht : time = none ∨ time = some []) :
    dateFields P date time zone = .ok [0, 0, 0, 0, 0, 0, 0] := by
  rcases hd with rfl | rfl <;> rcases ht with rfl | rfl <;> rfl

/-! ### Quantity -/

theorem stripBy_ends {p : Char → Bool} {s : Text} (h1 : ∀ c ∈ s.head?, p c = false) (h2 : ∀ c ∈ s.getLast?, p c = false) : stripBy p s = s :=
  stripBy_id h1 h2

theorem units_ends {p : Char → Bool} {u : Text} (hu : ∀ c ∈ u, p c = false) : stripBy p u = u :=
  stripBy_id (fun c hc => hu c (List.mem_of_mem_head? hc)) (fun c hc => hu c (List.mem_of_getLast? hc))

theorem unit_ok {u : Text} (hu : Units u) : unitText u = '(' :: u ++ [')'] := by
  have : stripBy (fun c => decide (c ∈ [' ', '\t', '\n', '(', ')', '[', ']'])) u = u := by
    refine units_ends fun c hc => ?_
    obtain ⟨h1, h2, h3, h4, h5⟩ := hu.2 c hc
    simp only [List.mem_cons, List.not_mem_nil, or_false, decide_eq_false_iff_not, not_or]
    refine ⟨?_, ?_, ?_, h2, h3, h4, h5⟩ <;> rintro rfl <;> exact absurd h1 (by decide)
  unfold unitText
  simp only [this, if_neg hu.1]

/-- **C142, quantity.** The quantity is the name, and the units in parentheses. -/
theorem C142_quantity (h : Head) (name : Text) (hn : Trimmed h.zName) :
    (Units h.zUnit → h.zName ≠ [] → (generic name h).quantity = h.zName ++ " (".toList ++ h.zUnit ++ [')']) ∧
    (h.zUnit = [] → (generic name h).quantity = h.zName) := by
  refine ⟨fun hu h0 => ?_, fun hu => ?_⟩
  · show quantityText h = _
    unfold quantityText
    rw [unit_ok hu, stripBy_ends]
    · simp
    · intro c hc
      refine hn.1 c ?_
      cases hz : h.zName with
      | nil => exact absurd hz h0
      | cons a b => rw [hz] at hc; exact hc
    · intro c hc
      have : (h.zName ++ ' ' :: ('(' :: h.zUnit ++ [')'])).getLast? = some ')' := by
        rw [show h.zName ++ ' ' :: ('(' :: h.zUnit ++ [')']) = (h.zName ++ ' ' :: '(' :: h.zUnit) ++ [')'] by simp, List.getLast?_append]
        rfl
      rw [this] at hc
      cases hc
      decide
  · show quantityText h = _
    unfold quantityText
    rw [hu]
    have e : unitText [] = [] := rfl
    rw [e]
    unfold stripBy
    have hl : lstripBy isSpace (h.zName ++ [' ']) = if h.zName = [] then [] else h.zName ++ [' '] := by
      split
      · rename_i h0
        rw [h0]
        rfl
      · rename_i h0
        refine lstripBy_id fun c hc => hn.1 c ?_
        cases hz : h.zName with
        | nil => exact absurd hz h0
        | cons a b => rw [hz] at hc; exact hc
    rw [hl]
    split
    · rename_i h0
      rw [h0]
      rfl
    · rw [rstripBy_append (by intro c hc; simp only [List.mem_singleton] at hc; subst hc; decide), rstripBy_id hn.2]

theorem strip_around {p : Char → Bool} {a s b : Text} (ha : ∀ c ∈ a, p c = true) (hb : ∀ c ∈ b, p c = true) (hs : ∀ c ∈ s, p c = false) (h0 : s ≠ []) :
    stripBy p (a ++ s ++ b) = s := by
  rw [stripBy_append hb]
  unfold stripBy
  have e : lstripBy p (a ++ s) = s := by
    unfold lstripBy
    rw [List.dropWhile_append_of_pos ha]
    cases s with
    | nil => exact absurd rfl h0
    | cons x xs => rw [List.dropWhile_cons, if_neg (by rw [hs x (List.mem_cons_self ..)]; decide)]
  rw [e]
  exact rstripBy_id fun c hc => hs c (List.mem_of_getLast? hc)

/-- **C142, units with brackets.** Parentheses, brackets and white space around the units of the file are not part of the units. -/
theorem C142_brackets (h : Head) (name : Text) {pre core post : Text} (hz : h.zUnit = pre ++ core ++ post)
    (hp : ∀ c ∈ pre ++ post, c = ' ' ∨ c = '\t' ∨ c = '\n' ∨ c = '(' ∨ c = ')' ∨ c = '[' ∨ c = ']') (hu : Units core) (hn : Trimmed h.zName) (h0 : h.zName ≠ []) :
    (generic name h).quantity = h.zName ++ " (".toList ++ core ++ [')'] := by
  have e : unitText h.zUnit = unitText core := by
    have hw : ∀ c ∈ pre ++ post, (fun c => decide (c ∈ [' ', '\t', '\n', '(', ')', '[', ']'])) c = true := by
      intro c hc
      simp only [List.mem_cons, List.not_mem_nil, or_false, decide_eq_true_eq]
      exact hp c hc
    have hf : ∀ c ∈ core, (fun c => decide (c ∈ [' ', '\t', '\n', '(', ')', '[', ']'])) c = false := by
      intro c hc
      obtain ⟨h1, h2, h3, h4, h5⟩ := hu.2 c hc
      simp only [List.mem_cons, List.not_mem_nil, or_false, decide_eq_false_iff_not, not_or]
      refine ⟨?_, ?_, ?_, h2, h3, h4, h5⟩ <;> rintro rfl <;> exact absurd h1 (by decide)
    unfold unitText
    dsimp only
    rw [hz, strip_around (fun c hc => hw c (List.mem_append_left _ hc)) (fun c hc => hw c (List.mem_append_right _ hc)) hf hu.1, units_ends hf]
  have := (C142_quantity { h with zUnit := core } name hn).1 hu h0
  rw [← this]
  show quantityText h = quantityText { h with zUnit := core }
  unfold quantityText
  rw [e]

example : ((" [".toList ++ "nm".toList ++ "]".toList : Text)) = " [nm]".toList ∧ Units "nm".toList := ⟨rfl, by decide, by decide⟩

theorem join_split {c : Char} : ∀ s : Text, joinWith [c] (splitChar c s) = s
  | [] => rfl
  | a :: t => by
    have ih := join_split (c := c) t
    have h0 := splitChar_ne_nil c t
    unfold splitChar
    cases hs : splitChar c t with
    | nil => exact absurd hs h0
    | cons p ps =>
      rw [hs] at ih
      split
      · rename_i h
        rw [joinWith, ih, h]
        rfl
      · cases ps with
        | nil => rw [joinWith] at ih ⊢; rw [ih]
        | cons q r =>
          rw [joinWith] at ih ⊢
          rw [← ih]
          rfl

theorem split_cat {c : Char} : ∀ a t : Text, splitChar c (a ++ c :: t) = splitChar c a ++ splitChar c t
  | [], t => by simp [splitChar]
  | x :: a, t => by
    have ih := split_cat (c := c) a t
    by_cases h : x = c
    · rw [List.cons_append, splitChar, if_pos h, splitChar, if_pos h, ih, List.cons_append]
    · rw [List.cons_append, splitChar, if_neg h, splitChar, if_neg h, ih]
      cases hs : splitChar c a with
      | nil => exact absurd hs (splitChar_ne_nil c a)
      | cons p l => rfl

/-- **C142, quantity comes back, partial.** A quantity of one word, or a name with units in parentheses, is written and read as the same.
Missing: other quantities of several words, see `C142_fails_words`. -/
theorem C142_quantity_partial (h : Head) (file : Text) {q : Text} (hq : Trimmed q)
    (ho : ' ' ∉ q ∨ ∃ n u, q = n ++ " (".toList ++ u ++ [')'] ∧ n ≠ [] ∧ Trimmed n ∧ Units u) :
    (generic file { h with zName := (zNameUnit (some q)).1, zUnit := (zNameUnit (some q)).2 }).quantity = q := by
  have hs : stripBy isSpace q = q := stripBy_ends hq.1 hq.2
  rcases ho with hn | ⟨n, u, rfl, h0, ht, hu⟩
  · have e : zNameUnit (some q) = (q, []) := by
      unfold zNameUnit
      rw [Option.getD_some, hs, splitChar_none hn]
      rfl
    rw [e]
    exact (C142_quantity _ file hq).2 rfl
  · have e : zNameUnit (some (n ++ " (".toList ++ u ++ [')'])) = (n, u) := by
      have hn' : ' ' ∉ '(' :: u ++ [')'] := by
        intro hc
        simp only [List.cons_append, List.mem_cons, List.mem_append, List.not_mem_nil, or_false] at hc
        rcases hc with hc | hc | hc
        · cases hc
        · exact absurd (hu.2 _ hc).1 (by decide)
        · cases hc
      have e1 : splitChar ' ' (n ++ " (".toList ++ u ++ [')']) = splitChar ' ' n ++ ['(' :: u ++ [')']] := by
        have : n ++ " (".toList ++ u ++ [')'] = n ++ ' ' :: ('(' :: u ++ [')']) := by simp
        rw [this, split_cat, splitChar_none hn']
      have e2 : stripBy (fun c => decide (c ∈ ['(', ')'])) ('(' :: u ++ [')']) = u := by
        have hp : ∀ c ∈ u, decide (c ∈ ['(', ')']) = false := fun c hc => by
          obtain ⟨_, h2, h3, _⟩ := hu.2 c hc
          simp [h2, h3]
        unfold stripBy
        have hl : lstripBy (fun c => decide (c ∈ ['(', ')'])) ('(' :: u ++ [')']) = u ++ [')'] := by
          unfold lstripBy
          rw [List.cons_append, List.dropWhile_cons_of_pos (by decide)]
          refine lstripBy_id (p := fun c => decide (c ∈ ['(', ')'])) fun c hc => hp c ?_
          cases hu' : u with
          | nil => exact absurd hu' hu.1
          | cons a b =>
            rw [hu'] at hc
            cases hc
            exact List.mem_cons_self ..
        rw [hl, rstripBy_append (by intro c hc; simp only [List.mem_singleton] at hc; subst hc; decide), rstripBy_id fun c hc => hp c (List.mem_of_getLast? hc)]
      unfold zNameUnit
      rw [Option.getD_some, hs, e1]
      have hl : 1 < (splitChar ' ' n ++ ['(' :: u ++ [')']]).length := by
        have := List.length_pos_iff.2 (splitChar_ne_nil ' ' n)
        simp
        omega
      simp only [if_pos hl, List.dropLast_concat, join_split]
      rw [show (splitChar ' ' n ++ ['(' :: u ++ [')']]).getLastD [] = '(' :: u ++ [')'] by simp, e2]
    rw [e]
    exact (C142_quantity _ file ht).1 hu h0

/-! ### Examples and failures -/

/-- A parser that reads the format of ISO by its digits. -/
def parser0 : Parser where
  parse t := .ok ⟨decVal (t.take 4), decVal ((t.drop 5).take 2), decVal ((t.drop 8).take 2), decVal ((t.drop 11).take 2), decVal ((t.drop 14).take 2), decVal ((t.drop 17).take 2)⟩
  zone _ := true
  weekday _ _ _ := 0

theorem digit_val (n : Nat) : (digit n).toNat - 48 = n % 10 := by
  rw [← digit_mod, digitChar_toNat (Nat.mod_lt _ (by omega))]
  omega

theorem parses0 : Parses parser0 := by
  intro c
  have h2 : ∀ n, n < 100 → decVal [digit (n / 10), digit n] = n := by
    intro n hn
    simp only [decVal, List.foldl_cons, List.foldl_nil, digit_val]
    omega
  have h4 : ∀ n, n ≤ 9999 → decVal [digit (n / 1000), digit (n / 100), digit (n / 10), digit n] = n := by
    intro n hn
    simp only [decVal, List.foldl_cons, List.foldl_nil, digit_val]
    omega
  have e : c.date ++ 'T' :: c.time = [digit (c.year / 1000), digit (c.year / 100), digit (c.year / 10), digit c.year, '-', digit (c.month / 10), digit c.month, '-',
    digit (c.day / 10), digit c.day, 'T', digit (c.hour / 10), digit c.hour, ':', digit (c.minute / 10), digit c.minute, ':', digit (c.second / 10), digit c.second] := rfl
  rw [e]
  simp only [parser0, List.take_succ_cons, List.take_zero, List.drop_succ_cons, List.drop_zero, h4 _ c.hy.2]
  rw [h2 _ (by have := c.hm; omega), h2 _ (by have := c.hd; omega), h2 _ (by have := c.hh; omega), h2 _ (by have := c.hi; omega), h2 _ (by have := c.hs; omega)]

def clock0 : Clock := ⟨2024, 1, 2, 3, 4, 5, by omega, by omega, by omega, by omega, by omega, by omega⟩
def head0 : Head := ⟨5, 4, 3, 2, 1, 2024, "me".toList, "CL Intensity".toList, "a.u.".toList⟩

example : Holds head0 clock0 := ⟨rfl, rfl, rfl, rfl, rfl, rfl⟩
example : ∃ l h', dateFields parser0 (some "2024-01-02".toList) (some "03:04:05".toList) none = .ok l ∧ withFields head0 l = some h' ∧
    (generic "a.sur".toList h').date = "2024-01-02".toList ∧ (generic "a.sur".toList h').time = "03:04:05".toList :=
  C142_back_partial parses0 clock0 none (.inl rfl) (by decide) head0 _
example : (generic "a.sur".toList head0).quantity = "CL Intensity (a.u.)".toList := by decide
example : (generic "a.sur".toList { head0 with zName := (zNameUnit (some "Surface height (nm)".toList)).1, zUnit := (zNameUnit (some "Surface height (nm)".toList)).2 }).quantity =
    "Surface height (nm)".toList :=
  C142_quantity_partial head0 _ ⟨by decide, by decide⟩ (.inr ⟨"Surface height".toList, "nm".toList, rfl, by decide, ⟨by decide, by decide⟩, by decide, by decide⟩)

/-- **C142 fails at midnight**: the time is taken to be unknown. A file that was read in this way cannot be written: a date alone
has no seconds. -/
theorem C142_fails_midnight (P : Parser) {h : Head} (c : Clock) (hc : Holds h c) (hm : c.hour = 0 ∧ c.minute = 0 ∧ c.second = 0) (name : Text) :
    (generic name h).time = [] ∧
    ∃ e, dateFields P (some (generic name h).date) (some (generic name h).time) none = .error e := by
  have e1 : (generic name h).time = [] := if_pos ⟨by rw [hc.2.2.2.1, hm.1]; rfl, by rw [hc.2.2.2.2.1, hm.2.1]; rfl, by rw [hc.2.2.2.2.2, hm.2.2]; rfl⟩
  refine ⟨e1, ?_⟩
  rw [e1, C142_date hc name]
  unfold dateFields stampOf
  have : given (some c.date) = some c.date := rfl
  rw [this]
  cases hp : P.parse c.date with
  | error e => exact ⟨e, by simp [bind, Except.bind, given, hp]⟩
  | ok t => exact ⟨.attributeError, by simp [bind, Except.bind, given, hp, pure, Except.pure]⟩

/-- **C142 fails for a date or a time alone**: such a signal cannot be written. -/
theorem C142_fails_alone (P : Parser) (t : Text) (zone : Option Text) (ht : t ≠ []) :
    (∃ e, dateFields P (some t) none zone = .error e) ∧ ∃ e, dateFields P none (some t) zone = .error e := by
  have : given (some t) = some t := by
    cases t with
    | nil => exact absurd rfl ht
    | cons a b => rfl
  have h0 : given none = none := rfl
  unfold dateFields stampOf
  rw [this, h0]
  cases hp : P.parse t with
  | error e => exact ⟨⟨e, by simp [bind, Except.bind, hp]⟩, e, by simp [bind, Except.bind, hp]⟩
  | ok t => exact ⟨⟨.attributeError, by simp [bind, Except.bind, hp, pure, Except.pure]⟩, .attributeError, by simp [bind, Except.bind, hp, pure, Except.pure]⟩

/-- **C142 fails for time zones**: they are not written. -/
theorem C142_fails_zone {P : Parser} {z z' : Text} (hz : P.zone z = true) (hz' : P.zone z' = true) (d t : Text) :
    dateFields P (some d) (some t) (some z) = dateFields P (some d) (some t) (some z') := by
  have : ∀ d t, together P d t (some z) = together P d t (some z') := by
    intro d t
    unfold together
    cases P.parse (d ++ 'T' :: t) with
    | error e => rfl
    | ok x => cases z <;> cases z' <;> simp [bind, Except.bind, given, hz, hz']
  unfold dateFields stampOf
  cases given (some d) <;> cases given (some t) <;> simp only [this]

/-- **C142 fails for quantities of several words without units**: the last word comes back as units. -/
theorem C142_fails_words : (generic [] { head0 with zName := (zNameUnit (some "Surface height".toList)).1, zUnit := (zNameUnit (some "Surface height".toList)).2 }).quantity =
    "Surface (height)".toList := by decide

/-- **C142 fails for years of less than four digits**: the date has spaces. -/
theorem C142_fails_year (name : Text) : (generic name { head0 with year := 24 }).date = "  24-01-02".toList := rfl

end Verif.Props.DigitalsurfMeta
