import Verif.Py.Text
/-! Python text: `str.split()`, `str.join`, and files made of lines. -/
namespace Verif

/-- Splitting at every character with a property. -/
def splitBy (p : Char → Bool) : Text → List Text
  | [] => [[]]
  | a :: t =>
    if p a then [] :: splitBy p t
    else match splitBy p t with
      | [] => [[a]]
      | q :: qs => (a :: q) :: qs

/-- `s.split()`. -/
def words (s : Text) : List Text := (splitBy isSpace s).filter (· ≠ [])

/-- `c.join(cells)`. -/
def joinWith (sep : Text) : List Text → Text
  | [] => []
  | [p] => p
  | p :: q :: r => p ++ sep ++ joinWith sep (q :: r)

/-- The text of a file: lines, all with a newline. -/
def linesText (ls : List Text) : Text := (ls.map (· ++ ['\n'])).flatten

theorem splitBy_none {p : Char → Bool} : ∀ {s : Text}, (∀ c ∈ s, p c = false) → splitBy p s = [s]
  | [], _ => rfl
  | a :: t, h => by
    have ha : p a = false := h a (List.mem_cons_self ..)
    unfold splitBy
    rw [if_neg (by simp [ha]), splitBy_none fun c hc => h c (List.mem_cons_of_mem _ hc)]

theorem splitBy_append {p : Char → Bool} {d : Char} (hd : p d = true) : ∀ {s t : Text}, (∀ c ∈ s, p c = false) → splitBy p (s ++ d :: t) = s :: splitBy p t
  | [], t, _ => by simp [splitBy, hd]
  | a :: s, t, h => by
    have ha : p a = false := h a (List.mem_cons_self ..)
    rw [List.cons_append, splitBy, if_neg (by simp [ha]), splitBy_append hd fun c hc => h c (List.mem_cons_of_mem _ hc)]

theorem words_cons {s t : Text} {d : Char} (hd : isSpace d = true) (hs : ∀ c ∈ s, isSpace c = false) (hne : s ≠ []) : words (s ++ d :: t) = s :: words t := by
  unfold words
  rw [splitBy_append hd hs, List.filter_cons_of_pos (by simpa using hne)]

theorem words_blank : ∀ {s : Text}, (∀ c ∈ s, isSpace c = true) → words s = []
  | [], _ => rfl
  | a :: s, h => by
    have ih := words_blank (s := s) fun c hc => h c (List.mem_cons_of_mem _ hc)
    unfold words at ih ⊢
    rw [splitBy, if_pos (h a (List.mem_cons_self ..)), List.filter_cons_of_neg (by simp), ih]

theorem words_single {s t : Text} (hs : ∀ c ∈ s, isSpace c = false) (hne : s ≠ []) (ht : ∀ c ∈ t, isSpace c = true) : words (s ++ t) = [s] := by
  cases t with
  | nil =>
    unfold words
    rw [List.append_nil, splitBy_none hs]
    simp [hne]
  | cons d t => rw [words_cons (ht d (List.mem_cons_self ..)) hs hne, words_blank fun c hc => ht c (List.mem_cons_of_mem _ hc)]

theorem words_join {d : Char} (hd : isSpace d = true) {t : Text} (ht : ∀ c ∈ t, isSpace c = true) : ∀ {cells : List Text}, (∀ p ∈ cells, p ≠ [] ∧ ∀ c ∈ p, isSpace c = false) →
    words (joinWith [d] cells ++ t) = cells
  | [], _ => words_blank ht
  | [p], h => words_single (h p (by simp)).2 (h p (by simp)).1 ht
  | p :: q :: r, h => by
    rw [joinWith, List.append_assoc, List.append_assoc, List.singleton_append, words_cons hd (h p (by simp)).2 (h p (by simp)).1,
      words_join hd ht fun x hx => h x (List.mem_cons_of_mem _ hx)]

theorem splitChar_join {c : Char} : ∀ {cells : List Text}, cells ≠ [] → (∀ p ∈ cells, c ∉ p) → splitChar c (joinWith [c] cells) = cells
  | [], h, _ => absurd rfl h
  | [p], _, h => splitChar_none (h p (by simp))
  | p :: q :: r, _, h => by
    rw [joinWith, List.append_assoc, List.singleton_append, splitChar_append (h p (by simp)), splitChar_join (by simp) fun x hx => h x (List.mem_cons_of_mem _ hx)]

theorem mem_join {sep : Text} {x : Char} : ∀ {cells : List Text}, x ∈ joinWith sep cells → x ∈ sep ∨ ∃ p ∈ cells, x ∈ p
  | [], h => by simp [joinWith] at h
  | [p], h => Or.inr ⟨p, by simp, h⟩
  | p :: q :: r, h => by
    rw [joinWith, List.mem_append, List.mem_append] at h
    rcases h with (h | h) | h
    · exact Or.inr ⟨p, by simp, h⟩
    · exact Or.inl h
    · rcases mem_join h with h | ⟨y, hy, h⟩
      · exact Or.inl h
      · exact Or.inr ⟨y, List.mem_cons_of_mem _ hy, h⟩

theorem fileLines_lines : ∀ {ls : List Text}, (∀ l ∈ ls, '\n' ∉ l ∧ '\r' ∉ l) → fileLines (linesText ls) = ls.map (· ++ ['\n'])
  | [], _ => rfl
  | l :: ls, h => by
    have hl := h l (List.mem_cons_self ..)
    have e : linesText (l :: ls) = l ++ '\n' :: linesText ls := by simp [linesText]
    rw [e, fileLines_lf _ hl.2 hl.1, fileLines_lines fun x hx => h x (List.mem_cons_of_mem _ hx)]
    rfl

theorem dropWhile_all {p : Char → Bool} : ∀ {s : Text}, (∀ c ∈ s, p c = true) → s.dropWhile p = []
  | [], _ => rfl
  | a :: s, h => by
    rw [List.dropWhile_cons_of_pos (h a (List.mem_cons_self ..))]
    exact dropWhile_all fun c hc => h c (List.mem_cons_of_mem _ hc)

theorem stripBy_append {p : Char → Bool} {s t : Text} (ht : ∀ c ∈ t, p c = true) : stripBy p (s ++ t) = stripBy p s := by
  unfold stripBy
  by_cases hs : ∀ c ∈ s, p c = true
  · have e1 : lstripBy p (s ++ t) = [] := by
      unfold lstripBy
      apply dropWhile_all
      intro c hc
      rcases List.mem_append.1 hc with hc | hc
      · exact hs c hc
      · exact ht c hc
    have e2 : lstripBy p s = [] := by
      unfold lstripBy
      exact dropWhile_all hs
    rw [e1, e2]
  · have e : lstripBy p (s ++ t) = lstripBy p s ++ t := by
      unfold lstripBy
      induction s with
      | nil => exact absurd (by simp) hs
      | cons a s ih =>
        by_cases ha : p a = true
        · rw [List.cons_append, List.dropWhile_cons_of_pos ha, List.dropWhile_cons_of_pos ha]
          apply ih
          intro h
          apply hs
          intro c hc
          rcases List.mem_cons.1 hc with rfl | hc
          · exact ha
          · exact h c hc
        · rw [List.cons_append, List.dropWhile_cons_of_neg (by simpa using ha), List.dropWhile_cons_of_neg (by simpa using ha)]
          rfl
    rw [e, rstripBy_append ht]

end Verif
