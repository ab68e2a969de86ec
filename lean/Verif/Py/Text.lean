import Verif.Py.Basic
/-!
Python text (`str`) as lists of characters: stripping, splitting, and the universal newlines of
files opened in text mode.
-/
namespace Verif

abbrev Text := List Char

/-- `str.isspace` of a character (the characters removed by `str.strip()`). -/
def isSpace (c : Char) : Bool :=
  let n := c.toNat
  (9 ≤ n && n ≤ 13) || (28 ≤ n && n ≤ 32) || n == 0x85 || n == 0xA0 || n == 0x1680 ||
    (0x2000 ≤ n && n ≤ 0x200A) || n == 0x2028 || n == 0x2029 || n == 0x202F || n == 0x205F ||
    n == 0x3000

def lstripBy (p : Char → Bool) (s : Text) : Text := s.dropWhile p
def rstripBy (p : Char → Bool) (s : Text) : Text := (s.reverse.dropWhile p).reverse

/-- `str.strip(chars)`. -/
def stripBy (p : Char → Bool) (s : Text) : Text := rstripBy p (lstripBy p s)

/-- `str.ljust(n)`, the `%-ns` format. -/
def ljust (n : Nat) (s : Text) : Text := s ++ List.replicate (n - s.length) ' '

/-- `s.split(c)` for a single character. -/
def splitChar (c : Char) : Text → List Text
  | [] => [[]]
  | a :: t =>
    if a = c then [] :: splitChar c t
    else match splitChar c t with
      | [] => [[a]]
      | p :: ps => (a :: p) :: ps

/-- `s.split(cd)` for a separator of two different characters. -/
def splitPair (c d : Char) : Text → List Text
  | [] => [[]]
  | [a] => [[a]]
  | a :: b :: t =>
    if a = c ∧ b = d then [] :: splitPair c d t
    else match splitPair c d (b :: t) with
      | [] => [[a]]
      | p :: ps => (a :: p) :: ps

/-- Universal newlines: `\r\n` and `\r` become `\n`. -/
def normNewlines : Text → Text
  | [] => []
  | [c] => if c = '\r' then ['\n'] else [c]
  | c :: d :: t =>
    if c = '\r' then
      if d = '\n' then '\n' :: normNewlines t else '\n' :: normNewlines (d :: t)
    else c :: normNewlines (d :: t)

/-- Iterating over a text file: lines with their newline. -/
def splitLines : Text → List Text
  | [] => []
  | c :: t =>
    if c = '\n' then ['\n'] :: splitLines t
    else match splitLines t with
      | [] => [[c]]
      | p :: ps => (c :: p) :: ps

def fileLines (s : Text) : List Text := splitLines (normNewlines s)

/-! ### Lemmas -/

theorem rstripBy_id {p : Char → Bool} {s : Text} (h : ∀ c, s.getLast? = some c → p c = false) :
    rstripBy p s = s := by
  unfold rstripBy
  rw [← List.head?_reverse] at h
  cases hr : s.reverse with
  | nil =>
    have : s = [] := by simpa using hr
    simp [this]
  | cons c t =>
    rw [hr] at h
    have := h c rfl
    rw [List.dropWhile_cons_of_neg (by simp [this]), ← hr, List.reverse_reverse]

theorem rstripBy_append {p : Char → Bool} {s t : Text} (ht : ∀ c ∈ t, p c = true) :
    rstripBy p (s ++ t) = rstripBy p s := by
  unfold rstripBy
  rw [List.reverse_append]
  have : ∀ r : Text, (∀ c ∈ r, p c = true) → ∀ u, (r ++ u).dropWhile p = u.dropWhile p := by
    intro r
    induction r with
    | nil => intro _ u; rfl
    | cons c r ih =>
      intro h u
      rw [List.cons_append, List.dropWhile_cons_of_pos (h c (List.mem_cons_self ..))]
      exact ih (fun d hd => h d (List.mem_cons_of_mem _ hd)) u
  rw [this t.reverse (fun c hc => ht c (List.mem_reverse.1 hc))]

theorem lstripBy_id {p : Char → Bool} {s : Text} (h : ∀ c, s.head? = some c → p c = false) :
    lstripBy p s = s := by
  unfold lstripBy
  cases s with
  | nil => rfl
  | cons c t => rw [List.dropWhile_cons_of_neg (by simp [h c rfl])]

theorem splitChar_ne_nil (c : Char) : ∀ s, splitChar c s ≠ []
  | [] => by simp [splitChar]
  | a :: t => by
    unfold splitChar
    split
    · simp
    · split <;> simp

theorem splitChar_none {c : Char} : ∀ {s : Text}, c ∉ s → splitChar c s = [s]
  | [], _ => rfl
  | a :: t, h => by
    have ha : a ≠ c := fun e => h (by simp [e])
    have ht : c ∉ t := fun m => h (List.mem_cons_of_mem _ m)
    unfold splitChar
    rw [if_neg ha, splitChar_none ht]

theorem splitChar_append {c : Char} : ∀ {s t : Text}, c ∉ s →
    splitChar c (s ++ c :: t) = s :: splitChar c t
  | [], t, _ => by simp [splitChar]
  | a :: s, t, h => by
    have ha : a ≠ c := fun e => h (by simp [e])
    have hs : c ∉ s := fun m => h (List.mem_cons_of_mem _ m)
    rw [List.cons_append, splitChar, if_neg ha, splitChar_append hs]

theorem splitPair_none {c d : Char} : ∀ {s : Text}, ¬ [c, d] <:+: s → splitPair c d s = [s]
  | [], _ => rfl
  | [a], _ => rfl
  | a :: b :: t, h => by
    have h1 : ¬ (a = c ∧ b = d) := fun e => h (by rw [e.1, e.2]; exact ⟨[], t, rfl⟩)
    have h2 : ¬ [c, d] <:+: (b :: t) := fun e => h (List.infix_cons e)
    unfold splitPair
    rw [if_neg h1, splitPair_none h2]

theorem splitPair_append {c d : Char} : ∀ {s t : Text}, c ∉ s →
    splitPair c d (s ++ c :: d :: t) = s :: splitPair c d t
  | [], t, _ => by simp [splitPair]
  | [a], t, h => by
    have ha : a ≠ c := fun e => h (by simp [e])
    simp [splitPair, ha]
  | a :: b :: s, t, h => by
    have ha : a ≠ c := fun e => h (by simp [e])
    have hs : c ∉ b :: s := fun m => h (List.mem_cons_of_mem _ m)
    have ih := splitPair_append (d := d) (t := t) hs
    rw [List.cons_append] at ih
    rw [List.cons_append, List.cons_append, splitPair, if_neg (fun e => ha e.1), ih]

theorem fileLines_crlf : ∀ {s : Text} (t : Text), '\r' ∉ s → '\n' ∉ s →
    fileLines (s ++ '\r' :: '\n' :: t) = (s ++ ['\n']) :: fileLines t := by
  have h1 : ∀ {s : Text} (t : Text), '\r' ∉ s →
      normNewlines (s ++ '\r' :: '\n' :: t) = s ++ '\n' :: normNewlines t := by
    intro s
    induction s with
    | nil => intro t _; simp [normNewlines]
    | cons c s ih =>
      intro t h
      have hc : c ≠ '\r' := fun e => h (by simp [e])
      have hs : '\r' ∉ s := fun m => h (List.mem_cons_of_mem _ m)
      have := ih t hs
      cases s with
      | nil => simp [normNewlines, hc] at this ⊢
      | cons d s =>
        simp only [List.cons_append] at this ⊢
        rw [normNewlines, if_neg hc, this]
  have h2 : ∀ {s : Text} (t : Text), '\n' ∉ s →
      splitLines (s ++ '\n' :: t) = (s ++ ['\n']) :: splitLines t := by
    intro s
    induction s with
    | nil => intro t _; simp [splitLines]
    | cons c s ih =>
      intro t h
      have hc : c ≠ '\n' := fun e => h (by simp [e])
      have hs : '\n' ∉ s := fun m => h (List.mem_cons_of_mem _ m)
      rw [List.cons_append, splitLines, if_neg hc, ih t hs]
      rfl
  intro s t hr hn
  unfold fileLines
  rw [h1 t hr, h2 _ hn]

theorem fileLines_lf : ∀ {s : Text} (t : Text), '\r' ∉ s → '\n' ∉ s →
    fileLines (s ++ '\n' :: t) = (s ++ ['\n']) :: fileLines t := by
  have h1 : ∀ {s : Text} (t : Text), '\r' ∉ s →
      normNewlines (s ++ '\n' :: t) = s ++ '\n' :: normNewlines t := by
    intro s
    induction s with
    | nil =>
      intro t _
      cases t with
      | nil => rfl
      | cons d t => simp [normNewlines]
    | cons c s ih =>
      intro t h
      have hc : c ≠ '\r' := fun e => h (by simp [e])
      have hs : '\r' ∉ s := fun m => h (List.mem_cons_of_mem _ m)
      have := ih t hs
      cases s with
      | nil =>
        simp only [List.nil_append, List.cons_append] at this ⊢
        rw [normNewlines, if_neg hc, this]
      | cons d s =>
        simp only [List.cons_append] at this ⊢
        rw [normNewlines, if_neg hc, this]
  have h2 : ∀ {s : Text} (t : Text), '\n' ∉ s →
      splitLines (s ++ '\n' :: t) = (s ++ ['\n']) :: splitLines t := by
    intro s
    induction s with
    | nil => intro t _; simp [splitLines]
    | cons c s ih =>
      intro t h
      have hc : c ≠ '\n' := fun e => h (by simp [e])
      have hs : '\n' ∉ s := fun m => h (List.mem_cons_of_mem _ m)
      rw [List.cons_append, splitLines, if_neg hc, ih t hs]
      rfl
  intro s t hr hn
  unfold fileLines
  rw [h1 t hr, h2 _ hn]

theorem stripBy_id {p : Char → Bool} {s : Text} (hh : ∀ c ∈ s.head?, p c = false)
    (hl : ∀ c ∈ s.getLast?, p c = false) : stripBy p s = s := by
  unfold stripBy
  rw [lstripBy_id hh, rstripBy_id hl]

/-- A pattern without the character `c` does not reach over a `c`. -/
theorem infix_append_cons {pat b : Text} {c : Char} (hc : c ∉ pat) :
    ∀ {a : Text}, pat <:+: a ++ c :: b → pat <:+: a ∨ pat <:+: b
  | [], h => by
    rw [List.nil_append, List.infix_cons_iff] at h
    rcases h with h | h
    · cases pat with
      | nil => exact .inl ⟨[], [], rfl⟩
      | cons d pat =>
        obtain ⟨t, ht⟩ := h
        rw [List.cons_append] at ht
        injection ht with e _
        exact absurd (by simp [e]) hc
    · exact .inr h
  | x :: a, h => by
    rw [List.cons_append, List.infix_cons_iff] at h
    rcases h with h | h
    · left
      by_cases hl : pat.length ≤ (x :: a).length
      · exact (List.prefix_of_prefix_length_le h (List.prefix_append (x :: a) (c :: b)) hl).isInfix
      · exfalso
        have h2 : (x :: a) ++ [c] <+: x :: (a ++ c :: b) := ⟨b, by simp⟩
        have := List.prefix_of_prefix_length_le h2 h (by simp at hl ⊢; omega)
        exact hc (this.subset (by simp))
    · rcases infix_append_cons hc h with h | h
      · exact .inl (List.infix_cons h)
      · exact .inr h

end Verif
