import Verif.Lemmas.DigitalsurfComment
/-!
C72: comments of Digital Surf files.
-/
namespace Verif.Props.DigitalsurfComment
open Verif.DigitalsurfComment Verif.Spec.DigitalsurfComment Verif.Lemmas.DigitalsurfComment

/-- C72. A dictionary of sections with values of one word comes back: the same titles in the same order, and for each section the
same value for every key, units included. -/
theorem C72_partial {V : Type} {str : V → Text} {strDict : List (Text × Node V) → Text} {lit : Text → Option V} {ofText : Text → V}
    {d : List (Text × List (Text × V))} (hd : Sections str lit ofText d) :
    ∃ r, parse lit ofText ['$'] '=' (stringify str strDict (d.map fun e => (e.1, .dict (e.2.map fun x => (x.1, .leaf x.2))))) = r ∧
      r.map Prod.fst = d.map Prod.fst ∧ ∀ e ∈ d, ∃ m, getKw e.1 r = some m ∧ ∀ k, getKw k m = getKw k e.2 := by
  obtain ⟨s', q1, q2, -, q4⟩ := run_all (strDict := strDict) (s := ⟨[], none⟩) hd (by simp)
  refine ⟨s'.dict, ?_, by simpa using q2, q4⟩
  unfold parse
  rw [← q1]
  rfl

/-- C72. Lines without the prefix change nothing. -/
theorem C72_ignored {V : Type} {lit : Text → Option V} {ofText : Text → V} {delim : Char} {c : Char} {a b : Text} {line : Text}
    (hl : ∀ x ∈ line, isBreak x = false) (hp : line.head? ≠ some c) (s : State V) :
    (pyLines (line ++ '\n' :: b)).foldl (step lit ofText (c :: a) delim) s = (pyLines b).foldl (step lit ofText (c :: a) delim) s := by
  rw [pyLines_append _ hl, List.foldl_cons]
  have : step lit ofText (c :: a) delim s line = s := by
    unfold step
    split
    · rfl
    · rw [if_neg, if_neg]
      · rintro ⟨t, rfl⟩
        simp at hp
      · rintro ⟨t, rfl⟩
        simp at hp
  rw [this]

/-! ### Concrete dictionaries -/

/-- Values for the examples. -/
inductive Leaf
  | nat (n : Nat)
  | text (t : Text)
  | list (t : Text)
  deriving DecidableEq

def digitVal (c : Char) : Option Nat := if '0' ≤ c ∧ c ≤ '9' then some (c.toNat - 48) else none

def natOf (t : Text) : Option Nat := t.foldl (fun r c => match r, digitVal c with
  | some n, some d => some (10 * n + d)
  | _, _ => none) (some 0)

/-- `ast.literal_eval` for numbers. -/
def literal (t : Text) : Option Leaf := if t = [] then none else (natOf t).map .nat

def show_ : Leaf → Text
  | .nat n => (Nat.repr n).toList
  | .text t => t
  | .list t => t

def word (s : String) : Leaf := .text s.toList

def back (d : List (Text × Node Leaf)) : List (Text × List (Text × Leaf)) :=
  parse literal .text ['$'] '=' (stringify show_ (fun _ => []) d)

def example_ : List (Text × List (Text × Leaf)) :=
  [("SITE IMAGE".toList, [("Gain".toList, .nat 4), ("Gain_units".toList, word "V"), ("Mode".toList, word "CL")]),
   ("SEM".toList, [("Width".toList, .nat 5), ("Grating".toList, word "150")])]

example : Sections show_ literal .text example_ := by
  refine ⟨by decide, ?_, by decide⟩
  intro e he
  have hk : ∀ k ∈ ["SITE IMAGE", "SEM", "Gain", "Gain_units", "Mode", "Width", "Grating"], Key k.toList := by
    intro k hk
    simp only [List.mem_cons, List.not_mem_nil, or_false] at hk
    unfold Key Name
    rcases hk with rfl | rfl | rfl | rfl | rfl | rfl | rfl <;> refine ⟨⟨?_, ?_, ?_⟩, ?_, ?_⟩ <;> decide
  simp only [example_, List.mem_cons, List.not_mem_nil, or_false] at he
  rcases he with rfl | rfl
  · refine ⟨(hk "SITE IMAGE" (by simp)).1, by decide, ?_, ?_⟩
    · intro e he
      simp only [List.mem_cons, List.not_mem_nil, or_false] at he
      unfold Word Reads
      rcases he with rfl | rfl | rfl
      · exact ⟨hk "Gain" (by simp), by decide, .inl (by decide)⟩
      · exact ⟨hk "Gain_units" (by simp), by decide, .inr (by decide)⟩
      · exact ⟨hk "Mode" (by simp), by decide, .inr (by decide)⟩
    · decide
  · refine ⟨(hk "SEM" (by simp)).1, by decide, ?_, by decide⟩
    intro e he
    simp only [List.mem_cons, List.not_mem_nil, or_false] at he
    unfold Word Reads
    rcases he with rfl | rfl
    · exact ⟨hk "Width" (by simp), by decide, .inl (by decide)⟩
    · exact ⟨hk "Grating" (by simp), by decide, .inr (by decide)⟩

example : back (example_.map fun e => (e.1, .dict (e.2.map fun x => (x.1, .leaf x.2)))) = example_ := by decide +kernel

/-- C72 fails. A text of two words is cut, and its second word becomes the units; a third is lost. -/
theorem C72_fails_words : back [("S".toList, .dict [("Detector".toList, .leaf (word "big green one"))])] =
    [("S".toList, [("Detector".toList, word "big"), ("Detector_units".toList, word "green")])] := by decide +kernel

/-- C72 fails. A text is cut at an equals sign. -/
theorem C72_fails_equals : back [("S".toList, .dict [("Filter".toList, .leaf (word "a=b"))])] =
    [("S".toList, [("Filter".toList, word "a")])] := by decide +kernel

/-- C72 fails. A text of digits becomes a number. -/
theorem C72_fails_number : back [("S".toList, .dict [("Name".toList, .leaf (word "12"))])] =
    [("S".toList, [("Name".toList, .nat 12)])] := by decide +kernel

/-- C72 fails. A list is written with spaces and comes back as the text `[1,` with the units `2]`. -/
theorem C72_fails_list : back [("S".toList, .dict [("L".toList, .leaf (.list "[1, 2]".toList))])] =
    [("S".toList, [("L".toList, word "[1,"), ("L_units".toList, word "2]")])] := by decide +kernel

/-- C72 fails. A section within a section ends the outer one: what follows it in the outer section is moved to the inner one. -/
theorem C72_fails_nested : back [("A".toList, .dict [("B".toList, .dict [("x".toList, .leaf (.nat 1))]), ("y".toList, .leaf (.nat 2))])] =
    [("A".toList, []), ("B".toList, [("x".toList, .nat 1), ("y".toList, .nat 2)])] := by decide +kernel

/-- C72 fails. A value beside the sections is moved to the section before it. -/
theorem C72_fails_beside : back [("A".toList, .dict [("x".toList, .leaf (.nat 1))]), ("y".toList, .leaf (.nat 2))] =
    [("A".toList, [("x".toList, .nat 1), ("y".toList, .nat 2)])] := by decide +kernel

/-- C72 fails. The units are searched in all that is left: a section whose title is the name of units is removed. -/
theorem C72_fails_units : back [("A".toList, .dict [("x".toList, .leaf (.nat 1))]), ("x_units".toList, .dict [("y".toList, .leaf (.nat 2))])] =
    [("A".toList, [("x".toList, .nat 1)])] := by decide +kernel

/-- C72 fails. A key that begins with an underscore becomes a title. -/
theorem C72_fails_underscore : back [("A".toList, .dict [("_x".toList, .leaf (.nat 1))])] =
    [("A".toList, []), ("x = 1".toList, [])] := by decide +kernel

end Verif.Props.DigitalsurfComment
