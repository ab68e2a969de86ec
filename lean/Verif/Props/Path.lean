import Verif.Model.Path
import Mathlib.Data.List.Perm.Subperm
/-! Properties C12-C13: file names. -/
namespace Verif.Props.Path
open Verif Verif.Path

/-! ### C12 -/

theorem stem_suffix (name : List Char) : stem name ++ suffix name = name := by
  unfold stem suffix
  cases rfindDot name with
  | none => simp
  | some i =>
    simp only
    split <;> simp

theorem numbered_inj {p : P} {i j : Nat} (h : numbered p i = numbered p j) : i = j := by
  unfold numbered append2pathname at h
  injection h with _ h
  rw [List.append_assoc, List.append_assoc, List.append_cancel_left_eq,
    List.append_cancel_right_eq] at h
  injection h with _ h
  exact decChars_inj h

theorem incr_spec (isFile : P → Bool) (p : P) (hp : isFile p = true) :
    ∀ (fuel i : Nat) (r : P), incrementalFilename isFile p i fuel = some r →
      ∃ k, i ≤ k ∧ r = numbered p k ∧ isFile r = false ∧
        ∀ j, i ≤ j → j < k → isFile (numbered p j) = true
  | 0, i, r, h => by simp [incrementalFilename] at h
  | fuel + 1, i, r, h => by
    unfold incrementalFilename at h
    rw [if_pos hp] at h
    split at h
    · rename_i hi
      obtain ⟨k, h1, h2, h3, h4⟩ := incr_spec isFile p hp fuel (i + 1) r h
      refine ⟨k, by omega, h2, h3, ?_⟩
      intro j hj1 hj2
      by_cases e : j = i
      · subst e; exact hi
      · exact h4 j (by omega) hj2
    · rename_i hi
      injection h with h
      subst h
      exact ⟨i, Nat.le_refl _, rfl, by simpa using hi, fun j _ _ => by omega⟩

theorem incr_none (isFile : P → Bool) (p : P) :
    ∀ (fuel i : Nat), incrementalFilename isFile p i fuel = none →
      ∀ j, i ≤ j → j < i + fuel → isFile (numbered p j) = true
  | 0, i, _, j, h1, h2 => by omega
  | fuel + 1, i, h, j, h1, h2 => by
    unfold incrementalFilename at h
    split at h
    · split at h
      · rename_i hi
        by_cases e : j = i
        · subst e; exact hi
        · exact incr_none isFile p fuel (i + 1) h j (by omega) (by omega)
      · simp at h
    · simp at h

theorem mem_of_all {p : P} {files : List P} : ∀ (n : Nat),
    (∀ j, 1 ≤ j → j < 1 + n → numbered p j ∈ files) → n ≤ files.length := by
  intro n h
  have hnd : ((List.range n).map fun j => numbered p (j + 1)).Nodup := by
    unfold List.Nodup
    rw [List.pairwise_map]
    refine List.Pairwise.imp ?_ (List.nodup_range (n := n))
    intro a b hab heq
    have := numbered_inj heq
    omega
  have hsub : ∀ x ∈ (List.range n).map (fun j => numbered p (j + 1)), x ∈ files := by
    intro x hx
    obtain ⟨j, hj, rfl⟩ := List.mem_map.1 hx
    rw [List.mem_range] at hj
    exact h (j + 1) (by omega) (by omega)
  have := (List.Nodup.subperm hnd hsub).length_le
  simpa using this

/-- C12. For every finite set of existing files, `incremental_filename` returns: the requested
name if it is free; otherwise the name with the smallest free counter `-1, -2, ...` put between
stem and extension. In both cases the returned name does not exist. (`fuel` is the available
recursion depth; one more than the number of files is always enough.) -/
theorem C12_incremental_filename (files : List P) (p : P) (fuel : Nat)
    (hfuel : files.length < fuel) :
    ∃ r, incrementalFilename (fun q => decide (q ∈ files)) p 1 fuel = some r ∧
      r ∉ files ∧
      (p ∉ files → r = p) ∧
      (p ∈ files → ∃ k st ext, 1 ≤ k ∧ p.name = st ++ ext ∧
        r = ⟨p.parent, st ++ ('-' :: decChars k) ++ ext⟩ ∧
        ∀ j, 1 ≤ j → j < k → ⟨p.parent, st ++ ('-' :: decChars j) ++ ext⟩ ∈ files) := by
  by_cases hp : p ∈ files
  · cases hr : incrementalFilename (fun q => decide (q ∈ files)) p 1 fuel with
    | none =>
      have h := incr_none _ p fuel 1 hr
      have := mem_of_all (p := p) (files := files) fuel (fun j h1 h2 => by simpa using h j h1 h2)
      omega
    | some r =>
      obtain ⟨k, h1, h2, h3, h4⟩ := incr_spec _ p (by simpa using hp) fuel 1 r hr
      refine ⟨r, rfl, by simpa using h3, fun h => absurd hp h, fun _ => ?_⟩
      refine ⟨k, stem p.name, suffix p.name, h1, (stem_suffix _).symm, h2, ?_⟩
      intro j hj1 hj2
      have := h4 j hj1 hj2
      rw [decide_eq_true_eq] at this
      exact this
  · refine ⟨p, ?_, hp, fun _ => rfl, fun h => absurd h hp⟩
    cases fuel with
    | zero => omega
    | succ fuel => simp [incrementalFilename, hp]

/-- `append2pathname` only changes the stem. -/
theorem C12_append2pathname (p : P) (s : List Char) :
    ∃ st ext, p.name = st ++ ext ∧ append2pathname p s = ⟨p.parent, st ++ s ++ ext⟩ :=
  ⟨stem p.name, suffix p.name, (stem_suffix _).symm, rfl⟩

example : incrementalFilename (fun q => decide (q ∈ [⟨[], "a.b.hspy".toList⟩, ⟨[], "a.b-1.hspy".toList⟩])) 
    ⟨[], "a.b.hspy".toList⟩ 1 3 = some ⟨[], "a.b-2.hspy".toList⟩ := by decide +kernel

/-! ### C13 -/

theorem promptLoop_some : ∀ (as : List (List Char)) (a r : List Char), promptLoop a as = some r →
    (r = ['y'] ∨ r = ['n']) ∧ (r = a ∨ r ∈ as)
  | [], a, r, h => by
    unfold promptLoop at h
    split at h
    · simp at h
    · rename_i hh
      injection h with h
      subst h
      refine ⟨?_, .inl rfl⟩
      by_cases h1 : a = ['y']
      · exact .inl h1
      · by_cases h2 : a = ['n']
        · exact .inr h2
        · exact absurd ⟨h1, h2⟩ hh
  | b :: as, a, r, h => by
    unfold promptLoop at h
    split at h
    · obtain ⟨h1, h2⟩ := promptLoop_some as b r h
      refine ⟨h1, .inr ?_⟩
      rcases h2 with h2 | h2
      · simp [h2]
      · simp [h2]
    · rename_i hh
      injection h with h
      subst h
      refine ⟨?_, .inl rfl⟩
      by_cases h1 : a = ['y']
      · exact .inl h1
      · by_cases h2 : a = ['n']
        · exact .inr h2
        · exact absurd ⟨h1, h2⟩ hh

/-- The answers given before an accepted one are all refused; `accepted` is the first one that
the loop takes. -/
def Refused (a : List Char) : Prop := a ≠ ['y'] ∧ a ≠ ['n']

theorem promptLoop_skip : ∀ (pre : List (List Char)) (a : List Char) (ans : List Char)
    (rest : List (List Char)), (∀ b ∈ a :: pre, Refused b) → (ans = ['y'] ∨ ans = ['n']) →
    promptLoop a (pre ++ ans :: rest) = some ans
  | [], a, ans, rest, h, hans => by
    unfold promptLoop
    rw [List.nil_append]
    simp only
    rw [if_pos (show a ≠ ['y'] ∧ a ≠ ['n'] from h a (by simp))]
    cases rest <;> unfold promptLoop <;> rcases hans with e | e <;> subst e <;> simp
  | b :: pre, a, ans, rest, h, hans => by
    rw [List.cons_append]
    unfold promptLoop
    rw [if_pos (show a ≠ ['y'] ∧ a ≠ ['n'] from h a (by simp))]
    exact promptLoop_skip pre b ans rest (fun c hc => h c (by simp [List.mem_cons.1 hc])) hans

theorem promptLoop_none : ∀ (as : List (List Char)) (a : List Char),
    (∀ b ∈ a :: as, Refused b) → promptLoop a as = none
  | [], a, h => by unfold promptLoop; rw [if_pos (show a ≠ ['y'] ∧ a ≠ ['n'] from h a (by simp))]
  | b :: as, a, h => by
    unfold promptLoop
    rw [if_pos (show a ≠ ['y'] ∧ a ≠ ['n'] from h a (by simp))]
    exact promptLoop_none as b (fun c hc => h c (by simp [List.mem_cons.1 hc]))

/-- C13. A path that does not exist is always free to be written; an existing path is
overwritten only if the user typed `y` (or `Y` at the first prompt). -/
theorem C13_overwrite_needs_yes (ex : Bool) (answers : List (List Char)) :
    (ex = false → overwrite ex answers = true) ∧
    (ex = true → overwrite ex answers = true →
      ['y'] ∈ answers ∨ ∃ a, answers.head? = some a ∧ lower a = ['y']) := by
  constructor
  · intro h; subst h; rfl
  · intro h
    subst h
    unfold overwrite
    cases answers with
    | nil => simp
    | cons a as =>
      simp only [if_true]
      cases hr : promptLoop (lower a) as with
      | none => simp
      | some r =>
        simp only
        obtain ⟨h1, h2⟩ := promptLoop_some as _ r hr
        rcases h1 with e | e
        · subst e
          intro _
          rcases h2 with h2 | h2
          · exact .inr ⟨a, rfl, h2.symm⟩
          · exact .inl (by simp [h2])
        · subst e
          simp [lower]

/-- C13 (partial). The answer is taken in either case at the first prompt, and in lower case at
every later one: after any number of refused answers `y` gives True and `n` gives False, and if
no answer can be read the file is kept. Missing: upper-case answers after the first prompt
(`C13_fails_upper_case_at_second_prompt`). -/
theorem C13_answers_partial (a : List Char) (pre rest : List (List Char)) :
    (lower a = ['y'] → overwrite true (a :: rest) = true) ∧
    (lower a = ['n'] → overwrite true (a :: rest) = false) ∧
    ((∀ b ∈ lower a :: pre, Refused b) →
      overwrite true (a :: (pre ++ ['y'] :: rest)) = true ∧
      overwrite true (a :: (pre ++ ['n'] :: rest)) = false ∧
      overwrite true (a :: pre) = false) ∧
    overwrite true [] = false := by
  refine ⟨?_, ?_, ?_, rfl⟩
  · intro h
    simp only [overwrite, h, if_true]
    cases rest <;> simp [promptLoop, lower] <;> decide
  · intro h
    simp only [overwrite, h, if_true]
    cases rest <;> simp [promptLoop, lower] <;> decide
  · intro h
    refine ⟨?_, ?_, ?_⟩
    · simp only [overwrite, if_true, promptLoop_skip pre _ ['y'] rest h (.inl rfl)]
      decide
    · simp only [overwrite, if_true, promptLoop_skip pre _ ['n'] rest h (.inr rfl)]
      decide
    · simp only [overwrite, if_true, promptLoop_none pre _ h]

/-- `Y` is an accepted answer at the first prompt, but not after a refused answer: the user is
asked again, and the file is kept although the only valid answer was yes. -/
theorem C13_fails_upper_case_at_second_prompt :
    overwrite true [['Y']] = true ∧ overwrite true [['?'], ['Y']] = false := by decide

/-- C13. A regular file, and a directory called `*.zspy`, are kept unless the user typed `y`;
everything else is written without asking. -/
theorem C13_existing (isFile isDir : Bool) (ext : List Char) (answers : List (List Char)) :
    ((isFile = true ∨ isDir = true ∧ ext = ".zspy".toList) →
      ['y'] ∉ answers → (∀ a, answers.head? = some a → lower a ≠ ['y']) →
      overwrite (existing isFile isDir ext) answers = false) ∧
    (isFile = false → (isDir = false ∨ ext ≠ ".zspy".toList) →
      overwrite (existing isFile isDir ext) answers = true) := by
  constructor
  · intro h h1 h2
    have he : existing isFile isDir ext = true := by
      rcases h with h | h <;> simp [existing, h]
    cases ho : overwrite (existing isFile isDir ext) answers with
    | false => rfl
    | true =>
      rcases (C13_overwrite_needs_yes _ answers).2 he ho with q | ⟨a, q, r⟩
      · exact absurd q h1
      · exact absurd r (h2 a q)
  · intro h h1
    have he : existing isFile isDir ext = false := by
      rcases h1 with h1 | h1
      · simp [existing, h, h1]
      · rw [existing, h, decide_eq_false h1, Bool.and_false, Bool.or_false]
    exact (C13_overwrite_needs_yes _ answers).1 he

example : overwrite (existing false true ".zspy".toList) [['?'], ['y']] = true ∧
    overwrite (existing true false ".msa".toList) [['N'], ['y']] = false := by decide

end Verif.Props.Path
