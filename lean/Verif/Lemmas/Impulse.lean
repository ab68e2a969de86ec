import Verif.Model.Impulse
import Verif.Spec.Impulse
import Verif.Lemmas.Protochips
/-! Lemmas for C94. -/
namespace Verif.Lemmas.Impulse
open Verif.Genfromtxt Verif.Impulse Verif.Spec.Impulse Verif.Spec.Tables Verif.Lemmas.Genfromtxt
open Verif.Lemmas.Protochips (alnum_ok)

theorem degree_id : ∀ {n : Text}, '°' ∉ n → degree n = n
  | [], _ => rfl
  | [c], _ => rfl
  | c :: d :: t, h => by
    have hc : c ≠ '°' := fun e => h (by simp [e])
    rw [degree, if_neg (fun e => hc e.1), degree_id fun hm => h (List.mem_cons_of_mem _ hm)]

theorem allowed_char {c : Char} (h : c.isAlphanum = true ∨ c ∈ " _#()/%".toList) : c ≠ '°' ∧ c ≠ ',' ∧ c ≠ '\n' ∧ c ≠ '\r' ∧ (isSpace c = true → c = ' ') := by
  rcases h with h | h
  · have h2 := (alnum_ok h).1
    refine ⟨?_, ?_, ?_, ?_, ?_⟩
    · rintro rfl; exact absurd h (by decide)
    · rintro rfl; exact absurd h (by decide)
    · rintro rfl; exact absurd h (by decide)
    · rintro rfl; exact absurd h (by decide)
    · intro e; rw [h2] at e; exact absurd e (by simp)
  · have : ∀ c ∈ " _#()/%".toList, c ≠ '°' ∧ c ≠ ',' ∧ c ≠ '\n' ∧ c ≠ '\r' ∧ (isSpace c = true → c = ' ') := by decide
    exact this c h

theorem fieldName_plain {n : Text} (h : Name n) : fieldName n = plain n := by
  have hno : '°' ∉ n.map fun c => if c = ' ' then '_' else c := by
    intro hm
    obtain ⟨c, hc, e⟩ := List.mem_map.1 hm
    by_cases h1 : c = ' '
    · rw [if_pos h1] at e
      exact absurd e (by decide)
    · rw [if_neg h1] at e
      exact (allowed_char (h.char c hc)).1 e
  unfold fieldName plain
  rw [degree_id hno, List.flatMap_map]
  congr 1
  funext c
  by_cases h1 : c = ' '
  · subst h1; decide
  rw [if_neg h1]
  by_cases h2 : c = '/'
  · subst h2; decide
  by_cases h3 : c = '#'
  · subst h3; decide
  by_cases h4 : c = '%'
  · subst h4; decide
  by_cases h5 : c = '('
  · subst h5; decide
  by_cases h6 : c = ')'
  · subst h6; decide
  unfold special
  rw [if_neg h3, if_neg h5, if_neg h6, if_neg h2, if_neg h4, if_neg (by simp [h1, h2]), if_neg h3, if_neg h4, if_neg (by simp [h5, h6])]

theorem plain_kept {n : Text} (h : Name n) : Kept (plain n) := by
  refine ⟨h.some, ?_, h.word⟩
  intro x hx
  unfold plain at hx
  obtain ⟨c, hc, hx⟩ := List.mem_flatMap.1 hx
  split at hx
  · rw [List.mem_singleton.1 hx]; decide
  split at hx
  · have : ∀ x ∈ "No".toList, isSpace x = false ∧ x ∉ deleteChars := by decide
    exact this x hx
  split at hx
  · have : ∀ x ∈ "Perc".toList, isSpace x = false ∧ x ∉ deleteChars := by decide
    exact this x hx
  split at hx
  · simp at hx
  · next h1 h2 h3 h4 =>
    rw [List.mem_singleton.1 hx]
    rcases h.char c hc with h5 | h5
    · exact alnum_ok h5
    · have : ∀ c ∈ " _#()/%".toList, ¬ (c = ' ' ∨ c = '/') → c ≠ '#' → c ≠ '%' → ¬ (c = '(' ∨ c = ')') → isSpace c = false ∧ c ∉ deleteChars := by decide
      exact this c h5 h1 h2 h3 h4

/-- A column as it is stored. -/
def valuesOf (name : Text) (col : List Text) (vs : List Int) : Values := if name = "MixValve".toList then .valve vs else .cells col

theorem fold_columns {t : Table} {col : Text → List Text} {vs : List Int} : ∀ (cs : List Text) (d : Data), cs.Nodup → (∀ c ∈ cs, column t (fieldName c) = .ok (col c)) →
    ("MixValve".toList ∈ cs → (col "MixValve".toList).mapM valve = .ok vs) →
    ∃ d', cs.foldlM (readColumn t) d = .ok d' ∧ (("Experiment time".toList ∈ cs → d'.times = some (col "Experiment time".toList)) ∧ ("Experiment time".toList ∉ cs → d'.times = d.times)) ∧
      ∀ q, q ≠ "Experiment time".toList → (q ∈ cs → getKw q d'.dict = some (valuesOf q (col q) vs)) ∧ (q ∉ cs → getKw q d'.dict = getKw q d.dict)
  | [], d, _, _, _ => ⟨d, rfl, ⟨by simp, fun _ => rfl⟩, fun q _ => ⟨by simp, fun _ => rfl⟩⟩
  | c :: cs, d, hnd, hc, hv => by
    rw [List.nodup_cons] at hnd
    have h1 := hc c (List.mem_cons_self ..)
    obtain ⟨d1, hd1, ht, hq⟩ : ∃ d1, readColumn t d c = .ok d1 ∧ d1.times = (if c = "Experiment time".toList then some (col c) else d.times) ∧
        ∀ q, q ≠ "Experiment time".toList → getKw q d1.dict = if q = c then some (valuesOf c (col c) vs) else getKw q d.dict := by
      unfold readColumn
      rw [h1]
      simp only [bind, Except.bind]
      by_cases e1 : c = "Experiment time".toList
      · rw [if_pos e1]
        refine ⟨_, rfl, by rw [if_pos e1], ?_⟩
        intro q hq1
        rw [if_neg (fun e => hq1 (e.trans e1))]
      · rw [if_neg e1]
        by_cases e2 : c = "MixValve".toList
        · rw [if_pos e2]
          have := hv (by rw [← e2]; exact List.mem_cons_self ..)
          rw [← e2] at this
          rw [this]
          refine ⟨_, rfl, by rw [if_neg e1], ?_⟩
          intro q _
          dsimp only
          rw [getKw_setKw]
          unfold valuesOf
          rw [if_pos e2]
        · rw [if_neg e2]
          refine ⟨_, rfl, by rw [if_neg e1], ?_⟩
          intro q _
          dsimp only
          rw [getKw_setKw]
          unfold valuesOf
          rw [if_neg e2]
    obtain ⟨d', hd', ht', hq'⟩ := fold_columns (vs := vs) cs d1 hnd.2 (fun x hx => hc x (List.mem_cons_of_mem _ hx)) fun hm => hv (List.mem_cons_of_mem _ hm)
    refine ⟨d', ?_, ⟨?_, ?_⟩, ?_⟩
    · rw [List.foldlM_cons, hd1]
      exact hd'
    · intro hm
      by_cases e : "Experiment time".toList ∈ cs
      · exact ht'.1 e
      · rw [ht'.2 e, ht]
        rcases List.mem_cons.1 hm with hm | hm
        · rw [if_pos hm.symm, ← hm]
        · exact absurd hm e
    · intro hm
      rw [ht'.2 fun e => hm (List.mem_cons_of_mem _ e), ht, if_neg]
      rintro rfl
      exact hm (List.mem_cons_self ..)
    · intro q q1
      refine ⟨?_, ?_⟩
      · intro hm
        by_cases e : q ∈ cs
        · exact (hq' q q1).1 e
        · rw [(hq' q q1).2 e, hq q q1]
          rcases List.mem_cons.1 hm with rfl | hm
          · rw [if_pos rfl]
          · exact absurd hm e
      · intro hm
        rw [(hq' q q1).2 fun e => hm (List.mem_cons_of_mem _ e), hq q q1, if_neg]
        rintro rfl
        exact hm (List.mem_cons_self ..)

/-- The entries of the metadata file. -/
theorem fold_entries : ∀ (es : List (Text × Text)) (kw : List (Text × Text)), (es.map fun e => key e.1).Nodup → (∀ e ∈ es, e.1 ≠ "Live notes".toList) →
    ∃ kw', (es.map fun e => [e.1, e.2]).foldlM metaRow (kw, none) = .ok (kw', none) ∧ ∀ k, (∀ e ∈ es, key e.1 = k → getKw k kw' = some (stripBy isSpace e.2)) ∧
      (k ∉ es.map (fun e => key e.1) → getKw k kw' = getKw k kw)
  | [], kw, _, _ => ⟨kw, rfl, fun k => ⟨by simp, fun _ => rfl⟩⟩
  | e :: es, kw, hnd, hn => by
    rw [List.map_cons, List.nodup_cons] at hnd
    obtain ⟨kw', h1, h2⟩ := fold_entries es (setKw (key e.1) (stripBy isSpace e.2) kw) hnd.2 fun x hx => hn x (List.mem_cons_of_mem _ hx)
    refine ⟨kw', ?_, fun k => ⟨?_, ?_⟩⟩
    · rw [List.map_cons, List.foldlM_cons]
      have : metaRow (kw, none) [e.1, e.2] = .ok (setKw (key e.1) (stripBy isSpace e.2) kw, none) := by
        unfold metaRow
        dsimp only
        rw [if_neg (hn e (List.mem_cons_self ..))]
        rfl
      rw [this]
      exact h1
    · intro x hx hk
      rcases List.mem_cons.1 hx with rfl | hx
      · rw [(h2 k).2 (by rw [← hk]; exact hnd.1), getKw_setKw, if_pos hk.symm]
      · exact (h2 k).1 x hx hk
    · intro hk
      rw [List.map_cons, List.mem_cons, not_or] at hk
      rw [(h2 k).2 hk.2, getKw_setKw, if_neg hk.1]

theorem fold_notes (kw : List (Text × Text)) : ∀ (ns : List Text) (acc : List Text), (ns.map fun n => [n]).foldlM metaRow (kw, some acc) = .ok (kw, some (acc ++ ns))
  | [], acc => by
    rw [List.append_nil]
    rfl
  | n :: ns, acc => by
    rw [List.map_cons, List.foldlM_cons]
    have : metaRow (kw, some acc) [n] = .ok (kw, some (acc ++ [n])) := rfl
    rw [this]
    have ih := fold_notes kw ns (acc ++ [n])
    rw [List.append_assoc, List.singleton_append] at ih
    exact ih

end Verif.Lemmas.Impulse
