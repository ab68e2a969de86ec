import Verif.Model.DigitalsurfComment
import Verif.Spec.DigitalsurfComment
import Mathlib.Tactic.Common
namespace Verif.Lemmas.DigitalsurfComment
open Verif.DigitalsurfComment Verif.Spec.DigitalsurfComment

theorem isBreak_space {c : Char} (h : isBreak c = true) : isSpace c = true := by
  unfold isBreak at h
  unfold isSpace
  simp only [Bool.or_eq_true, Bool.and_eq_true, decide_eq_true_eq, beq_iff_eq] at h ⊢
  omega

theorem pyLines_append : ∀ {l : Text} (t : Text), (∀ c ∈ l, isBreak c = false) → pyLines (l ++ '\n' :: t) = l :: pyLines t
  | [], t, _ => by
    cases t with
    | nil => rfl
    | cons d t =>
      rw [List.nil_append, pyLines, if_neg (by simp), if_pos (by decide)]
  | c :: l, t, h => by
    have ih := pyLines_append t fun d hd => h d (List.mem_cons_of_mem _ hd)
    have hc := h c (List.mem_cons_self ..)
    have hr : c ≠ '\r' := by
      rintro rfl
      revert hc
      decide
    cases l with
    | nil =>
      rw [List.nil_append] at ih
      rw [List.cons_append, List.nil_append, pyLines, if_neg (by simp [hr]), if_neg (by rw [hc]; decide), ih]
    | cons d l =>
      rw [List.cons_append] at ih
      rw [List.cons_append, List.cons_append, pyLines, if_neg (by simp [hr]), if_neg (by rw [hc]; decide), ih]

theorem name_break {t : Text} (h : ∀ c ∈ t, isSpace c = true → c = ' ') : ∀ c ∈ t, isBreak c = false := by
  intro c hc
  rw [← Bool.not_eq_true]
  intro hb
  have := h c hc (isBreak_space hb)
  subst this
  revert hb
  decide

theorem word_break {t : Text} (h : Word t) : ∀ c ∈ t, isBreak c = false := by
  intro c hc
  rw [← Bool.not_eq_true]
  intro hb
  have := (h c hc).1
  rw [isBreak_space hb] at this
  cases this

section
variable {V : Type} {str : V → Text} {strDict : List (Text × Node V) → Text} {lit : Text → Option V} {ofText : Text → V}

theorem strip_space {t : Text} (h : ∀ c ∈ t.head?, isSpace c = false) (h' : ∀ c ∈ t.getLast?, isSpace c = false) :
    stripBy isSpace (' ' :: t) = t := by
  unfold stripBy
  have : lstripBy isSpace (' ' :: t) = lstripBy isSpace t := by
    unfold lstripBy
    rw [List.dropWhile_cons_of_pos (by decide)]
  rw [this, lstripBy_id h, rstripBy_id h']

theorem strip_end {t : Text} (h : ∀ c ∈ t.head?, isSpace c = false) (h' : ∀ c ∈ t.getLast?, isSpace c = false) :
    stripBy isSpace (t ++ [' ']) = t := by
  unfold stripBy
  cases t with
  | nil => decide
  | cons a t =>
    rw [List.cons_append, lstripBy_id (s := a :: (t ++ [' '])) (by simpa using h), ← List.cons_append,
      rstripBy_append (by simp; decide), rstripBy_id h']

/-! ### Lines -/

theorem not_blank (t : Text) : stripBy isSpace ('$' :: t) ≠ [] := by
  unfold stripBy
  rw [lstripBy_id (s := '$' :: t) (by intro c hc; simp at hc; subst hc; decide)]
  intro h
  unfold rstripBy at h
  rw [List.reverse_eq_nil_iff] at h
  have h3 : ∀ l : Text, l.dropWhile isSpace = [] → ∀ c ∈ l, isSpace c = true := by
    intro l
    induction l with
    | nil => simp
    | cons a l ih =>
      intro h c hc
      by_cases ha : isSpace a = true
      · rw [List.dropWhile_cons_of_pos ha] at h
        rcases List.mem_cons.1 hc with rfl | hc
        · exact ha
        · exact ih h c hc
      · rw [List.dropWhile_cons_of_neg ha] at h
        cases h
  have := h3 _ h '$' (by simp)
  revert this
  decide

theorem step_title (s : State V) {k : Text} (hk : Name k) :
    step lit ofText ['$'] '=' s (['$', '_'] ++ k) = ⟨setKw k [] s.dict, some k⟩ := by
  unfold step
  have h1 := not_blank ('_' :: k)
  rw [if_neg (by
    rintro (h | h)
    · exact h1 h
    · simp at h), if_pos ⟨k, by simp⟩]
  dsimp only
  have : List.drop (['$'].length + 1) (['$', '_'] ++ k) = k := by simp
  rw [this, stripBy_id hk.2.1 hk.2.2]

theorem step_pair (s : State V) {k v : Text} (hk : Key k) :
    step lit ofText ['$'] '=' s (['$'] ++ k ++ [' ', '='] ++ v) = pair lit ofText ['$'] '=' s (['$'] ++ k ++ [' ', '='] ++ v) := by
  unfold step
  have h1 := not_blank (k ++ [' ', '='] ++ v)
  rw [if_neg (by
    rintro (h | h)
    · exact h1 (by simpa using h)
    · simp at h), if_neg (by
    rintro ⟨t, h⟩
    have h2 := hk.2.2
    cases k with
    | nil => simp at h
    | cons a k =>
      simp at h
      rw [← h.1] at h2
      simp at h2), if_pos ⟨k ++ [' ', '='] ++ v, by simp⟩]

theorem valueOf_ok {k : Text} {v : V} (hr : Reads str lit ofText k v) : valueOf lit ofText k (str v) = v := by
  unfold valueOf
  rcases hr with ⟨h1, h2⟩ | ⟨h1 | h1, h2⟩
  · rw [if_neg h2, h1]
  · split
    · exact h2
    · rw [h1]
      exact h2
  · rw [if_pos h1]
    exact h2

theorem pair_none {d : List (Text × List (Text × V))} {t : Text} {m : List (Text × V)} (hm : getKw t d = some m) {k : Text} {v : V}
    (hk : Key k) (hv : Word (str v)) (hr : Reads str lit ofText k v) :
    pair lit ofText ['$'] '=' ⟨d, some t⟩ (['$'] ++ k ++ [' ', '='] ++ (' ' :: str v)) = ⟨setKw t (setKw k v m) d, some t⟩ := by
  have e1 : splitChar '=' (['$'] ++ k ++ [' ', '='] ++ (' ' :: str v)) = [['$'] ++ k ++ [' '], ' ' :: str v] := by
    have := splitChar_append (c := '=') (s := ['$'] ++ k ++ [' ']) (t := ' ' :: str v) (by
      simp only [List.mem_append, List.mem_singleton, not_or]
      exact ⟨⟨by decide, hk.2.1⟩, by decide⟩)
    rw [splitChar_none (s := ' ' :: str v) (by
      simp only [List.mem_cons, not_or]
      exact ⟨by decide, fun h => (hv _ h).2 rfl⟩)] at this
    rw [← this]
    simp
  have e2 : stripBy isSpace (List.drop (['$'] : Text).length (['$'] ++ k ++ [' '])) = k := by
    have : List.drop (['$'] : Text).length (['$'] ++ k ++ [' ']) = k ++ [' '] := by simp
    rw [this, strip_end hk.1.2.1 hk.1.2.2]
  have e3 : stripBy isSpace (' ' :: str v) = str v :=
    strip_space (fun c hc => (hv c (List.mem_of_mem_head? hc)).1) (fun c hc => (hv c (List.mem_of_mem_getLast? hc)).1)
  have e4 : splitChar ' ' (str v) = [str v] := splitChar_none fun h => by
    have := (hv _ h).1
    revert this
    decide
  unfold pair
  dsimp only
  rw [e1]
  simp only [List.head?_cons, Option.getD_some, List.getElem?_cons_succ, List.getElem?_cons_zero]
  rw [e2, e3, e4, hm]
  unfold store
  simp only [List.head?_cons, Option.getD_some, List.getElem?_cons_succ, List.getElem?_nil, valueOf_ok hr]

theorem pair_some {d : List (Text × List (Text × V))} {t : Text} {m : List (Text × V)} (hm : getKw t d = some m) {k : Text} {v u : V}
    (hk : Key k) (hv : Word (str v)) (hr : Reads str lit ofText k v) (hu : Word (str u)) (hv0 : str v ≠ []) (hu0 : str u ≠ [])
    (hut : ofText (str u) = u) :
    pair lit ofText ['$'] '=' ⟨d, some t⟩ (['$'] ++ k ++ [' ', '='] ++ (' ' :: (str v ++ ' ' :: str u))) =
      ⟨setKw t (setKw (units k) u (setKw k v m)) d, some t⟩ := by
  have e1 : splitChar '=' (['$'] ++ k ++ [' ', '='] ++ (' ' :: (str v ++ ' ' :: str u))) =
      [['$'] ++ k ++ [' '], ' ' :: (str v ++ ' ' :: str u)] := by
    have := splitChar_append (c := '=') (s := ['$'] ++ k ++ [' ']) (t := ' ' :: (str v ++ ' ' :: str u)) (by
      simp only [List.mem_append, List.mem_singleton, not_or]
      exact ⟨⟨by decide, hk.2.1⟩, by decide⟩)
    rw [splitChar_none (s := ' ' :: (str v ++ ' ' :: str u)) (by
      simp only [List.mem_cons, List.mem_append, not_or]
      exact ⟨by decide, fun h => (hv _ h).2 rfl, by decide, fun h => (hu _ h).2 rfl⟩)] at this
    rw [← this]
    simp
  have e2 : stripBy isSpace (List.drop (['$'] : Text).length (['$'] ++ k ++ [' '])) = k := by
    have : List.drop (['$'] : Text).length (['$'] ++ k ++ [' ']) = k ++ [' '] := by simp
    rw [this, strip_end hk.1.2.1 hk.1.2.2]
  have e3 : stripBy isSpace (' ' :: (str v ++ ' ' :: str u)) = str v ++ ' ' :: str u := by
    apply strip_space
    · intro c hc
      cases h : str v with
      | nil => exact absurd h hv0
      | cons a l =>
        rw [h] at hc
        simp at hc
        subst hc
        exact (hv a (by rw [h]; simp)).1
    · intro c hc
      have : str v ++ ' ' :: str u = (str v ++ [' ']) ++ str u := by simp
      rw [this, List.getLast?_append] at hc
      cases h : (str u).getLast? with
      | none => exact absurd (List.getLast?_eq_none_iff.1 h) hu0
      | some a =>
        rw [h] at hc
        cases hc
        exact (hu c (List.mem_of_mem_getLast? h)).1
  have e4 : splitChar ' ' (str v ++ ' ' :: str u) = [str v, str u] := by
    have hs : ∀ {w : Text}, Word w → ' ' ∉ w := fun hw h => by
      have := (hw _ h).1
      revert this
      decide
    rw [splitChar_append (hs hv), splitChar_none (hs hu)]
  unfold pair
  dsimp only
  rw [e1]
  simp only [List.head?_cons, Option.getD_some, List.getElem?_cons_succ, List.getElem?_cons_zero]
  rw [e2, e3, e4, hm]
  unfold store
  simp only [List.head?_cons, Option.getD_some, List.getElem?_cons_succ, List.getElem?_cons_zero, valueOf_ok hr, hut]

/-! ### The queue -/

theorem popKey_none {k : Text} : ∀ {q : List (Text × Node V)}, k ∉ q.map Prod.fst → popKey k q = none
  | [], _ => rfl
  | (k', n) :: q, h => by
    simp only [List.map_cons, List.mem_cons, not_or] at h
    rw [popKey, if_neg (fun e => h.1 e.symm), popKey_none h.2]

theorem popKey_some {k : Text} {n : Node V} {b : List (Text × Node V)} : ∀ {a : List (Text × Node V)}, k ∉ a.map Prod.fst →
    popKey k (a ++ (k, n) :: b) = some (n, a ++ b)
  | [], _ => by rw [List.nil_append, popKey, if_pos rfl]; rfl
  | (k', m) :: a, h => by
    simp only [List.map_cons, List.mem_cons, not_or] at h
    rw [List.cons_append, popKey, if_neg (fun e => h.1 e.symm), popKey_some h.2]
    rfl

theorem stringify_some {k : Text} {v : V} {q q' : List (Text × Node V)} {u : Node V} (h : popKey (units k) q = some (u, q')) :
    stringify str strDict ((k, .leaf v) :: q) =
      ['$'] ++ k ++ [' ', '=', ' '] ++ str v ++ [' '] ++ strNode str strDict u ++ ['\n'] ++ stringify str strDict q' := by
  rw [stringify]
  split
  · rename_i h2
    rw [h] at h2
    cases h2
    rfl
  · rename_i h2
    rw [h] at h2
    cases h2

theorem stringify_none {k : Text} {v : V} {q : List (Text × Node V)} (h : popKey (units k) q = none) :
    stringify str strDict ((k, .leaf v) :: q) =
      ['$'] ++ k ++ [' ', '=', ' '] ++ str v ++ ['\n'] ++ stringify str strDict q := by
  rw [stringify]
  split
  · rename_i h2
    rw [h] at h2
    cases h2
  · rfl

def leaves (l : List (Text × V)) : List (Text × Node V) := l.map fun e => (e.1, .leaf e.2)

theorem leaves_keys (l : List (Text × V)) : (leaves l).map Prod.fst = l.map Prod.fst := by
  unfold leaves
  rw [List.map_map]
  rfl

/-- What the lines of a section do. -/
structure After (t : Text) (l : List (Text × V)) (s s' : State V) : Prop where
  main : s'.main = some t
  keys : s'.dict.map Prod.fst = s.dict.map Prod.fst
  others : ∀ t', t' ≠ t → getKw t' s'.dict = getKw t' s.dict
  section_ : ∀ m, getKw t s.dict = some m → ∃ m', getKw t s'.dict = some m' ∧ ∀ k, getKw k m' = (getKw k l).or (getKw k m)

theorem setKw_keys {t : Text} {α : Type} {m : α} {v : α} : ∀ {d : List (Text × α)}, getKw t d = some m →
    (setKw t v d).map Prod.fst = d.map Prod.fst
  | [], h => by cases h
  | (k, x) :: d, h => by
    unfold getKw at h
    unfold setKw
    split at h
    · rename_i e
      rw [if_pos e, List.map_cons, List.map_cons, e]
    · rename_i e
      rw [if_neg e, List.map_cons, List.map_cons, setKw_keys h]

theorem section_sub {l l' : List (Text × V)} (h : Section str lit ofText l) (hs : l'.Sublist l) : Section str lit ofText l' :=
  ⟨h.1.sublist (hs.map _), fun e he => h.2.1 e (hs.subset he), fun e he u hu => h.2.2 e (hs.subset he) u (hs.subset hu)⟩

theorem getKw_append_or {α : Type} (k : Text) (a b : List (Text × α)) : getKw k (a ++ b) = (getKw k a).or (getKw k b) := by
  induction a with
  | nil => rfl
  | cons x a ih =>
    obtain ⟨k', v⟩ := x
    rw [List.cons_append, getKw, getKw]
    split
    · rfl
    · exact ih

theorem run_section (n : Nat) : ∀ {l : List (Text × V)} {rest : List (Text × Node V)} {s : State V} {t : Text} {m : List (Text × V)},
    l.length ≤ n → Section str lit ofText l → (∀ e ∈ l, units e.1 ∉ rest.map Prod.fst) → s.main = some t → getKw t s.dict = some m →
    ∃ s', (pyLines (stringify str strDict (leaves l ++ rest))).foldl (step lit ofText ['$'] '=') s =
      (pyLines (stringify str strDict rest)).foldl (step lit ofText ['$'] '=') s' ∧ After t l s s' := by
  induction n with
  | zero =>
    intro l rest s t m hn _ _ hm hg
    have : l = [] := List.length_eq_zero_iff.1 (by omega)
    subst this
    exact ⟨s, rfl, hm, rfl, fun _ _ => rfl, fun m hm => ⟨m, hm, fun k => rfl⟩⟩
  | succ n ih =>
    intro l rest s t m hn hl hrest hm hg
    cases l with
    | nil => exact ⟨s, rfl, hm, rfl, fun _ _ => rfl, fun m hm => ⟨m, hm, fun k => rfl⟩⟩
    | cons e l =>
      obtain ⟨k, v⟩ := e
      obtain ⟨hk, hv, hr⟩ := hl.2.1 _ (List.mem_cons_self ..)
      have hnd := hl.1
      rw [List.map_cons, List.nodup_cons] at hnd
      obtain ⟨d, mn⟩ := s
      dsimp only at hm hg
      subst hm
      have hkb := name_break hk.1.1
      have hvb := word_break hv
      by_cases hu : units k ∈ l.map Prod.fst
      · obtain ⟨l1, l2, u, e1, e2⟩ : ∃ l1 l2 u, l = l1 ++ (units k, u) :: l2 ∧ units k ∉ l1.map Prod.fst := by
          clear hn hl hrest hnd
          induction l with
          | nil => cases hu
          | cons x l ih2 =>
            obtain ⟨k', v'⟩ := x
            by_cases h : k' = units k
            · exact ⟨[], l, v', by rw [h]; rfl, by simp⟩
            · rw [List.map_cons] at hu
              rcases List.mem_cons.1 hu with h2 | h2
              · exact absurd h2.symm h
              · obtain ⟨l1, l2, u, e1, e2⟩ := ih2 h2
                exact ⟨(k', v') :: l1, l2, u, by rw [e1]; rfl, by
                  rw [List.map_cons, List.mem_cons, not_or]; exact ⟨fun h3 => h h3.symm, e2⟩⟩
        subst e1
        have hmem : (units k, u) ∈ (k, v) :: (l1 ++ (units k, u) :: l2) := by simp
        obtain ⟨hv0, hu0, hut⟩ := hl.2.2 (k, v) (by simp) (units k, u) hmem rfl
        have huw := (hl.2.1 _ hmem).2.1
        have hpop : popKey (units k) (leaves (l1 ++ (units k, u) :: l2) ++ rest) = some (.leaf u, leaves (l1 ++ l2) ++ rest) := by
          have := popKey_some (k := units k) (n := .leaf u) (b := leaves l2 ++ rest) (a := leaves l1) (by rw [leaves_keys]; exact e2)
          unfold leaves at this ⊢
          simpa using this
        have hline : stringify str strDict (leaves ((k, v) :: (l1 ++ (units k, u) :: l2)) ++ rest) =
            (['$'] ++ k ++ [' ', '='] ++ (' ' :: (str v ++ ' ' :: str u))) ++ '\n' :: stringify str strDict (leaves (l1 ++ l2) ++ rest) := by
          have := stringify_some (str := str) (strDict := strDict) (v := v) hpop
          unfold strNode at this
          rw [show leaves ((k, v) :: (l1 ++ (units k, u) :: l2)) ++ rest =
            (k, Node.leaf v) :: (leaves (l1 ++ (units k, u) :: l2) ++ rest) from rfl, this]
          simp
        have hb : ∀ c ∈ ['$'] ++ k ++ [' ', '='] ++ (' ' :: (str v ++ ' ' :: str u)), isBreak c = false := by
          intro c hc
          simp only [List.mem_append, List.mem_cons, List.not_mem_nil, or_false] at hc
          rcases hc with ((rfl | hc) | rfl | rfl) | rfl | hc | rfl | hc
          · decide
          · exact hkb c hc
          · decide
          · decide
          · decide
          · exact hvb c hc
          · decide
          · exact word_break huw c hc
        rw [hline, pyLines_append _ hb, List.foldl_cons, step_pair _ hk, pair_some hg hk hv hr huw hv0 hu0 hut]
        have hsub : (l1 ++ l2).Sublist ((k, v) :: (l1 ++ (units k, u) :: l2)) :=
          ((List.sublist_cons_self (units k, u) l2).append_left l1).trans (List.sublist_cons_self _ _)
        obtain ⟨s', g1, g2⟩ := ih (l := l1 ++ l2) (rest := rest)
          (s := ⟨setKw t (setKw (units k) u (setKw k v m)) d, some t⟩) (t := t) (m := setKw (units k) u (setKw k v m))
          (by simp at hn ⊢; omega) (section_sub hl hsub) (fun e he => hrest e (hsub.subset he)) rfl (by
            rw [getKw_setKw, if_pos rfl])
        refine ⟨s', g1, g2.main, ?_, ?_, ?_⟩
        · rw [g2.keys]
          exact setKw_keys hg
        · intro t' ht
          rw [g2.others t' ht, getKw_setKw, if_neg ht]
        · intro m0 hm0
          dsimp only at hm0
          rw [hg] at hm0
          cases hm0
          obtain ⟨m', q1, q2⟩ := g2.section_ _ (by rw [getKw_setKw, if_pos rfl])
          refine ⟨m', q1, fun x => ?_⟩
          have hkn : k ∉ (l1 ++ l2).map Prod.fst := fun h => hnd.1 (by
            simp only [List.map_append, List.mem_append, List.map_cons, List.mem_cons] at h ⊢
            tauto)
          have hun : units k ∉ (l1 ++ l2).map Prod.fst := by
            have := hnd.2
            rw [List.map_append, List.map_cons] at this
            rw [List.map_append]
            rw [List.nodup_append, List.nodup_cons] at this
            rw [List.mem_append]
            rintro (h | h)
            · exact this.2.2 _ h _ (List.mem_cons_self ..) rfl
            · exact this.2.1.1 h
          have huk : units k ≠ k := by
            intro h
            have := congrArg List.length h
            simp [units] at this
          rw [q2 x, getKw_setKw, getKw_setKw, getKw, getKw_append_or, getKw_append_or, getKw]
          by_cases h1 : x = units k
          · rw [if_pos h1, h1, if_neg (fun h => huk h.symm), if_pos rfl]
            rw [List.map_append, List.mem_append, not_or] at hun
            rw [getKw_none hun.1, getKw_none hun.2]
            rfl
          · rw [if_neg h1, if_neg (fun h : units k = x => h1 h.symm)]
            by_cases h2 : x = k
            · rw [if_pos h2, if_pos h2.symm, h2]
              rw [List.map_append, List.mem_append, not_or] at hkn
              rw [getKw_none hkn.1, getKw_none hkn.2]
              rfl
            · rw [if_neg h2, if_neg (fun h : k = x => h2 h.symm)]
      · have hpop : popKey (units k) (leaves l ++ rest) = none := popKey_none (by
          rw [List.map_append, List.mem_append, leaves_keys]
          rintro (h | h)
          · exact hu h
          · exact hrest (k, v) (List.mem_cons_self ..) h)
        have hline : stringify str strDict (leaves ((k, v) :: l) ++ rest) =
            (['$'] ++ k ++ [' ', '='] ++ (' ' :: str v)) ++ '\n' :: stringify str strDict (leaves l ++ rest) := by
          have := stringify_none (str := str) (strDict := strDict) (v := v) hpop
          rw [show leaves ((k, v) :: l) ++ rest = (k, Node.leaf v) :: (leaves l ++ rest) from rfl, this]
          simp
        have hb : ∀ c ∈ ['$'] ++ k ++ [' ', '='] ++ (' ' :: str v), isBreak c = false := by
          intro c hc
          simp only [List.mem_append, List.mem_cons, List.not_mem_nil, or_false] at hc
          rcases hc with ((rfl | hc) | rfl | rfl) | rfl | hc
          · decide
          · exact hkb c hc
          · decide
          · decide
          · decide
          · exact hvb c hc
        rw [hline, pyLines_append _ hb, List.foldl_cons, step_pair _ hk, pair_none hg hk hv hr]
        obtain ⟨s', g1, g2⟩ := ih (l := l) (rest := rest)
          (s := ⟨setKw t (setKw k v m) d, some t⟩) (t := t) (m := setKw k v m)
          (by simp at hn ⊢; omega) (section_sub hl (List.sublist_cons_self _ _)) (fun e he => hrest e (List.mem_cons_of_mem _ he)) rfl (by
            rw [getKw_setKw, if_pos rfl])
        refine ⟨s', g1, g2.main, ?_, ?_, ?_⟩
        · rw [g2.keys]
          exact setKw_keys hg
        · intro t' ht
          rw [g2.others t' ht, getKw_setKw, if_neg ht]
        · intro m0 hm0
          dsimp only at hm0
          rw [hg] at hm0
          cases hm0
          obtain ⟨m', q1, q2⟩ := g2.section_ _ (by rw [getKw_setKw, if_pos rfl])
          refine ⟨m', q1, fun x => ?_⟩
          rw [q2 x, getKw_setKw, getKw]
          by_cases h2 : x = k
          · rw [if_pos h2, if_pos h2.symm, h2, getKw_none hnd.1]
            rfl
          · rw [if_neg h2, if_neg (fun h => h2 h.symm)]

/-- The dictionary of sections as a nested dictionary. -/
def nested (d : List (Text × List (Text × V))) : List (Text × Node V) := d.map fun e => (e.1, .dict (leaves e.2))

theorem nested_keys (d : List (Text × List (Text × V))) : (nested d).map Prod.fst = d.map Prod.fst := by
  unfold nested
  rw [List.map_map]
  rfl

theorem run_all : ∀ {d : List (Text × List (Text × V))} {s : State V}, Sections str lit ofText d →
    (∀ t ∈ d.map Prod.fst, t ∉ s.dict.map Prod.fst) →
    ∃ s', (pyLines (stringify str strDict (nested d))).foldl (step lit ofText ['$'] '=') s = s' ∧
      s'.dict.map Prod.fst = s.dict.map Prod.fst ++ d.map Prod.fst ∧
      (∀ t, t ∉ d.map Prod.fst → getKw t s'.dict = getKw t s.dict) ∧
      ∀ e ∈ d, ∃ m, getKw e.1 s'.dict = some m ∧ ∀ k, getKw k m = getKw k e.2
  | [], s, _, _ => by
    refine ⟨s, ?_, by simp, fun _ _ => rfl, by simp⟩
    have : stringify str strDict (nested ([] : List (Text × List (Text × V)))) = [] := by
      unfold nested
      rw [List.map_nil, stringify]
    rw [this]
    rfl
  | (t, l) :: d, s, hd, hs => by
    obtain ⟨h1, h2, h3⟩ := hd
    obtain ⟨hn, hsec⟩ := h2 _ (List.mem_cons_self ..)
    have hline : stringify str strDict (nested ((t, l) :: d)) = (['$', '_'] ++ t) ++ '\n' :: stringify str strDict (leaves l ++ nested d) := by
      unfold nested
      rw [List.map_cons]
      dsimp only
      rw [stringify]
      simp
    have hb : ∀ c ∈ ['$', '_'] ++ t, isBreak c = false := by
      intro c hc
      simp only [List.mem_append, List.mem_cons, List.not_mem_nil, or_false] at hc
      rcases hc with (rfl | rfl) | hc
      · decide
      · decide
      · exact name_break hn.1 c hc
    rw [List.map_cons, List.nodup_cons] at h1
    obtain ⟨s1, g1, g2⟩ := run_section (strDict := strDict) l.length (l := l) (rest := nested d) (s := ⟨setKw t [] s.dict, some t⟩) (m := [])
      (Nat.le_refl _) hsec (by
        intro e he
        rw [nested_keys]
        intro h
        exact h3 _ (List.mem_cons_self ..) e he (by
          rw [List.map_cons]
          exact List.mem_cons_of_mem _ h)) rfl (by rw [getKw_setKw, if_pos rfl])
    have hk1 : s1.dict.map Prod.fst = s.dict.map Prod.fst ++ [t] := by
      rw [g2.keys]
      dsimp only
      rw [setKw_new (hs t (by simp)), List.map_append]
      rfl
    obtain ⟨s', q1, q2, q3, q4⟩ := run_all (d := d) (s := s1) ⟨h1.2, fun e he => h2 e (List.mem_cons_of_mem _ he), fun e he x hx hm =>
        h3 e (List.mem_cons_of_mem _ he) x hx (by rw [List.map_cons]; exact List.mem_cons_of_mem _ hm)⟩ (by
      intro t' ht' h
      rw [hk1, List.mem_append, List.mem_singleton] at h
      rcases h with h | h
      · exact hs t' (by rw [List.map_cons]; exact List.mem_cons_of_mem _ ht') h
      · exact h1.1 (h ▸ ht'))
    refine ⟨s', ?_, ?_, ?_, ?_⟩
    · rw [hline, pyLines_append _ hb, List.foldl_cons, step_title _ hn, g1, q1]
    · rw [q2, hk1, List.map_cons]
      simp
    · intro t' ht'
      rw [List.map_cons, List.mem_cons, not_or] at ht'
      rw [q3 t' ht'.2, g2.others t' ht'.1]
      dsimp only
      rw [getKw_setKw, if_neg ht'.1]
    · intro e he
      rcases List.mem_cons.1 he with rfl | he
      · obtain ⟨m', w1, w2⟩ := g2.section_ [] (by dsimp only; rw [getKw_setKw, if_pos rfl])
        refine ⟨m', ?_, ?_⟩
        · rw [q3 _ h1.1]
          exact w1
        · intro k
          rw [w2 k]
          cases getKw k l <;> rfl
      · exact q4 e he

end

end Verif.Lemmas.DigitalsurfComment
