import Verif.Model.Genfromtxt
import Verif.Spec.Tables
import Mathlib.Tactic.Ring
import Mathlib.Data.List.Nodup
import Mathlib.Algebra.BigOperators.Group.List.Basic
import Mathlib.Algebra.Order.Field.Rat
/-! Lemmas for C93 and C94: reading tables. -/
namespace Verif.Lemmas.Genfromtxt
open Verif.Genfromtxt Verif.Spec.Tables

theorem contains_iff {pat : Text} : ∀ {s : Text}, contains pat s = true ↔ pat <:+: s
  | [] => by
    unfold contains
    rw [List.isEmpty_iff]
    constructor
    · intro h; subst h; exact List.infix_rfl
    · intro h
      exact List.eq_nil_of_infix_nil h
  | c :: t => by
    unfold contains
    rw [Bool.or_eq_true, contains_iff, List.isPrefixOf_iff_prefix, List.infix_cons_iff]

theorem split_none {sep : Text} (hs : sep ≠ []) : ∀ {s : Text}, ¬ sep <:+: s → splitSub sep s = [s]
  | [], _ => rfl
  | c :: t, h => by
    have h1 : ¬ sep.isPrefixOf (c :: t) = true := by
      rw [List.isPrefixOf_iff_prefix]
      exact fun hp => h hp.isInfix
    have ih := split_none hs (s := t) fun hi => h (List.infix_cons hi)
    unfold splitSub at ih ⊢
    unfold splitSubAux
    rw [if_neg h1, ih]

theorem split_skip (sep : Text) : ∀ (k : Nat) (a t : Text), a.length = k → splitSubAux sep k (a ++ t) = splitSubAux sep 0 t
  | 0, [], t, _ => rfl
  | k + 1, x :: a, t, h => by
    rw [List.cons_append, splitSubAux, split_skip sep k a t (by simpa using h)]

/-- The text before the first `" = "`. -/
theorem split_eq {p v : Text} (hp : '=' ∉ p) (hv : ¬ " = ".toList <:+: v) : splitSub " = ".toList (p ++ " = ".toList ++ v) = [p, v] := by
  induction p with
  | nil =>
    unfold splitSub
    have e : ([] : Text) ++ " = ".toList ++ v = ' ' :: (['=', ' '] ++ v) := rfl
    rw [e, splitSubAux, if_pos (by rw [List.isPrefixOf_iff_prefix]; exact ⟨v, rfl⟩), split_skip _ _ _ _ (by rfl)]
    have := split_none (by simp) hv
    unfold splitSub at this
    rw [this]
  | cons c p ih =>
    have hc : '=' ∉ p := fun h => hp (List.mem_cons_of_mem _ h)
    have h1 : ¬ " = ".toList.isPrefixOf (c :: (p ++ " = ".toList ++ v)) = true := by
      rw [List.isPrefixOf_iff_prefix]
      rintro ⟨r, hr⟩
      have e : " = ".toList ++ r = ' ' :: '=' :: ' ' :: r := rfl
      rw [e] at hr
      simp only [List.cons.injEq] at hr
      obtain ⟨_, hr⟩ := hr
      cases p with
      | nil =>
        have e2 : ([] : Text) ++ " = ".toList ++ v = ' ' :: '=' :: ' ' :: v := rfl
        rw [e2] at hr
        simp at hr
      | cons d p =>
        simp only [List.cons_append, List.cons.injEq] at hr
        exact hc (by rw [← hr.1]; exact List.mem_cons_self ..)
    have ih := ih hc
    unfold splitSub at ih ⊢
    rw [List.cons_append, List.cons_append, splitSubAux, if_neg h1, ih]

/-- A name that `genfromtxt` does not change. -/
structure Kept (n : Text) : Prop where
  ne : n ≠ []
  char : ∀ c ∈ n, isSpace c = false ∧ c ∉ deleteChars
  word : n ∉ excluded

theorem clean_kept {names : List Text} {e : Nat} {n : Text} (h : Kept n) : cleanName names e n = (n, e) := by
  have h1 : stripBy isSpace n = n := stripBy_id (fun c hc => (h.char c (List.mem_of_mem_head? hc)).1) (fun c hc => (h.char c (List.mem_of_getLast? hc)).1)
  have h2 : n.map (fun c => if c = ' ' then '_' else c) = n := by
    conv_rhs => rw [← List.map_id n]
    apply List.map_congr_left
    intro c hc
    rw [if_neg]
    · rfl
    · rintro rfl
      exact absurd (h.char _ hc).1 (by decide)
  have h3 : n.filter (fun c => decide (c ∉ deleteChars)) = n := by
    rw [List.filter_eq_self]
    intro c hc
    simpa using (h.char c hc).2
  unfold cleanName
  rw [h1, h2, h3]
  dsimp only
  rw [if_neg h.ne, if_neg h.word]

theorem validate_kept {names : List Text} : ∀ {ns seen : List Text} {e : Nat}, (∀ n ∈ ns, Kept n) → ns.Nodup → (∀ n ∈ ns, n ∉ seen) → validate names e seen ns = ns
  | [], _, _, _, _, _ => rfl
  | n :: ns, seen, e, h, hnd, hs => by
    rw [List.nodup_cons] at hnd
    unfold validate
    rw [clean_kept (h n (List.mem_cons_self ..))]
    dsimp only
    rw [List.count_eq_zero_of_not_mem (hs n (List.mem_cons_self ..)), if_pos rfl, validate_kept (fun x hx => h x (List.mem_cons_of_mem _ hx)) hnd.2]
    intro x hx hm
    rcases List.mem_cons.1 hm with rfl | hm
    · exact hnd.1 hx
    · exact hs x (List.mem_cons_of_mem _ hx) hm

theorem row_char {k : Nat} {cells : List Text} (h : Row k cells) : ∀ c ∈ joinWith [','] cells, c ≠ '#' ∧ c ≠ '\n' ∧ c ≠ '\r' := by
  intro c hc
  rcases mem_join hc with hc | ⟨p, hp, hc⟩
  · rw [List.mem_singleton.1 hc]
    decide
  · exact (h.char p hp c hc).2

theorem split_row {k : Nat} {cells : List Text} (h : Row k cells) : splitRow (joinWith [','] cells ++ ['\n']) = cells ∧ cells ≠ [] := by
  have hne : cells ≠ [] := by
    rintro rfl
    exact h.ne rfl
  have hc := row_char h
  have e1 : (joinWith [','] cells ++ ['\n']).takeWhile (· ≠ '#') = joinWith [','] cells ++ ['\n'] := by
    have : ∀ {s : Text}, (∀ c ∈ s, decide (c ≠ '#') = true) → s.takeWhile (· ≠ '#') = s := by
      intro s
      induction s with
      | nil => intro _; rfl
      | cons a s ih =>
        intro hs
        rw [List.takeWhile_cons_of_pos (p := fun x => decide (x ≠ '#')) (hs a (List.mem_cons_self ..)), ih fun c hc => hs c (List.mem_cons_of_mem _ hc)]
    apply this
    intro c hm
    rcases List.mem_append.1 hm with hm | hm
    · simpa using (hc c hm).1
    · rw [List.mem_singleton.1 hm]
      decide
  have e2 : stripBy (fun c => decide (c = ' ' ∨ c = '\r' ∨ c = '\n')) (joinWith [','] cells ++ ['\n']) = joinWith [','] cells := by
    rw [stripBy_append (by simp)]
    apply stripBy_id
    · intro c hm
      have := hc c (List.mem_of_mem_head? hm)
      simp [h.head c hm, this.2.1, this.2.2]
    · intro c hm
      have := hc c (List.mem_of_getLast? hm)
      simp [h.last c hm, this.2.1, this.2.2]
  unfold splitRow
  rw [e1, e2]
  dsimp only
  rw [if_neg h.ne]
  exact ⟨splitChar_join hne fun p hp hm => (h.char p hp _ hm).1 rfl, hne⟩

theorem rows_split {k : Nat} : ∀ {rows : List (List Text)}, (∀ r ∈ rows, Row k r) → ((rows.map fun r => joinWith [','] r ++ ['\n']).map splitRow).filter (· ≠ []) = rows
  | [], _ => rfl
  | r :: rows, h => by
    obtain ⟨h1, h2⟩ := split_row (h r (List.mem_cons_self ..))
    rw [List.map_cons, List.map_cons, h1, List.filter_cons_of_pos (by simpa using h2), rows_split fun x hx => h x (List.mem_cons_of_mem _ hx)]

theorem genfromtxt_ok {head : List Text} {skip : Nat} {names : List Text} {rows : List (List Text)} (hh : head.length = skip) (hrows : ∀ r ∈ rows, Row names.length r) (hne : rows ≠ [])
    (hk : ∀ n ∈ names, Kept n) (hnd : names.Nodup) : genfromtxt (head ++ rows.map fun r => joinWith [','] r ++ ['\n']) skip names = .ok ⟨names, rows⟩ := by
  unfold genfromtxt
  rw [← hh, List.drop_left, rows_split hrows]
  dsimp only
  rw [if_neg hne, if_pos, validate_kept hk hnd (by simp)]
  rw [List.all_eq_true]
  intro r hr
  simpa using (hrows r hr).length

theorem column_ok {names : List Text} {rows : List (List Text)} (hnd : names.Nodup) {i : Nat} (hi : i < names.length) : column ⟨names, rows⟩ names[i] = .ok (rows.map (·.getD i [])) := by
  have e : names.findIdx? (fun x => decide (x = names[i])) = some i := by
    rw [List.findIdx?_eq_some_iff_getElem]
    refine ⟨hi, by simp, ?_⟩
    intro j hj
    simp only [decide_eq_true_eq]
    intro e
    have := (List.Nodup.getElem_inj_iff hnd).1 e
    omega
  unfold column
  dsimp only
  rw [e]

theorem telescope : ∀ (a : Rat) (l : List Rat), (((a :: l).zip l).map fun e => e.2 - e.1).sum = (a :: l).getLastD 0 - a
  | a, [] => by simp
  | a, b :: l => by
    have ih := telescope b l
    rw [List.zip_cons_cons, List.map_cons, List.sum_cons, ih]
    simp only [List.getLastD_cons]
    ring

theorem meanStep_eq {T : List Rat} (hn : 4 ≤ T.length) : meanStep T = some ((T.getD (T.length - 2) 0 - T.getD 1 0) / ((T.length - 3 : Nat) : Rat)) := by
  obtain ⟨inner, hinner⟩ : ∃ inner, inner = (T.drop 1).dropLast := ⟨_, rfl⟩
  have hlen : inner.length = T.length - 2 := by
    rw [hinner, List.length_dropLast, List.length_drop]
    omega
  have hget : ∀ k, k < T.length - 2 → inner.getD k 0 = T.getD (k + 1) 0 := by
    intro k hk
    have h1 : k < (T.drop 1).dropLast.length := by rw [← hinner, hlen]; exact hk
    rw [hinner, List.getD_eq_getElem?_getD, List.getD_eq_getElem?_getD, List.getElem?_eq_getElem h1, List.getElem_dropLast, List.getElem_drop]
    rw [List.getElem?_eq_getElem (by omega)]
    simp only [Option.getD_some, Nat.add_comm]
  match inner, hinner, hlen, hget with
  | [], _, hlen, _ => simp at hlen; omega
  | [_], _, hlen, _ => simp at hlen; omega
  | a :: b :: r, hinner, hlen, hget =>
    have hsum := telescope a (b :: r)
    have hlast : (a :: b :: r).getLastD 0 = T.getD (T.length - 2) 0 := by
      have := hget (T.length - 3) (by omega)
      have e : (a :: b :: r).getLastD 0 = (a :: b :: r).getD (T.length - 3) 0 := by
        rw [List.getLastD_eq_getLast?, List.getLast?_eq_getElem?, hlen, List.getD_eq_getElem?_getD]
        congr 2
      rw [e, this]
      congr 1
      omega
    have hfirst : a = T.getD 1 0 := by
      have := hget 0 (by omega)
      simpa using this
    unfold meanStep
    rw [← hinner]
    dsimp only
    rw [if_neg (by simp)]
    have hz : (a :: b :: r).drop 1 = b :: r := rfl
    rw [hz, hsum, hlast, ← hfirst]
    congr 2
    rw [List.length_map, List.length_zip]
    simp only [List.length_cons] at hlen ⊢
    congr 1
    omega

end Verif.Lemmas.Genfromtxt
