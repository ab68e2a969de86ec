import Verif.Spec.EmdNcem
import Mathlib.Data.List.Infix
import Mathlib.Data.List.TakeWhile
/-! Lemmas for EMD files: paths, texts and units. -/
namespace Verif.Lemmas.EmdNcem
open Verif Verif.EmdNcem Verif.Spec.EmdNcem

/-! ### Paths -/

theorem parts_join {ps : List Text} (h0 : ps ≠ []) (h : ∀ q ∈ ps, Part q) : parts (joinWith ['/'] ps) = ps := by
  unfold parts
  rw [splitChar_join h0 (fun q hq => (h q hq).2.2), List.filter_eq_self]
  intro q hq
  have := h q hq
  simp [this.1, this.2.1]

theorem norm_path {p : Text} (h : Path p) : norm p = p := by
  obtain ⟨ps, h0, hp, rfl⟩ := h
  unfold norm
  rw [parts_join h0 hp]

theorem join_snoc {n : Text} : ∀ {ps : List Text}, ps ≠ [] → joinWith ['/'] (ps ++ [n]) = inside (joinWith ['/'] ps) n
  | [], h => absurd rfl h
  | [p], _ => by simp [joinWith, inside]
  | p :: q :: r, _ => by
    have := join_snoc (n := n) (ps := q :: r) (by simp)
    simp only [List.cons_append] at this ⊢
    rw [joinWith, this, joinWith]
    simp [inside]

theorem path_inside {g n : Text} (hg : Path g) (hn : Part n) : Path (inside g n) := by
  obtain ⟨ps, h0, hp, rfl⟩ := hg
  refine ⟨ps ++ [n], by simp, ?_, (join_snoc h0).symm⟩
  intro q hq
  rcases List.mem_append.1 hq with h | h
  · exact hp q h
  · rw [List.mem_singleton] at h
    exact h ▸ hn

theorem path_part {p : Text} (h : Part p) : Path p := ⟨[p], by simp, by simpa using h, rfl⟩

theorem get_path {f : File} {p : Text} (h : Path p) : get f p = getKw p f.entries := by
  unfold EmdNcem.get
  rw [norm_path h]

theorem get_inside {f : File} {g n : Text} (hg : Path g) (hn : Part n) : get f (child g n) = getKw (inside g n) f.entries :=
  get_path (path_inside hg hn)

theorem takeWhile_rev {n g : Text} (h : '/' ∉ n) : (inside g n).reverse.takeWhile (· ≠ '/') = n.reverse := by
  unfold inside
  rw [List.reverse_append, List.reverse_cons, List.append_assoc, List.takeWhile_append_of_pos]
  · simp
  · intro c hc
    have : c ≠ '/' := fun e => h (e ▸ List.mem_reverse.1 hc)
    simpa using this

theorem dropWhile_rev {n g : Text} (h : '/' ∉ n) : (inside g n).reverse.dropWhile (· ≠ '/') = '/' :: g.reverse := by
  unfold inside
  rw [List.reverse_append, List.reverse_cons, List.append_assoc, List.dropWhile_append_of_pos]
  · simp
  · intro c hc
    have : c ≠ '/' := fun e => h (e ▸ List.mem_reverse.1 hc)
    simpa using this

theorem basename_inside {g n : Text} (h : '/' ∉ n) : basename (inside g n) = n := by
  unfold basename
  rw [takeWhile_rev h, List.reverse_reverse]

theorem basename_self {n : Text} (h : '/' ∉ n) : basename n = n := by
  unfold basename
  rw [List.takeWhile_eq_self_iff.2, List.reverse_reverse]
  intro c hc
  have : c ≠ '/' := fun e => h (e ▸ List.mem_reverse.1 hc)
  simpa using this

theorem basename_last {p t : Text} (h : Last p t) : basename p = t := by
  rcases h with ⟨h, rfl | ⟨q, rfl⟩⟩
  · exact basename_self h
  · exact basename_inside h

theorem last_basename (p : Text) : Last p (basename p) := by
  have hs : '/' ∉ basename p := by
    unfold basename
    rw [List.mem_reverse]
    intro h
    have := List.mem_takeWhile_imp h
    simp at this
  refine ⟨hs, ?_⟩
  have hd := List.takeWhile_append_dropWhile (p := fun c => decide (c ≠ '/')) (l := p.reverse)
  cases hr : p.reverse.dropWhile (· ≠ '/') with
  | nil =>
    left
    rw [hr, List.append_nil] at hd
    unfold basename
    rw [hd, List.reverse_reverse]
  | cons c r =>
    right
    have hc : c = '/' := by
      have := List.head?_dropWhile_not (p := fun c => decide (c ≠ '/')) p.reverse
      rw [hr] at this
      simpa using this
    subst hc
    refine ⟨r.reverse, ?_⟩
    rw [hr] at hd
    have := congrArg List.reverse hd
    rw [List.reverse_append, List.reverse_cons, List.reverse_reverse] at this
    unfold basename inside
    refine this.symm.trans ?_
    simp

theorem path_end {g : Text} (h : Path g) : ∃ a c, g = a ++ [c] ∧ c ≠ '/' := by
  obtain ⟨ps, h0, hp, rfl⟩ := h
  have key : ∀ p : Text, Part p → ∃ a c, p = a ++ [c] ∧ c ≠ '/' := by
    intro p hp
    refine ⟨p.dropLast, p.getLast hp.1, (List.dropLast_append_getLast hp.1).symm, ?_⟩
    exact fun e => hp.2.2 (e ▸ List.getLast_mem hp.1)
  rcases List.eq_nil_or_concat ps with rfl | ⟨qs, q, rfl⟩
  · exact absurd rfl h0
  · obtain ⟨a, c, rfl, hc⟩ := key q (hp q (by simp))
    by_cases hq : qs = []
    · subst hq; exact ⟨a, c, rfl, hc⟩
    · rw [List.concat_eq_append, join_snoc hq]
      exact ⟨inside (joinWith ['/'] qs) a, c, by simp [inside], hc⟩

theorem dirname_inside {g n : Text} (hg : Path g) (h : '/' ∉ n) : dirname (inside g n) = g := by
  unfold dirname
  rw [dropWhile_rev h]
  obtain ⟨a, c, rfl, hc⟩ := path_end hg
  have h1 : ((('/' :: (a ++ [c]).reverse).reverse).all (· = '/')) = false := by
    rw [List.all_eq_false]
    exact ⟨c, by simp, by simpa using hc⟩
  dsimp only
  rw [h1]
  have h2 : ('/' :: (a ++ [c]).reverse).reverse = (a ++ [c]) ++ ['/'] := by simp
  rw [h2, if_neg (by simp), rstripBy_append (by simp), rstripBy_id]
  intro d hd
  rw [List.getLast?_append] at hd
  simp at hd
  subst hd
  simpa using hc

theorem dirname_part {n : Text} (h : '/' ∉ n) : dirname n = [] := by
  unfold dirname
  rw [List.dropWhile_eq_nil_iff.2]
  · rfl
  · intro c hc
    have : c ≠ '/' := fun e => h (e ▸ List.mem_reverse.1 hc)
    simpa using this

theorem path_ne_nil {p : Text} (h : Path p) : p ≠ [] := by
  obtain ⟨a, c, rfl, _⟩ := path_end h
  simp

/-! ### Texts -/

theorem inText_iff {a : Text} : ∀ {b : Text}, inText a b = true ↔ Has a b
  | [] => by simp [inText, Has]
  | c :: t => by
    unfold inText
    rw [Bool.or_eq_true, List.isPrefixOf_iff_prefix, inText_iff, Has, Has, List.infix_cons_iff]

theorem inText_false {a b : Text} : inText a b = false ↔ ¬ Has a b := by
  rw [← inText_iff, Bool.not_eq_true]

theorem replaceAux_none {pat new : Text} (hp : pat ≠ []) : ∀ {s : Text}, ¬ pat <:+: s → Ripple.replaceAux pat new 0 s = s
  | [], _ => rfl
  | c :: t, h => by
    have h1 : pat.isPrefixOf (c :: t) = false := by
      rw [Bool.eq_false_iff]
      intro e
      exact h (List.isPrefixOf_iff_prefix.1 e).isInfix
    have h2 : ¬ pat <:+: t := fun e => h (List.infix_cons e)
    rw [Ripple.replaceAux, h1]
    simp only [Bool.false_eq_true, if_false]
    rw [replaceAux_none hp h2]

theorem replaceAux_skip (pat new : Text) : ∀ (s : Text) , Ripple.replaceAux pat new s.length s = []
  | [] => rfl
  | c :: t => by
    rw [List.length_cons, Ripple.replaceAux]
    exact replaceAux_skip pat new t

/-- Removal of a pattern at the end, if its first character does not occur again. -/
theorem replaceAux_end {c0 : Char} {p : Text} (hp : c0 ∉ p) : ∀ {s : Text}, ¬ (c0 :: p) <:+: s →
    Ripple.replaceAux (c0 :: p) [] 0 (s ++ c0 :: p) = s
  | [], _ => by
    have : (c0 :: p).isPrefixOf (c0 :: p) = true := by simp
    rw [List.nil_append, Ripple.replaceAux, this]
    simp only [if_true, List.nil_append, List.length_cons, Nat.add_sub_cancel]
    exact replaceAux_skip _ _ p
  | c :: t, h => by
    have h2 : ¬ (c0 :: p) <:+: t := fun e => h (List.infix_cons e)
    have h1 : (c0 :: p).isPrefixOf (c :: (t ++ c0 :: p)) = false := by
      rw [Bool.eq_false_iff]
      intro e
      have e := List.isPrefixOf_iff_prefix.1 e
      by_cases hl : (c0 :: p).length ≤ (c :: t).length
      · exact h (List.prefix_of_prefix_length_le e (List.prefix_append (c :: t) (c0 :: p)) hl).isInfix
      · have h3 : (c :: t) ++ [c0] <+: c :: (t ++ c0 :: p) := ⟨p, by simp⟩
        have h4 := List.prefix_of_prefix_length_le h3 e (by simp at hl ⊢; omega)
        obtain ⟨r, hr⟩ := h4
        rw [List.cons_append, List.cons_append] at hr
        have := (List.cons.inj hr).2
        exact hp (by rw [← this]; simp)
    rw [List.cons_append, Ripple.replaceAux, h1]
    simp only [Bool.false_eq_true, if_false]
    rw [replaceAux_end hp h2]

theorem titleOf_ok {t w : Text} (h : Title t w) : titleOf t = w := by
  unfold titleOf Ripple.replace
  rcases h with ⟨h, rfl⟩ | ⟨rfl, h⟩
  · exact replaceAux_none (by decide) h
  · exact replaceAux_end (by decide) h

/-! ### Units -/

theorem closing_ok : ∀ {a t : Text}, ']' ∉ a → '\n' ∉ a → closing (a ++ ']' :: t) = some (a, t)
  | [], t, _, _ => by simp [closing]
  | c :: a, t, h1, h2 => by
    have e1 : c ≠ ']' := fun e => h1 (by simp [e])
    have e2 : c ≠ '\n' := fun e => h2 (by simp [e])
    have := closing_ok (t := t) (fun m => h1 (List.mem_cons_of_mem _ m)) (fun m => h2 (List.mem_cons_of_mem _ m))
    rw [List.cons_append, closing, if_neg e1, if_neg e2, this]

theorem bracket_ok {a t : Text} (h0 : a ≠ []) (h1 : ']' ∉ a) (h2 : '\n' ∉ a) : bracket (a ++ ']' :: t) = some (a, t) := by
  cases a with
  | nil => exact absurd rfl h0
  | cons c a =>
    have e2 : c ≠ '\n' := fun e => h2 (by simp [e])
    rw [List.cons_append, bracket, if_neg e2, closing_ok (fun m => h1 (List.mem_cons_of_mem _ m)) (fun m => h2 (List.mem_cons_of_mem _ m))]

theorem findUnits_none : ∀ {n : Nat} {t : Text}, '[' ∉ t → findUnits n t = []
  | 0, t, _ => by cases t <;> rfl
  | n + 1, [], _ => rfl
  | n + 1, c :: t, h => by
    have : c ≠ '[' := fun e => h (by simp [e])
    rw [findUnits, if_neg this, findUnits_none fun m => h (List.mem_cons_of_mem _ m)]

theorem findUnits_skip : ∀ {pre t : Text} {n : Nat}, '[' ∉ pre → findUnits (pre.length + n) (pre ++ t) = findUnits n t
  | [], t, n, _ => by simp
  | c :: pre, t, n, h => by
    have : c ≠ '[' := fun e => h (by simp [e])
    have e : (c :: pre).length + n = (pre.length + n) + 1 := by simp; omega
    rw [e, List.cons_append, findUnits, if_neg this, findUnits_skip fun m => h (List.mem_cons_of_mem _ m)]

theorem findUnits_ok {t : Text} {l : List Text} (h : Bracketed t l) : ∀ n, t.length ≤ n →
    (findUnits n t).map (fun u => u.filter (· ≠ '_')) = l := by
  induction h with
  | none h => intro n _; rw [findUnits_none h]; rfl
  | @cons pre a t l h0 h1 h2 h3 _ ih =>
    intro n hn
    simp only [List.length_append, List.length_cons] at hn
    obtain ⟨m, rfl⟩ : ∃ m, n = pre.length + (m + 1) := ⟨n - pre.length - 1, by omega⟩
    have e : pre ++ '[' :: a ++ ']' :: t = pre ++ '[' :: (a ++ ']' :: t) := by simp
    rw [e, findUnits_skip h0, findUnits, if_pos rfl, bracket_ok h1 h2 h3]
    dsimp only
    rw [List.map_cons, ih m (by omega)]

theorem canon_getD {env : Env} {u w : Text} (h : Canon env u w) : (env.pint u).getD u = w := by
  rcases h with h | ⟨h, rfl⟩ <;> rw [h] <;> rfl

theorem parseUnits_ok {env : Env} {u w : Text} (h : UnitText env u w) : parseUnits env u = w := by
  unfold parseUnits
  rcases h with ⟨hb, h⟩ | ⟨l, hl, hb, h⟩
  · rcases h with ⟨rfl, h⟩ | ⟨rfl, h⟩ | ⟨h1, h2, h⟩
    · rw [if_pos (Or.inl rfl)]
      exact canon_getD h
    · rw [if_pos (Or.inr rfl)]
      exact canon_getD h
    · rw [if_neg (not_or.2 ⟨h1, h2⟩)]
      dsimp only
      rw [findUnits_none hb, if_pos rfl]
      exact canon_getD h
  · have hn : ¬ (u = "A".toList ∨ u = "A^-1".toList) := by
      have key : '[' ∈ u := by
        cases hb with
        | none h => exact absurd rfl hl
        | cons => simp
      rintro (rfl | rfl)
      · revert key; decide
      · revert key; decide
    rw [if_neg hn]
    dsimp only
    have hf := findUnits_ok hb u.length le_rfl
    have hne : findUnits u.length u ≠ [] := by
      intro e
      rw [e] at hf
      exact hl hf.symm
    rw [if_neg hne, hf]
    exact canon_getD h

/-! ### Dimensions -/

theorem dimName_eq (i : Nat) : dimName i = dim i := rfl

theorem part_dim (i : Nat) : Part (dim i) := by
  refine ⟨by simp [dim], by simp [dim], ?_⟩
  unfold dim
  have : '/' ∉ decChars i := by
    intro h
    have := decChars_digits i _ h
    revert this
    decide
  simp [this]

theorem dim_inj {i j : Nat} (h : dim i = dim j) : i = j := by
  unfold dim at h
  have h := (List.cons.inj (List.cons.inj (List.cons.inj h).2).2).2
  have := congrArg decVal h
  rwa [decVal_decChars, decVal_decChars] at this

end Verif.Lemmas.EmdNcem
