import Verif.Props.DigitalsurfMeta
/-!
Comments of Digital Surf files as metadata.
-/
namespace Verif.Props.DigitalsurfMeta
open Verif Verif.DigitalsurfMeta Verif.Spec.DigitalsurfMeta
open Verif.DigitalsurfComment (Node isBreak pyLines stringify popKey strNode parse units)
open Verif.Lemmas.DigitalsurfComment (pyLines_append leaves nested nested_keys name_break word_break not_blank stringify_some stringify_none run_all)
open Verif.Spec.DigitalsurfComment (Sections)
open Verif.Props.DigitalsurfComment (C72_partial)

/-! ### Lines -/

theorem lines_ok : ∀ {ls : List Text} {t : Text}, Lines ls t → pyLines t = ls
  | [], t, h => by rw [h.1]; rfl
  | l :: ls, t, h => by
    have ih := lines_ok (ls := ls) (t := (ls.map (· ++ ['\n'])).flatten) ⟨rfl, fun x hx => h.2 x (List.mem_cons_of_mem _ hx)⟩
    have : t = l ++ '\n' :: (ls.map (· ++ ['\n'])).flatten := by rw [h.1]; simp
    rw [this, pyLines_append _ (h.2 l (List.mem_cons_self ..)), ih]

theorem dropWhile_nil {p : Char → Bool} : ∀ {l : Text}, l.dropWhile p = [] ↔ ∀ c ∈ l, p c = true
  | [] => by simp
  | a :: l => by
    rw [List.forall_mem_cons, ← dropWhile_nil (l := l)]
    cases h : p a
    · rw [List.dropWhile_cons_of_neg (by simp [h])]
      simp
    · rw [List.dropWhile_cons_of_pos h]
      simp

theorem strip_nil {l : Text} : stripBy isSpace l = [] ↔ ∀ c ∈ l, isSpace c = true := by
  unfold stripBy rstripBy lstripBy
  rw [List.reverse_eq_nil_iff, dropWhile_nil]
  constructor
  · intro h c hc
    have h' : l.dropWhile isSpace = [] := by
      by_contra h0
      have h1 := List.head_dropWhile_not isSpace h0
      have h2 := h _ (List.mem_reverse.2 (List.head_mem h0))
      rw [h1] at h2
      cases h2
    exact dropWhile_nil.1 h' c hc
  · intro h c hc
    exact h c ((List.dropWhile_sublist _).mem (List.mem_reverse.1 hc))

theorem ignored_iff {l : Text} : (stripBy isSpace l = [] ∨ ['@', '@'] <+: l) ↔ Ignored l := by
  rw [strip_nil]
  unfold Ignored
  refine or_congr Iff.rfl ⟨?_, ?_⟩
  · rintro ⟨r, rfl⟩
    exact ⟨r, rfl⟩
  · rintro ⟨r, rfl⟩
    exact ⟨r, rfl⟩

theorem title_iff {l : Text} : ['$'] ++ ['_'] <+: l ↔ Title l := by
  constructor
  · rintro ⟨r, rfl⟩
    exact ⟨r, rfl⟩
  · rintro ⟨r, rfl⟩
    exact ⟨r, rfl⟩

theorem pair_iff {l : Text} : ('=' ∈ l ∧ ['$'] <+: l) ↔ Pair l := by
  constructor
  · rintro ⟨h, r, rfl⟩
    have : '=' ∈ r := by
      rcases List.mem_append.1 h with h | h
      · simp at h
      · exact h
    obtain ⟨k, v, rfl⟩ := List.append_of_mem this
    exact ⟨k, v, by simp⟩
  · rintro ⟨k, v, rfl⟩
    exact ⟨by simp, k ++ '=' :: v, by simp⟩

theorem check_fold : ∀ (ls : List Text) (s : Bool × Nat),
    (((ls.foldl (checkLine ['$'] '=') s).1 = true ↔ s.1 = true ∧ ∀ l ∈ ls, Ignored l ∨ Title l ∨ Pair l)) ∧
    ((ls.foldl (checkLine ['$'] '=') s).2 = 0 ↔ s.2 = 0 ∧ ∀ l ∈ ls, ¬ Ignored l → ¬ (Title l ∨ Pair l))
  | [], s => by simp
  | l :: ls, s => by
    have ih := check_fold ls (checkLine ['$'] '=' s l)
    rw [List.foldl_cons]
    refine ⟨ih.1.trans ?_, ih.2.trans ?_⟩
    · rw [List.forall_mem_cons]
      unfold checkLine
      split_ifs with h1 h2 h3
      · rw [ignored_iff] at h1; tauto
      · rw [title_iff] at h2; dsimp only; tauto
      · rw [pair_iff] at h3; dsimp only; tauto
      · rw [ignored_iff] at h1; rw [title_iff] at h2; rw [pair_iff] at h3
        constructor
        · rintro ⟨e, _⟩; cases e
        · rintro ⟨_, e, _⟩; tauto
    · rw [List.forall_mem_cons]
      unfold checkLine
      split_ifs with h1 h2 h3
      · rw [ignored_iff] at h1; tauto
      · rw [ignored_iff] at h1; rw [title_iff] at h2
        constructor
        · rintro ⟨e, _⟩; cases e
        · rintro ⟨_, e, _⟩; tauto
      · rw [ignored_iff] at h1; rw [pair_iff] at h3
        constructor
        · rintro ⟨e, _⟩; cases e
        · rintro ⟨_, e, _⟩; tauto
      · rw [title_iff] at h2; rw [pair_iff] at h3; dsimp only; tauto

/-- **C143, which comments.** A comment is taken as metadata just if all its lines are titles, pairs or to be ignored, and not all are
to be ignored. -/
theorem C143_parsable {ls : List Text} {cmt : Text} (hl : Lines ls cmt) : checkComments ['$'] '=' cmt = true ↔ Parsable ls := by
  unfold checkComments
  rw [lines_ok hl]
  obtain ⟨h1, h2⟩ := check_fold ls (true, 0)
  simp only [Bool.and_eq_true, decide_eq_true_eq, h1, h2, ne_eq, true_and]
  unfold Parsable
  constructor
  · rintro ⟨a, b⟩
    simp only [not_forall] at b
    obtain ⟨l, hl, hi, _⟩ := b
    exact ⟨⟨l, hl, hi⟩, a⟩
  · rintro ⟨⟨l, hl, hi⟩, b⟩
    exact ⟨b, fun h => h l hl hi ((b l hl).resolve_left hi)⟩

/-! ### What is written -/

section
variable {V : Type}

theorem popKey_mem {k : Text} : ∀ {q : List (Text × Node V)} {m : Node V} {q' : List (Text × Node V)}, popKey k q = some (m, q') →
    (k, m) ∈ q ∧ ∀ x ∈ q', x ∈ q
  | [], m, q', h => by cases h
  | (k', n) :: q, m, q', h => by
    unfold popKey at h
    split at h
    · rename_i e
      cases h
      exact ⟨by rw [e]; exact List.mem_cons_self .., fun x hx => List.mem_cons_of_mem _ hx⟩
    · split at h
      · cases h
      · rename_i hp
        cases h
        obtain ⟨h1, h2⟩ := popKey_mem hp
        refine ⟨List.mem_cons_of_mem _ h1, fun x hx => ?_⟩
        rcases List.mem_cons.1 hx with rfl | hx
        · exact List.mem_cons_self ..
        · exact List.mem_cons_of_mem _ (h2 x hx)

/-- A text without the end of a line. -/
def OneLine (t : Text) : Prop := ∀ c ∈ t, isBreak c = false

instance (t : Text) : Decidable (OneLine t) := by unfold OneLine; infer_instance

/-- Keys and values are in one line. -/
inductive Flat (str : V → Text) : Text × Node V → Prop
  | leaf {k : Text} {v : V} (hk : OneLine k) (hv : OneLine (str v)) : Flat str (k, .leaf v)
  | dict {k : Text} {l : List (Text × V)} (hk : OneLine k) (hl : ∀ e ∈ l, OneLine e.1 ∧ OneLine (str e.2)) : Flat str (k, .dict (leaves l))

theorem oneLine_append {a b : Text} (ha : OneLine a) (hb : OneLine b) : OneLine (a ++ b) := fun c hc =>
  (List.mem_append.1 hc).elim (ha c) (hb c)

theorem lines_written (str : V → Text) (strDict : List (Text × Node V) → Text) (hs : ∀ l, OneLine (strDict l)) :
    ∀ (n : Nat) (q : List (Text × Node V)), DigitalsurfComment.countAll q ≤ n → (∀ e ∈ q, Flat str e) →
      ∃ ls, Lines ls (stringify str strDict q) ∧ (∀ l ∈ ls, Title l ∨ Pair l) ∧ (q ≠ [] → ls ≠ [])
  | n, [], _, _ => ⟨[], ⟨by rw [stringify]; rfl, by simp⟩, by simp, fun h => absurd rfl h⟩
  | 0, (k, .dict l) :: q, hn, _ => by
    simp [DigitalsurfComment.countAll, DigitalsurfComment.Node.count] at hn
  | 0, (k, .leaf v) :: q, hn, _ => by
    simp [DigitalsurfComment.countAll, DigitalsurfComment.Node.count] at hn
  | n + 1, (k, .dict l) :: q, hn, hq => by
    have hk := hq _ (List.mem_cons_self ..)
    have hf : ∀ e ∈ l ++ q, Flat str e := by
      intro e he
      rcases List.mem_append.1 he with he | he
      · cases hk with
        | dict hk hl =>
          unfold leaves at he
          obtain ⟨x, hx, rfl⟩ := List.mem_map.1 he
          exact .leaf (hl x hx).1 (hl x hx).2
      · exact hq e (List.mem_cons_of_mem _ he)
    obtain ⟨ls, h1, h2, _⟩ := lines_written str strDict hs n (l ++ q) (by
      rw [DigitalsurfComment.countAll, DigitalsurfComment.Node.count] at hn
      rw [DigitalsurfComment.countAll_append]
      omega) hf
    refine ⟨('$' :: '_' :: k) :: ls, ⟨?_, fun x hx => ?_⟩, fun x hx => ?_, fun _ => by simp⟩
    · rw [stringify, h1.1]
      simp
    · rcases List.mem_cons.1 hx with rfl | hx
      · have hk' : OneLine k := by cases hk; assumption
        exact oneLine_append (a := ['$', '_']) (by decide) hk'
      · exact h1.2 x hx
    · rcases List.mem_cons.1 hx with rfl | hx
      · exact .inl ⟨k, rfl⟩
      · exact h2 x hx
  | n + 1, (k, .leaf v) :: q, hn, hq => by
    have hk := hq _ (List.mem_cons_self ..)
    obtain ⟨hk', hv⟩ : OneLine k ∧ OneLine (str v) := by
      cases hk
      exact ⟨by assumption, by assumption⟩
    rw [DigitalsurfComment.countAll, DigitalsurfComment.Node.count] at hn
    cases hp : popKey (units k) q with
    | none =>
      obtain ⟨ls, h1, h2, _⟩ := lines_written str strDict hs n q (by omega) fun e he => hq e (List.mem_cons_of_mem _ he)
      refine ⟨(['$'] ++ k ++ [' ', '=', ' '] ++ str v) :: ls, ⟨?_, fun x hx => ?_⟩, fun x hx => ?_, fun _ => by simp⟩
      · rw [stringify_none hp, h1.1]
        simp
      · rcases List.mem_cons.1 hx with rfl | hx
        · exact oneLine_append (oneLine_append (oneLine_append (by decide) hk') (by decide)) hv
        · exact h1.2 x hx
      · rcases List.mem_cons.1 hx with rfl | hx
        · exact .inr ⟨k ++ [' '], ' ' :: str v, by simp⟩
        · exact h2 x hx
    | some r =>
      obtain ⟨u, q'⟩ := r
      obtain ⟨m1, m2⟩ := popKey_mem hp
      have hc := DigitalsurfComment.popKey_count hp
      have hu : OneLine (strNode str strDict u) := by
        have := hq _ (List.mem_cons_of_mem _ m1)
        cases u with
        | leaf w =>
          cases this
          assumption
        | dict l => exact hs l
      obtain ⟨ls, h1, h2, _⟩ := lines_written str strDict hs n q' (by omega) fun e he => hq e (List.mem_cons_of_mem _ (m2 e he))
      refine ⟨(['$'] ++ k ++ [' ', '=', ' '] ++ str v ++ [' '] ++ strNode str strDict u) :: ls, ⟨?_, fun x hx => ?_⟩, fun x hx => ?_, fun _ => by simp⟩
      · rw [stringify_some hp, h1.1]
        simp
      · rcases List.mem_cons.1 hx with rfl | hx
        · exact oneLine_append (oneLine_append (oneLine_append (oneLine_append (oneLine_append (by decide) hk') (by decide)) hv) (by decide)) hu
        · exact h1.2 x hx
      · rcases List.mem_cons.1 hx with rfl | hx
        · exact .inr ⟨k ++ [' '], ' ' :: str v ++ [' '] ++ strNode str strDict u, by simp⟩
        · exact h2 x hx

theorem takeWhile_mem {p : Char → Bool} {c : Char} : ∀ {l : Text}, c ∈ l.takeWhile p → p c = true
  | [], h => by cases h
  | a :: l, h => by
    rw [List.takeWhile_cons] at h
    split at h
    · rename_i ha
      rcases List.mem_cons.1 h with rfl | h
      · exact ha
      · exact takeWhile_mem h
    · cases h

theorem object_ok {k : Text} : isObject k = true ↔ ObjectKey k := by
  unfold isObject
  rw [Bool.and_eq_true, List.isPrefixOf_iff_prefix, List.isPrefixOf_iff_prefix]
  constructor
  · rintro ⟨⟨t, rfl⟩, h⟩
    have e : ("Object_".toList ++ t).drop 7 = t := rfl
    rw [e] at h
    obtain ⟨r, hr⟩ := h
    refine ⟨t.takeWhile isDigit, r, ?_, fun c hc => ?_⟩
    · rw [List.append_assoc, List.append_assoc, hr, List.takeWhile_append_dropWhile]
    · have := takeWhile_mem hc
      unfold isDigit at this
      exact of_decide_eq_true this
  · rintro ⟨a, r, rfl, ha⟩
    refine ⟨⟨a ++ "_Channel_".toList ++ r, by simp⟩, ?_⟩
    have e : ("Object_".toList ++ a ++ "_Channel_".toList ++ r).drop 7 = a ++ ("_Channel_".toList ++ r) := by
      rw [List.append_assoc, List.append_assoc]
      rfl
    have hd : (a ++ ("_Channel_".toList ++ r)).dropWhile isDigit = "_Channel_".toList ++ r := by
      rw [List.dropWhile_append_of_pos (fun c hc => by unfold isDigit; exact decide_eq_true (ha c hc))]
      rfl
    rw [e, hd]
    exact ⟨r, rfl⟩

theorem noParsed_first {isNone : V → Bool} : ∀ {a : List (Text × Node V)} (b : List (List (Text × Node V))), NoParsed a →
    firstParsed isNone (fields a ++ b) = firstParsed isNone b
  | [], b, _ => rfl
  | (k, .leaf v) :: a, b, h => by
    have ih := noParsed_first (isNone := isNone) b (a := a) fun k l hm => h k l (List.mem_cons_of_mem _ hm)
    exact ih
  | (k, .dict l) :: a, b, h => by
    have ih := noParsed_first (isNone := isNone) b (a := a) fun k l hm => h k l (List.mem_cons_of_mem _ hm)
    by_cases hk : isObject k = true
    · have : fields ((k, Node.dict l) :: a) = l :: fields a := by simp [fields, hk]
      rw [this, List.cons_append, firstParsed, getKw_none (h k l (List.mem_cons_self ..) (object_ok.1 hk))]
      exact ih
    · have : fields ((k, Node.dict l) :: a) = fields a := by simp [fields, hk]
      rw [this]
      exact ih

/-- **C143, what is written.** Automatically the first parsed metadata of an object is written; the original metadata as they are if
they have no objects; nothing for objects without parsed metadata; what the user gives; and an unknown choice raises. -/
theorem C143_auto_partial (isNone : V → Bool) (custom omd : List (Text × Node V)) :
    (∀ a b k l c, omd = a ++ (k, .dict l) :: b → NoParsed a → ObjectKey k → HasEntry l "Parsed" (.dict c) → c ≠ [] →
      commentDict isNone .auto custom omd = .ok c) ∧
    ((∀ k l, (k, Node.dict l) ∈ omd → ¬ ObjectKey k) → commentDict isNone .auto custom omd = .ok omd) ∧
    ((∃ k l, (k, Node.dict l) ∈ omd ∧ ObjectKey k) → NoParsed omd → commentDict isNone .auto custom omd = .ok []) ∧
    commentDict isNone .raw custom omd = .ok omd ∧ commentDict isNone .custom custom omd = .ok custom ∧
    commentDict isNone .off custom omd = .ok [] ∧ ∃ e, commentDict isNone .other custom omd = .error e := by
  refine ⟨?_, ?_, ?_, rfl, rfl, rfl, _, rfl⟩
  · rintro a b k l c rfl ha hk hl hc
    have e : fields (a ++ (k, Node.dict l) :: b) = fields a ++ l :: fields b := by
      simp [fields, object_ok.2 hk]
    unfold commentDict
    simp only
    rw [e, if_neg (by simp), noParsed_first _ ha, firstParsed]
    have hg : getKw "Parsed".toList l = some (.dict c) := by
      obtain ⟨hm, hn⟩ := hl
      clear e
      induction l with
      | nil => cases hm
      | cons x l ih =>
        rw [List.map_cons, List.nodup_cons] at hn
        unfold getKw
        rcases List.mem_cons.1 hm with rfl | hm
        · rw [if_pos rfl]
        · rw [if_neg, ih hm hn.2]
          intro e
          exact hn.1 (by rw [e]; exact List.mem_map_of_mem (f := Prod.fst) hm)
    rw [hg]
    cases c with
    | nil => exact absurd rfl hc
    | cons x c => rfl
  · intro h
    have : fields omd = [] := by
      unfold fields
      rw [List.filterMap_eq_nil_iff]
      rintro ⟨k, n⟩ hm
      cases n with
      | leaf v => rfl
      | dict l =>
        simp only
        rw [if_neg fun hk => h k l hm (object_ok.1 hk)]
    unfold commentDict
    simp only
    rw [if_pos this]
  · rintro ⟨k, l, hm, hk⟩ hn
    unfold commentDict
    simp only
    have h1 := noParsed_first (isNone := isNone) [] hn
    rw [List.append_nil] at h1
    rw [if_neg, h1]
    · rfl
    · intro e
      unfold fields at e
      rw [List.filterMap_eq_nil_iff] at e
      have := e _ hm
      simp [object_ok.2 hk] at this

theorem strip_fold : ∀ {r d : List (Text × List (Text × V))}, (r.map Prod.fst).Nodup → (∀ e ∈ r, e.1.head? ≠ some '_') →
    (∀ e ∈ r, e.1 ∉ d.map Prod.fst) →
    r.foldl (fun d e => setKw (lstripBy (· = '_') e.1) e.2 d) d = d ++ r
  | [], d, _, _, _ => by simp
  | (k, v) :: r, d, hn, hu, hd => by
    rw [List.map_cons, List.nodup_cons] at hn
    have hk : lstripBy (· = '_') k = k := lstripBy_id fun c hc => by
      have := hu _ (List.mem_cons_self ..)
      simp only at this
      rw [hc] at this
      simpa using this
    rw [List.foldl_cons]
    simp only
    rw [hk, setKw_new (hd _ (List.mem_cons_self ..)), strip_fold hn.2 (fun e he => hu e (List.mem_cons_of_mem _ he))]
    · simp
    · intro e he hm
      rw [List.map_append, List.mem_append] at hm
      rcases hm with hm | hm
      · exact hd e (List.mem_cons_of_mem _ he) hm
      · simp only [List.map_cons, List.map_nil, List.mem_singleton] at hm
        exact hn.1 (by rw [← hm]; exact List.mem_map.2 ⟨e, he, rfl⟩)

/-- **C143, comments come back, partial.** Parsed metadata of a first object are written and read as the same sections: the same titles in
the same order, and for each section the same value for every key. Missing: what C72 shows to be lost, titles that begin with an
underscore, see `C143_fails_underscore`, and empty parsed metadata, see `C143_fails_empty`. -/
theorem C143_back_partial {str : V → Text} {strDict : List (Text × Node V) → Text} {lit : Text → Option V} {ofText : Text → V}
    (isNone : V → Bool) (hs : ∀ l, ∀ c ∈ strDict l, isBreak c = false) {d : List (Text × List (Text × V))} (hd : Sections str lit ofText d) (h0 : d ≠ [])
    (hu : ∀ e ∈ d, e.1.head? ≠ some '_') {key : Text} {l rest : List (Text × Node V)} (hk : ObjectKey key)
    (hl : HasEntry l "Parsed" (.dict (d.map fun e => (e.1, .dict (e.2.map fun x => (x.1, .leaf x.2)))))) :
    ∃ c r, commentDict isNone .auto [] ((key, .dict l) :: rest) = .ok c ∧ parsedOf lit ofText (stringify str strDict c) = some r ∧
      r.map Prod.fst = d.map Prod.fst ∧ ∀ e ∈ d, ∃ m, getKw e.1 r = some m ∧ ∀ k, getKw k m = getKw k e.2 := by
  have hne : (d.map fun e => (e.1, Node.dict (e.2.map fun x => (x.1, Node.leaf x.2)))) ≠ [] := by simpa using h0
  obtain ⟨r, r1, r2, r3⟩ := C72_partial (strDict := strDict) hd
  refine ⟨_, r, (C143_auto_partial isNone [] _).1 [] rest key l _ rfl (by intro k l hm; cases hm) hk hl hne, ?_, r2, r3⟩
  obtain ⟨ls, h1, h2, h3⟩ := lines_written str strDict hs _ (d.map fun e => (e.1, Node.dict (e.2.map fun x => (x.1, Node.leaf x.2)))) (Nat.le_refl _) (by
    intro e he
    obtain ⟨x, hx, rfl⟩ := List.mem_map.1 he
    obtain ⟨n1, n2⟩ := hd.2.1 x hx
    exact .dict (l := x.2) (name_break n1.1) fun y hy => ⟨name_break (n2.2.1 y hy).1.1.1, word_break (n2.2.1 y hy).2.1⟩)
  have hc : checkComments ['$'] '=' (stringify str strDict (d.map fun e => (e.1, Node.dict (e.2.map fun x => (x.1, Node.leaf x.2))))) = true := by
    rw [C143_parsable h1]
    have hi : ∀ l ∈ ls, ¬ Ignored l := by
      intro l hl hi
      have hd : ∃ r, l = '$' :: r := by
        rcases h2 l hl with ⟨r, rfl⟩ | ⟨k, v, rfl⟩
        · exact ⟨_, rfl⟩
        · exact ⟨_, rfl⟩
      obtain ⟨r, rfl⟩ := hd
      rcases hi with hi | ⟨r', hi⟩
      · exact absurd (hi '$' (List.mem_cons_self ..)) (by decide)
      · cases hi
    refine ⟨?_, fun l hl => .inr (h2 l hl)⟩
    obtain ⟨x, hx⟩ := List.exists_mem_of_ne_nil _ (h3 hne)
    exact ⟨x, hx, hi x hx⟩
  unfold parsedOf
  rw [if_pos hc, r1]
  have hr : ∀ e ∈ r, e.1.head? ≠ some '_' := by
    intro e he
    have : e.1 ∈ d.map Prod.fst := by rw [← r2]; exact List.mem_map_of_mem he
    obtain ⟨x, hx, hx'⟩ := List.mem_map.1 this
    rw [← hx']
    exact hu x hx
  rw [strip_fold (by rw [r2]; exact hd.1) hr (by simp)]
  rfl

/-- **C143 fails for empty parsed metadata**: they are not passed over, but written themselves, although a later object has some. -/
theorem C143_fails_empty (isNone : V → Bool) (v : V) :
    commentDict isNone .auto [] [("Object_0_Channel_0".toList, .dict [("Parsed".toList, .dict [])]),
      ("Object_0_Channel_1".toList, .dict [("Parsed".toList, .dict [("A".toList, .leaf v)])])] = .ok [("Parsed".toList, .dict [])] := rfl

/-- **C143 fails for titles that differ in underscores at their beginning**: one of the sections is lost. -/
theorem C143_fails_underscore (lit : Text → Option V) (ofText : Text → V) :
    parsedOf lit ofText "$_A\n$__A\n".toList = some [("A".toList, [])] := rfl

end

/-! ### Cathodoluminescence -/

section
variable {V : Type}

theorem getKw_of_entry {α : Type} {d : List (Text × α)} {k : String} {v : α} (h : HasEntry d k v) : getKw k.toList d = some v := by
  obtain ⟨hm, hn⟩ := h
  induction d with
  | nil => cases hm
  | cons x l ih =>
    rw [List.map_cons, List.nodup_cons] at hn
    unfold getKw
    rcases List.mem_cons.1 hm with rfl | hm
    · rw [if_pos rfl]
    · rw [if_neg, ih hm hn.2]
      intro e
      exact hn.1 (by rw [e]; exact List.mem_map_of_mem (f := Prod.fst) hm)

theorem lookup_ok {parsed : List (Text × List (Text × V))} {s k : String} {v : Option V} (h : InSection parsed s k v) : lookup parsed s k = v := by
  unfold lookup
  cases h with
  | found hs hk => rw [getKw_of_entry hs, Option.getD_some, getKw_of_entry hk]
  | noKey hs hk => rw [getKw_of_entry hs, Option.getD_some, getKw_none hk]
  | noSection hs => rw [getKw_none hs]; rfl

theorem part_sem {h : Head} {parsed : List (Text × List (Text × V))} (hc : h.zName = "CL Intensity".toList) :
    Part (specific h parsed) "SEM" (sem parsed) ∧ Part (specific h parsed) "Spectrometer" (spectrometer parsed) ∧
      Part (specific h parsed) "Detector" (detector parsed) := by
  have : signalType h = "CL".toList := if_pos hc
  unfold specific
  rw [if_pos this]
  refine ⟨⟨_, ⟨List.mem_singleton.2 rfl, ?_⟩, ?_, ?_⟩, ⟨_, ⟨List.mem_singleton.2 rfl, ?_⟩, ?_, ?_⟩, ⟨_, ⟨List.mem_singleton.2 rfl, ?_⟩, ?_, ?_⟩⟩
  all_goals first | decide | exact List.mem_cons_self .. | exact List.mem_cons_of_mem _ (List.mem_cons_self ..) |
    exact List.mem_cons_of_mem _ (List.mem_cons_of_mem _ (List.mem_cons_self ..)) | (simp only [List.map_cons, List.map_nil]; decide)

theorem keys_nodup {parsed : List (Text × List (Text × V))} (h : parsed ≠ []) :
    ((sem parsed).map Prod.fst).Nodup ∧ ((spectrometer parsed).map Prod.fst).Nodup ∧ ((detector parsed).map Prod.fst).Nodup := by
  have : parsed.isEmpty = false := by simpa using h
  unfold sem spectrometer detector
  simp only [this, Bool.false_eq_true, if_false, List.map_cons, List.map_nil]
  refine ⟨by decide, by decide, by decide⟩

/-- **C144, quantities, partial.** Quantities of the microscope have the value and the units that stand together in the comment. Missing:
the time of integration and the wavelength of the blaze, see `C144_fails_exposure` and `C144_fails_blaze`. -/
theorem C144_quantities_partial {h : Head} {parsed : List (Text × List (Text × V))} (hc : h.zName = "CL Intensity".toList) (h0 : parsed ≠ [])
    {part name sec key : String} (hq : Quantity part name sec key) {v u : Option V} (hv : InSection parsed sec key v) (hu : InSection parsed sec (key ++ "_units") u) :
    ∃ p, Part (specific h parsed) part p ∧ HasEntry p name (.entry v) ∧ HasEntry p (name ++ "_units") (.entry u) := by
  obtain ⟨p1, p2, p3⟩ := part_sem (parsed := parsed) hc
  obtain ⟨n1, n2, n3⟩ := keys_nodup h0
  have he : parsed.isEmpty = false := by simpa using h0
  have ev := lookup_ok hv
  have eu := lookup_ok hu
  subst ev eu
  cases hq with
  | energy => exact ⟨_, p1, ⟨by simp only [sem, he]; simp, n1⟩, by simp only [sem, he]; simp, n1⟩
  | entrance => exact ⟨_, p2, ⟨by simp only [spectrometer, he]; simp, n2⟩, by simp only [spectrometer, he]; simp, n2⟩
  | exit => exact ⟨_, p2, ⟨by simp only [spectrometer, he]; simp, n2⟩, by simp only [spectrometer, he]; simp, n2⟩
  | wavelength => exact ⟨_, p2, ⟨by simp only [spectrometer, he]; simp, n2⟩, by simp only [spectrometer, he]; simp, n2⟩
  | grooves => exact ⟨_, p2, ⟨by simp only [spectrometer, he]; simp, n2⟩, by simp only [spectrometer, he]; simp, n2⟩
  | pixel => exact ⟨_, p3, ⟨by simp only [detector, he]; simp, n3⟩, by simp only [detector, he]; simp, n3⟩

/-- **C144, others.** Entries without units. -/
theorem C144_singles {h : Head} {parsed : List (Text × List (Text × V))} (hc : h.zName = "CL Intensity".toList) (h0 : parsed ≠ [])
    {part name sec key : String} (hq : Single part name sec key) {v : Option V} (hv : InSection parsed sec key v) :
    ∃ p, Part (specific h parsed) part p ∧ HasEntry p name (.entry v) := by
  obtain ⟨p1, p2, p3⟩ := part_sem (parsed := parsed) hc
  obtain ⟨n1, n2, n3⟩ := keys_nodup h0
  have he : parsed.isEmpty = false := by simpa using h0
  have ev := lookup_ok hv
  subst ev
  cases hq with
  | magnification => exact ⟨_, p1, by simp only [sem, he]; simp, n1⟩
  | grating => exact ⟨_, p2, by simp only [spectrometer, he]; simp, n2⟩
  | blaze => exact ⟨_, p2, by simp only [spectrometer, he]; simp, n2⟩
  | model => exact ⟨_, p3, by simp only [detector, he]; simp, n3⟩
  | exposure => exact ⟨_, p3, by simp only [detector, he]; simp, n3⟩

/-- **C144, stage.** Positions in millimetres and angles in degrees. -/
theorem C144_stage {h : Head} {parsed : List (Text × List (Text × V))} (hc : h.zName = "CL Intensity".toList) (h0 : parsed ≠ [])
    {name key unit : String} (hq : OnStage name key unit) {v : Option V} (hv : InSection parsed "SITE IMAGE" key v) :
    ∃ p s, Part (specific h parsed) "SEM" p ∧ HasEntry p "Stage" (.dict s) ∧ HasEntry s name (.entry v) ∧
      HasEntry s (name ++ "_units") (.text unit.toList) := by
  obtain ⟨p1, p2, p3⟩ := part_sem (parsed := parsed) hc
  obtain ⟨n1, n2, n3⟩ := keys_nodup h0
  have he : parsed.isEmpty = false := by simpa using h0
  have ev := lookup_ok hv
  subst ev
  refine ⟨_, _, p1, ⟨(by simp only [sem, he]; exact List.mem_cons_of_mem _ (List.mem_cons_of_mem _ (List.mem_cons_of_mem _ (List.mem_cons_of_mem _ (List.mem_cons_self ..))))), n1⟩, ⟨?_, ?_⟩, ?_, ?_⟩
  · cases hq <;> simp
  · simp only [List.map_cons, List.map_nil]; decide
  · cases hq <;> simp
  · simp only [List.map_cons, List.map_nil]; decide

/-- **C144, other signals.** They have no metadata of an instrument. -/
theorem C144_other {h : Head} {parsed : List (Text × List (Text × V))} (hc : h.zName ≠ "CL Intensity".toList) : specific h parsed = [] := by
  have : signalType h = [] := if_neg hc
  unfold specific
  rw [this]
  rfl

/-- **C144 fails for the time of integration**: its units are the time. -/
theorem C144_fails_exposure {h : Head} {parsed : List (Text × List (Text × V))} (hc : h.zName = "CL Intensity".toList) (h0 : parsed ≠ [])
    {v : Option V} (hv : InSection parsed "CCD" "Exposure Time" v) :
    ∃ p, Part (specific h parsed) "Detector" p ∧ HasEntry p "integration_time_units" (.entry v) := by
  obtain ⟨p1, p2, p3⟩ := part_sem (parsed := parsed) hc
  have he : parsed.isEmpty = false := by simpa using h0
  have ev := lookup_ok hv
  subst ev
  exact ⟨_, p3, by simp only [detector, he]; simp, (keys_nodup h0).2.2⟩

/-- **C144 fails for the wavelength of the blaze**: its units are those of the central wavelength. -/
theorem C144_fails_blaze {h : Head} {parsed : List (Text × List (Text × V))} (hc : h.zName = "CL Intensity".toList) (h0 : parsed ≠ [])
    {v : Option V} (hv : InSection parsed "SPECTROMETER" "Central wavelength_units" v) :
    ∃ p, Part (specific h parsed) "Spectrometer" p ∧ HasEntry p "blazing_wavelength_units" (.entry v) := by
  obtain ⟨p1, p2, p3⟩ := part_sem (parsed := parsed) hc
  have he : parsed.isEmpty = false := by simpa using h0
  have ev := lookup_ok hv
  subst ev
  exact ⟨_, p2, by simp only [spectrometer, he]; simp, (keys_nodup h0).2.1⟩

end

/-! ### Examples -/

example : checkComments ['$'] '=' "@@x\n \n$_SEM\n$Beam Energy = 5 kV\n".toList = true ∧ checkComments ['$'] '=' "$_SEM\nfree text\n".toList = false ∧
    checkComments ['$'] '=' "@@x\n".toList = false := by decide

/-- C144: an energy with its units. -/
example : ∃ p, Part (specific head0 [("SEM".toList, [("Beam Energy".toList, 5), ("Beam Energy_units".toList, 7)])]) "SEM" p ∧
    HasEntry p "beam_energy" (.entry (some 5)) ∧ HasEntry p "beam_energy_units" (.entry (some 7)) :=
  C144_quantities_partial (V := Nat) rfl (by simp) .energy (.found (l := [("Beam Energy".toList, 5), ("Beam Energy_units".toList, 7)]) ⟨by simp, by decide⟩ ⟨by simp, by decide⟩)
    (.found (l := [("Beam Energy".toList, 5), ("Beam Energy_units".toList, 7)]) ⟨by simp, by decide⟩ ⟨by simp, by decide⟩)

end Verif.Props.DigitalsurfMeta
