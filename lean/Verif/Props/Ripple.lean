import Verif.Model.Ripple
import Verif.Py.Dec
/-!
C27 and C28: ripple files.
-/
namespace Verif.Props.Ripple
open Verif Verif.Ripple

variable {F : Type}

/-! ### C27 -/

/-- A text that survives in a field of a header line: representable, without tabs, semicolons, line
ends, the misspelling that the reader corrects everywhere, or white space at its ends. -/
structure GoodText (s : Text) : Prop where
  latin : ∀ c ∈ s, c.toNat < 256
  tab : '\t' ∉ s
  semicolon : ';' ∉ s
  cr : '\r' ∉ s
  lf : '\n' ∉ s
  misspelling : ¬ dataLengthBad <:+: s
  head : ∀ c ∈ s.head?, isSpace c = false
  last : ∀ c ∈ s.getLast?, isSpace c = false

theorem replace_id {pat new : Text} (hp : pat ≠ []) : ∀ {s : Text}, ¬ pat <:+: s →
    replace pat new s = s := by
  intro s
  unfold replace
  induction s with
  | nil => intro; rfl
  | cons c t ih =>
    intro h
    rw [List.infix_cons_iff, not_or] at h
    rw [replaceAux, if_neg (by rw [List.isPrefixOf_iff_prefix]; exact h.1), ih h.2]

theorem takeWhile_all {p : Char → Bool} : ∀ {s : Text}, (∀ c ∈ s, p c = true) → s.takeWhile p = s
  | [], _ => rfl
  | c :: s, h => by
    rw [List.takeWhile_cons_of_pos (h c (List.mem_cons_self ..)),
      takeWhile_all (fun d hd => h d (List.mem_cons_of_mem _ hd))]

/-- A line `key<TAB>value` is split into key and value. -/
theorem parseLine_split {parseI : Text → Option Int} {parseF : Text → Option F}
    {table : List (Text × Kind)} {k v : Text} (hk : GoodText k) (hv : GoodText v) :
    parseLine parseI parseF table (k ++ '\t' :: v ++ ['\n']) =
      (convert parseI parseF table k v).map fun x => some (k, x) := by
  have hinf : ¬ dataLengthBad <:+: k ++ '\t' :: v ++ ['\n'] := by
    intro h
    rcases infix_append_cons (c := '\n') (b := []) (by decide) h with h | h
    · rcases infix_append_cons (by decide) h with h | h
      · exact hk.misspelling h
      · exact hv.misspelling h
    · have := List.eq_nil_of_infix_nil h
      exact absurd this (by decide)
  have hhead : ∀ c ∈ (k ++ '\t' :: v).head?, c ≠ '\r' ∧ c ≠ '\n' ∧ c ≠ ';' := by
    intro c hc
    cases k with
    | nil => simp at hc; subst hc; decide
    | cons a k =>
      simp at hc
      subst hc
      refine ⟨?_, ?_, ?_⟩ <;> rintro rfl
      · exact hk.cr (by simp)
      · exact hk.lf (by simp)
      · exact hk.semicolon (by simp)
  have hcond : ¬ ((k ++ '\t' :: v ++ ['\n']).take 2 ∈ [['\n'], ['\r', '\n']] ∨
      (k ++ '\t' :: v ++ ['\n']).head? = some ';') := by
    have hne : ∃ a t, k ++ '\t' :: v = a :: t := by
      cases k with
      | nil => exact ⟨_, _, rfl⟩
      | cons a k => exact ⟨_, _, rfl⟩
    obtain ⟨a, t, hat⟩ := hne
    have ha := hhead a (by rw [hat]; rfl)
    rw [hat]
    rintro (h | h)
    · simp only [List.cons_append, List.take_succ_cons, List.mem_cons, List.not_mem_nil,
        or_false] at h
      rcases h with h | h
      · injection h with e _; exact ha.2.1 e
      · injection h with e _; exact ha.1 e
    · simp at h; exact ha.2.2 h
  have hnl : ∀ c ∈ ['\n'], (fun c => decide (c = '\r') || decide (c = '\n')) c = true := by
    simp
  have hstrip : stripBy (fun c => c = '\r' || c = '\n') (k ++ '\t' :: v ++ ['\n']) =
      k ++ '\t' :: v := by
    unfold stripBy
    have hl : lstripBy (fun c => decide (c = '\r') || decide (c = '\n'))
        (k ++ '\t' :: v ++ ['\n']) = k ++ '\t' :: v ++ ['\n'] := by
      apply lstripBy_id
      intro c hc
      have : c ∈ (k ++ '\t' :: v).head? := by
        cases k with
        | nil => simpa using hc
        | cons a k => simpa using hc
      have := hhead c this
      simp [this.1, this.2.1]
    rw [hl, rstripBy_append hnl]
    apply rstripBy_id
    intro c hc
    rw [List.getLast?_append] at hc
    cases v with
    | nil =>
      simp at hc
      subst hc
      decide
    | cons d v =>
      have hm : c ∈ d :: v := by
        rw [List.getLast?_cons_cons] at hc
        cases hl : (d :: v).getLast? with
        | none => simp at hl
        | some e =>
          rw [hl] at hc
          simp at hc
          rw [← hc]
          exact List.mem_of_getLast? hl
      have h1 : c ≠ '\r' := by rintro rfl; exact hv.cr hm
      have h2 : c ≠ '\n' := by rintro rfl; exact hv.lf hm
      simp [h1, h2]
  have hsemi : (k ++ '\t' :: v).takeWhile (fun c => decide (c ≠ ';')) = k ++ '\t' :: v := by
    apply takeWhile_all
    intro c hc
    rcases List.mem_append.1 hc with h | h
    · have : c ≠ ';' := by rintro rfl; exact hk.semicolon h
      simpa using this
    · rcases List.mem_cons.1 h with h | h
      · subst h; decide
      · have : c ≠ ';' := by rintro rfl; exact hv.semicolon h
        simpa using this
  unfold parseLine
  dsimp only
  rw [replace_id (by decide) hinf, if_neg hcond, hstrip, hsemi, splitChar_append hk.tab,
    splitChar_none hv.tab, List.map_cons, List.map_cons, stripBy_id hk.head hk.last,
    stripBy_id hv.head hv.last]
  dsimp only
  cases convert parseI parseF table k v <;> rfl

/-- A line `key<TAB>value` is read back. -/
theorem parseLine_field {parseI : Text → Option Int} {parseF : Text → Option F}
    {table : List (Text × Kind)} {k v : Text} {x : Val F} (hk : GoodText k) (hv : GoodText v)
    (hc : convert parseI parseF table k v = .ok x) :
    parseLine parseI parseF table (k ++ '\t' :: v ++ ['\n']) = .ok (some (k, x)) := by
  rw [parseLine_split hk hv, hc]; rfl

theorem parseLine_field_error {parseI : Text → Option Int} {parseF : Text → Option F}
    {table : List (Text × Kind)} {k v : Text} {e : PyErr} (hk : GoodText k) (hv : GoodText v)
    (hc : convert parseI parseF table k v = .error e) :
    parseLine parseI parseF table (k ++ '\t' :: v ++ ['\n']) = .error e := by
  rw [parseLine_split hk hv, hc]; rfl

/-- Putting entries into a dictionary one by one. -/
def putAll {α : Type} (d info : List (Text × α)) : List (Text × α) :=
  d.foldl (fun i e => setKw e.1 e.2 i) info

theorem getKw_putAll {α : Type} (k : Text) : ∀ (d info : List (Text × α)),
    (d.map Prod.fst).Nodup →
    getKw k (putAll d info) = match getKw k d with
      | some v => some v
      | none => getKw k info
  | [], info, _ => rfl
  | (k', v) :: d, info, hnd => by
    simp only [List.map_cons, List.nodup_cons] at hnd
    have ih := getKw_putAll k d (setKw k' v info) hnd.2
    unfold putAll at ih ⊢
    rw [List.foldl_cons, ih, getKw_setKw, getKw]
    by_cases h : k' = k
    · subst h
      rw [getKw_none hnd.1]
      simp
    · rw [if_neg h, if_neg (Ne.symm h)]

theorem perm_insertKw {α : Type} (e : Text × α) : ∀ d, (insertKw e d).Perm (e :: d)
  | [] => .refl _
  | f :: d => by
    unfold insertKw
    split
    · exact .refl _
    · exact ((perm_insertKw e d).cons f).trans (List.Perm.swap _ _ _)

theorem perm_sortKw {α : Type} : ∀ d : List (Text × α), (sortKw d).Perm d
  | [] => .refl _
  | e :: d => (perm_insertKw e (sortKw d)).trans ((perm_sortKw d).cons e)

theorem getKw_perm {α : Type} {d d' : List (Text × α)} (hp : d.Perm d')
    (hnd : (d.map Prod.fst).Nodup) (k : Text) : getKw k d = getKw k d' := by
  have hnd' : (d'.map Prod.fst).Nodup := (hp.map _).nodup_iff.1 hnd
  by_cases h : k ∈ d.map Prod.fst
  · obtain ⟨⟨k', v⟩, he, rfl⟩ := List.mem_map.1 h
    rw [getKw_mem hnd he, getKw_mem hnd' (hp.subset he)]
  · have h' : k ∉ d'.map Prod.fst := fun m => h ((hp.map _).symm.subset m)
    rw [getKw_none h, getKw_none h']

theorem parseLines_fields {parseI : Text → Option Int} {parseF : Text → Option F}
    {showI : Int → Text} {showF : F → Text} {table : List (Text × Kind)}
    (conv : Text × Val F → Val F) : ∀ (d : List (Text × Val F)) (info : List (Text × Val F)),
    (∀ e ∈ d, GoodText e.1) → (∀ e ∈ d, GoodText (valText showI showF e.2)) →
    (∀ e ∈ d, convert parseI parseF table e.1 (valText showI showF e.2) = .ok (conv e)) →
    parseLines parseI parseF table
      (d.map fun e => e.1 ++ '\t' :: valText showI showF e.2 ++ ['\n']) info =
      .ok (putAll (d.map fun e => (e.1, conv e)) info)
  | [], _, _, _, _ => rfl
  | e :: d, info, hk, hv, hc => by
    rw [List.map_cons, parseLines, parseLine_field (hk e (List.mem_cons_self ..))
      (hv e (List.mem_cons_self ..)) (hc e (List.mem_cons_self ..))]
    dsimp only
    rw [parseLines_fields conv d _ (fun f hf => hk f (List.mem_cons_of_mem _ hf))
      (fun f hf => hv f (List.mem_cons_of_mem _ hf)) (fun f hf => hc f (List.mem_cons_of_mem _ hf))]
    rfl

/-- The checks look at four keys only. -/
theorem check_congr [DecidableEq F] {a b : List (Text × Val F)}
    (h1 : getKw "depth".toList a = getKw "depth".toList b)
    (h2 : getKw "record-by".toList a = getKw "record-by".toList b)
    (h3 : getKw "data-type".toList a = getKw "data-type".toList b)
    (h4 : getKw "data-length".toList a = getKw "data-length".toList b)
    (h5 : getKw "byte-order".toList a = getKw "byte-order".toList b) : check a = check b := by
  unfold check
  rw [h1, h2, h3, h4, h5]

theorem getKw_map {α β : Type} (f : Text × α → β) (k : Text) : ∀ d : List (Text × α),
    getKw k (d.map fun e => (e.1, f e)) = (getKw k d).map fun v => f (k, v)
  | [] => rfl
  | (k', v) :: d => by
    rw [List.map_cons, getKw, getKw]
    dsimp only
    by_cases h : k' = k
    · subst h; simp
    · rw [if_neg h, if_neg h, getKw_map f k d]

/-- C27, partial: for keys and values that survive in a field (`GoodText`). If every value can be
converted to the type of its key and the header is consistent, the file is read and every key has
the converted value, whatever the order of the keys; there is one more key, `key`. Missing: other
texts, see below. -/
theorem C27_header_partial [DecidableEq F] {parseI : Text → Option Int} {parseF : Text → Option F}
    {showI : Int → Text} {showF : F → Text} {banner : Text} {kwds : List (Text × Val F)}
    (conv : Text × Val F → Val F)
    (hb : ∀ c ∈ banner, c.toNat < 256) (hbr : '\r' ∉ banner) (hbn : '\n' ∉ banner)
    (hnd : (kwds.map Prod.fst).Nodup) (hk : ∀ e ∈ kwds, GoodText e.1)
    (hv : ∀ e ∈ kwds, GoodText (valText showI showF e.2))
    (hc : ∀ e ∈ kwds, convert parseI parseF rplKeys e.1 (valText showI showF e.2) = .ok (conv e))
    (hcheck : check (kwds.map fun e => (e.1, conv e)) = .ok ()) :
    ∃ info, parseRipple parseI parseF rplKeys (rplText showI showF banner kwds) = .ok info ∧
      (∀ e ∈ kwds, getKw e.1 info = some (conv e)) ∧
      ∀ k, k ∉ kwds.map Prod.fst → k ≠ "key".toList → getKw k info = none := by
  have hperm := perm_sortKw kwds
  have hnd' : ((sortKw kwds).map Prod.fst).Nodup := (hperm.map _).nodup_iff.2 hnd
  -- the text contains only representable characters
  have hfilter : rplText showI showF banner kwds =
      (';' :: banner) ++ '\n' :: (("key\tvalue".toList) ++ '\n' ::
        (sortKw kwds).flatMap fun e => e.1 ++ '\t' :: valText showI showF e.2 ++ ['\n']) := by
    unfold rplText
    rw [List.filter_eq_self.2]
    · rw [show "key\tvalue\n".toList = "key\tvalue".toList ++ ['\n'] by decide]
      simp
    · intro c h
      rcases List.mem_append.1 h with h | h
      · rcases List.mem_append.1 h with h | h
        · rcases List.mem_append.1 h with h | h
          · rcases List.mem_cons.1 h with h | h
            · subst h; decide
            · simpa using hb c h
          · simp at h; subst h; decide
        · have : ∀ c ∈ "key\tvalue\n".toList, decide (c.toNat < 256) = true := by decide
          exact this c h
      · obtain ⟨e, he, h⟩ := List.mem_flatMap.1 h
        have he' := hperm.subset he
        rcases List.mem_append.1 h with h | h
        · rcases List.mem_append.1 h with h | h
          · simpa using (hk e he').latin c h
          · rcases List.mem_cons.1 h with h | h
            · subst h; decide
            · simpa using (hv e he').latin c h
        · simp at h; subst h; decide
  have hlines : ∀ d : List (Text × Val F), (∀ e ∈ d, GoodText e.1) →
      (∀ e ∈ d, GoodText (valText showI showF e.2)) →
      fileLines (d.flatMap fun e => e.1 ++ '\t' :: valText showI showF e.2 ++ ['\n']) =
        d.map fun e => e.1 ++ '\t' :: valText showI showF e.2 ++ ['\n'] := by
    intro d
    induction d with
    | nil => intro _ _; rfl
    | cons e d ih =>
      intro h1 h2
      have hk1 := h1 e (List.mem_cons_self ..)
      have hv1 := h2 e (List.mem_cons_self ..)
      have hno : ∀ c, c = '\r' ∨ c = '\n' → c ∉ e.1 ++ '\t' :: valText showI showF e.2 := by
        intro c hc hm
        rcases List.mem_append.1 hm with h | h
        · rcases hc with rfl | rfl
          · exact hk1.cr h
          · exact hk1.lf h
        · rcases List.mem_cons.1 h with h | h
          · subst h; rcases hc with hc | hc <;> exact absurd hc (by decide)
          · rcases hc with rfl | rfl
            · exact hv1.cr h
            · exact hv1.lf h
      rw [List.flatMap_cons, List.append_assoc, List.singleton_append,
        fileLines_lf _ (hno _ (.inl rfl)) (hno _ (.inr rfl)),
        ih (fun f hf => h1 f (List.mem_cons_of_mem _ hf)) (fun f hf => h2 f (List.mem_cons_of_mem _ hf))]
      rfl
  have hk' : ∀ e ∈ sortKw kwds, GoodText e.1 := fun e he => hk e (hperm.subset he)
  have hv' : ∀ e ∈ sortKw kwds, GoodText (valText showI showF e.2) :=
    fun e he => hv e (hperm.subset he)
  have hfl : fileLines (rplText showI showF banner kwds) =
      (';' :: banner ++ ['\n']) :: ("key\tvalue".toList ++ ['\n']) ::
        (sortKw kwds).map fun e => e.1 ++ '\t' :: valText showI showF e.2 ++ ['\n'] := by
    rw [hfilter, fileLines_lf _ (by simpa using hbr) (by simpa using hbn),
      fileLines_lf _ (by decide) (by decide), hlines _ hk' hv']
  have hban : parseLine parseI parseF rplKeys (';' :: banner ++ ['\n']) = .ok none := by
    unfold parseLine
    dsimp only
    have : (replace dataLengthBad dataLength (';' :: banner ++ ['\n'])).head? = some ';' := by
      unfold replace
      rw [List.cons_append, replaceAux, if_neg (by simp [dataLengthBad, List.isPrefixOf])]
      rfl
    rw [if_pos (.inr this)]
  have hkey : parseLine parseI parseF rplKeys ("key\tvalue".toList ++ ['\n']) =
      .ok (some ("key".toList, .str "value".toList)) := by rfl
  have hparse : parseLines parseI parseF rplKeys (fileLines (rplText showI showF banner kwds)) [] =
      .ok (putAll ((sortKw kwds).map fun e => (e.1, conv e))
        [("key".toList, .str "value".toList)]) := by
    rw [hfl, parseLines, hban]
    dsimp only
    rw [parseLines, hkey]
    dsimp only
    rw [parseLines_fields conv _ _ hk' hv' (fun e he => hc e (hperm.subset he))]
    rfl
  have hnd2 : (((sortKw kwds).map fun e => (e.1, conv e)).map Prod.fst).Nodup := by
    rw [List.map_map]; exact hnd'
  have hget : ∀ k, k ≠ "key".toList →
      getKw k (putAll ((sortKw kwds).map fun e => (e.1, conv e))
        [("key".toList, .str "value".toList)]) = getKw k (kwds.map fun e => (e.1, conv e)) := by
    intro k hkk
    rw [getKw_putAll k _ _ hnd2, getKw_perm (hperm.map fun e => (e.1, conv e)) hnd2 k]
    cases getKw k (kwds.map fun e => (e.1, conv e)) with
    | some v => rfl
    | none =>
      dsimp only
      rw [getKw, if_neg (Ne.symm hkk)]
      rfl
  refine ⟨putAll ((sortKw kwds).map fun e => (e.1, conv e))
    [("key".toList, .str "value".toList)], ?_, ?_, ?_⟩
  · unfold parseRipple
    rw [hparse]
    dsimp only
    rw [check_congr (hget _ (by decide)) (hget _ (by decide)) (hget _ (by decide))
      (hget _ (by decide)) (hget _ (by decide)), hcheck]
  · intro e he
    have he' : (e.1, conv e) ∈ (sortKw kwds).map fun e => (e.1, conv e) :=
      List.mem_map.2 ⟨e, hperm.symm.subset he, rfl⟩
    rw [getKw_putAll _ _ _ hnd2, getKw_mem hnd2 he']
  · intro k hk1 hk2
    rw [hget k hk2]
    apply getKw_none
    rw [List.map_map]
    exact hk1

/-- C27: an accepted header is consistent in the sense of the checks: spectra and stacks are deeper
than 1, floats are at least 4 bytes long, single bytes have no byte order. -/
theorem C27_accepted [DecidableEq F] {parseI : Text → Option Int} {parseF : Text → Option F}
    {table : List (Text × Kind)} {file : Text} {info : List (Text × Val F)}
    (h : parseRipple parseI parseF table file = .ok info) :
    (getKw "depth".toList info = some (.int 1) →
      getKw "record-by".toList info = some (.str "dont-care".toList)) ∧
    (getKw "data-type".toList info = some (.str "float".toList) →
      ∀ l, getKw "data-length".toList info = some l → l ≠ .str ['1'] ∧ l ≠ .str ['2']) ∧
    (getKw "data-length".toList info = some (.str ['1']) →
      getKw "byte-order".toList info = some (.str "dont-care".toList)) := by
  unfold parseRipple at h
  split at h
  · cases h
  · rename_i info' _
    split at h
    · cases h
    · rename_i hc
      cases h
      unfold check at hc
      revert hc
      generalize getKw "depth".toList info = a
      generalize getKw "record-by".toList info = b
      generalize getKw "data-type".toList info = c
      generalize getKw "data-length".toList info = d
      generalize getKw "byte-order".toList info = e
      intro hc
      refine ⟨?_, ?_, ?_⟩
      · rintro rfl
        cases b with
        | none => simp at hc
        | some r =>
          by_contra hr
          have hr' : r ≠ .str "dont-care".toList := fun x => hr (by rw [x])
          simp only [if_true] at hc
          rw [if_pos hr'] at hc
          cases hc
      · rintro rfl l rfl
        by_contra hl
        have hl' : l = .str ['1'] ∨ l = .str ['2'] := by
          by_cases h1 : l = .str ['1']
          · exact .inl h1
          · exact .inr (by by_contra h2; exact hl ⟨h1, h2⟩)
        cases a with
        | none => cases hc
        | some a =>
          dsimp only at hc
          split at hc
          · cases hc
          · rw [if_pos rfl, if_pos hl'] at hc
            cases hc
      · rintro rfl
        cases a with
        | none => cases hc
        | some a =>
          dsimp only at hc
          split at hc
          · cases hc
          · cases c with
            | none => cases hc
            | some c =>
              dsimp only at hc
              split at hc
              · cases hc
              · rw [if_pos rfl] at hc
                cases e with
                | none => cases hc
                | some b =>
                  by_contra hb
                  have hb' : b ≠ .str "dont-care".toList := fun x => hb (by rw [x])
                  dsimp only at hc
                  rw [if_pos hb'] at hc
                  cases hc

/-- The selections of lines 60-91: the values allowed for a key. -/
def allowed : List (Text × List Text) :=
  [("data-length".toList, [['1'], ['2'], ['4'], ['8']]),
   ("data-type".toList, ["signed".toList, "unsigned".toList, "float".toList]),
   ("byte-order".toList, ["little-endian".toList, "big-endian".toList, "dont-care".toList]),
   ("record-by".toList, ["image".toList, "vector".toList, "dont-care".toList])]

theorem parseLines_error {parseI : Text → Option Int} {parseF : Text → Option F}
    {table : List (Text × Kind)} {l : Text} {e : PyErr}
    (hl : parseLine parseI parseF table l = .error e) : ∀ (ls : List Text) (info : List (Text × Val F)),
    l ∈ ls → ∀ r, parseLines parseI parseF table ls info ≠ .ok r
  | [], _, h, _ => by cases h
  | l' :: ls, info, h, r => by
    intro hr
    rw [parseLines] at hr
    rcases List.mem_cons.1 h with rfl | h
    · rw [hl] at hr; cases hr
    · split at hr
      · cases hr
      · exact parseLines_error hl ls _ h r hr
      · exact parseLines_error hl ls _ h r hr

/-- C27: a file with a line giving one of the selections another value than those allowed is
refused. -/
theorem C27_selection [DecidableEq F] {parseI : Text → Option Int} {parseF : Text → Option F}
    {file k v : Text} {vs : List Text} (hk : (k, vs) ∈ allowed) (hv : v ∉ vs) (hg : GoodText v)
    (hl : k ++ '\t' :: v ++ ['\n'] ∈ fileLines file) :
    ∀ info, parseRipple parseI parseF rplKeys file ≠ .ok info := by
  have hkg : GoodText k := by
    simp only [allowed, List.mem_cons, List.not_mem_nil, or_false, Prod.mk.injEq] at hk
    rcases hk with h | h | h | h <;> rw [h.1] <;> exact ⟨by decide +kernel, by decide +kernel,
      by decide +kernel, by decide +kernel, by decide +kernel, by decide +kernel, by decide +kernel,
      by decide +kernel⟩
  have hc : convert parseI parseF rplKeys k v = .error .ioError := by
    have : getKw k rplKeys = some (.sel vs) := by
      simp only [allowed, List.mem_cons, List.not_mem_nil, or_false, Prod.mk.injEq] at hk
      rcases hk with h | h | h | h <;> rw [h.1, h.2] <;> decide +kernel
    unfold convert
    rw [this]
    dsimp only
    rw [if_neg hv]
  intro info h
  unfold parseRipple at h
  split at h
  · cases h
  · rename_i info' hi
    exact parseLines_error (parseLine_field_error hkg hg hc) _ _ hl _ hi

example : ("data-type".toList, ["signed".toList, "unsigned".toList, "float".toList]) ∈ allowed ∧
    "complex".toList ∉ ["signed".toList, "unsigned".toList, "float".toList] := by decide +kernel

/-! ### Concrete headers; numbers are natural numbers with their decimal notation -/

def parseNat (t : Text) : Option Nat := if t ≠ [] ∧ t.all isDigit then some (decVal t) else none
def parseInt (t : Text) : Option Int := (parseNat t).map Int.ofNat
def showInt (n : Int) : Text := decChars n.toNat

/-- A header with the given title and unit. -/
def sampleHeader (title units : Text) (depth : Int) (recordBy : Text) : List (Text × Val Nat) :=
  [("width".toList, .int 3), ("height".toList, .int 2), ("depth".toList, .int depth),
   ("offset".toList, .int 0), ("data-type".toList, .str "unsigned".toList),
   ("data-length".toList, .int 2), ("byte-order".toList, .str "dont-care".toList),
   ("record-by".toList, .str recordBy), ("title".toList, .str title),
   ("depth-units".toList, .str units), ("depth-scale".toList, .flt 5)]

def readBack (title units : Text) (depth : Int) (recordBy : Text) : Py (List (Text × Val Nat)) :=
  parseRipple parseInt parseNat rplKeys
    (rplText showInt decChars "File created by RosettaSciIO".toList
      (sampleHeader title units depth recordBy))

/-- What the sample values become: the data length becomes a text. -/
def sampleConv (e : Text × Val Nat) : Val Nat :=
  if e.1 = "data-length".toList then .str (valText showInt decChars e.2) else e.2

/-- The hypotheses of `C27_header_partial` are met by the sample header. -/
example : ∃ info, readBack "EELS of Fe".toList "eV".toList 1024 "vector".toList = .ok info ∧
    (∀ e ∈ sampleHeader "EELS of Fe".toList "eV".toList 1024 "vector".toList,
      getKw e.1 info = some (sampleConv e)) ∧
    ∀ k, k ∉ (sampleHeader "EELS of Fe".toList "eV".toList 1024 "vector".toList).map Prod.fst →
      k ≠ "key".toList → getKw k info = none := by
  have good : ∀ {s : Text}, ((∀ c ∈ s, c.toNat < 256) ∧ '\t' ∉ s ∧ ';' ∉ s ∧ '\r' ∉ s ∧ '\n' ∉ s ∧
      ¬ dataLengthBad <:+: s ∧ (∀ c ∈ s.head?, isSpace c = false) ∧
      ∀ c ∈ s.getLast?, isSpace c = false) → GoodText s :=
    fun ⟨h1, h2, h3, h4, h5, h6, h7, h8⟩ => ⟨h1, h2, h3, h4, h5, h6, h7, h8⟩
  have h1 : ∀ e ∈ sampleHeader "EELS of Fe".toList "eV".toList 1024 "vector".toList,
      ∀ s ∈ [e.1, valText showInt decChars e.2],
      ((∀ c ∈ s, c.toNat < 256) ∧ '\t' ∉ s ∧ ';' ∉ s ∧ '\r' ∉ s ∧ '\n' ∉ s ∧
      ¬ dataLengthBad <:+: s ∧ (∀ c ∈ s.head?, isSpace c = false) ∧
      ∀ c ∈ s.getLast?, isSpace c = false) := by decide +kernel
  exact C27_header_partial sampleConv (by decide +kernel) (by decide +kernel) (by decide +kernel)
    (by decide +kernel) (fun e he => good (h1 e he _ (by simp)))
    (fun e he => good (h1 e he _ (by simp))) (by decide +kernel) (by decide +kernel)

/-- A semicolon in a title cuts it. -/
theorem C27_fails_semicolon :
    (readBack "map; site 2".toList "eV".toList 1024 "vector".toList).map (getKw "title".toList) =
      .ok (some (.str "map".toList)) := by decide +kernel

/-- A tab in a title cuts it. -/
theorem C27_fails_tab :
    (readBack "map\tsite 2".toList "eV".toList 1024 "vector".toList).map (getKw "title".toList) =
      .ok (some (.str "map".toList)) := by decide +kernel

/-- A second line in a title makes the file unreadable. -/
theorem C27_fails_newline :
    readBack "map\nsite 2".toList "eV".toList 1024 "vector".toList = .error .ioError := by
  decide +kernel

/-- A correction meant for the keys of another program changes titles. -/
theorem C27_fails_misspelling :
    (readBack "my data-Length".toList "eV".toList 1024 "vector".toList).map
      (getKw "title".toList) = .ok (some (.str "my data-length".toList)) := by decide +kernel

/-- The data length is written as a number and comes back as a text. -/
theorem C27_data_length_text :
    (readBack [] "eV".toList 1024 "vector".toList).map (getKw "data-length".toList) =
      .ok (some (.str "2".toList)) := by decide +kernel

/-- Not rejected although inconsistent: a `dont-care` record, i.e. a single image, with a depth. The
data then have the shape of one image while the axes are those of a stack. -/
theorem C27_fails_dont_care_depth :
    (∃ info, readBack [] "eV".toList 4 "dont-care".toList = .ok info) ∧
    readShape ⟨3, 2, 4, 0, .dontCare⟩ = [2, 3] ∧
    readAxes ⟨3, 2, 4, 0, .dontCare⟩ = [("depth", 4), ("height", 2), ("width", 3)] := by
  refine ⟨?_, by decide, by decide⟩
  have h : (readBack [] "eV".toList 4 "dont-care".toList).toOption.isSome = true := by
    decide +kernel
  cases hr : readBack [] "eV".toList 4 "dont-care".toList with
  | ok info => exact ⟨info, rfl⟩
  | error e => rw [hr] at h; simp [Except.toOption] at h

/-! ### C28 -/

theorem length_rawBytes (big : Bool) (w : Nat) : ∀ xs : List Nat,
    (rawBytes big w xs).length = xs.length * w
  | [] => by simp [rawBytes]
  | x :: xs => by
    have := length_rawBytes big w xs
    unfold rawBytes at this ⊢
    rw [List.flatMap_cons, List.length_append, this, fieldBytes_length]
    simp [Nat.add_mul, Nat.add_comm]

theorem items_rawBytes (big : Bool) (w : Nat) : ∀ (xs : List Nat) (post : List UInt8),
    (∀ x ∈ xs, x < 256 ^ w) → items big w xs.length (rawBytes big w xs ++ post) = xs
  | [], _, _ => rfl
  | x :: xs, post, h => by
    have hl : (fieldBytes big w x).length = w := by simp
    have ih := items_rawBytes big w xs post (fun y hy => h y (List.mem_cons_of_mem _ hy))
    unfold rawBytes at ih ⊢
    rw [List.flatMap_cons, List.length_cons, items, List.append_assoc, List.take_left' hl,
      List.drop_left' hl, ih, fieldVal_fieldBytes big w x (h x (List.mem_cons_self ..))]

/-- C28: whatever the header of the raw file (offset) and whatever follows the data, the elements
are read in the order in which they are stored, for every item size and byte order. -/
theorem C28_offset (l : Layout) (big : Bool) (w : Nat) (xs : List Nat) (pre post : List UInt8)
    (hx : ∀ x ∈ xs, x < 256 ^ w) (hlen : xs.length = size (readShape l))
    (hpre : pre.length = l.offset) :
    readRaw l big w (pre ++ rawBytes big w xs ++ post) = .ok (readShape l, xs) := by
  unfold readRaw
  dsimp only
  rw [if_neg]
  · rw [List.append_assoc, List.drop_left' hpre, ← hlen, items_rawBytes big w xs post hx]
  · simp only [List.length_append, length_rawBytes, hlen, hpre]
    omega

/-- C28: a file that is too short for offset and data is refused. -/
theorem C28_short (l : Layout) (big : Bool) (w : Nat) (f : List UInt8)
    (h : f.length < l.offset + (readShape l).prod * w) : readRaw l big w f = .error .valueError := by
  have hs : ∀ s : List Nat, s.prod = size s := by
    intro s
    induction s with
    | nil => rfl
    | cons a s ih => rw [List.prod_cons, size, ih]
  unfold readRaw
  dsimp only
  rw [if_pos (by rw [← hs]; exact h)]

example : readRaw ⟨2, 1, 1, 3, .dontCare⟩ false 2 [0, 0, 0, 1, 0, 2] = .error .valueError := by decide

/-- Number of the array axes in the order in which a reader of a ripple file sees them:
navigation axes first, then signal axes. -/
def axisOrder (s : Signal) : List Nat :=
  ((List.range s.nav.length).filter fun i => s.nav[i]? = some true) ++
    (List.range s.nav.length).filter fun i => s.nav[i]? = some false

/-- Entries of a list in that order. -/
def reorder (s : Signal) (l : List Nat) : List Nat := (axisOrder s).map fun i => l.getD i 0

theorem filter_gt_one {l : List Nat} (h : ∀ n ∈ l, 0 < n) :
    l.filter (fun n => decide (n > 1)) = l.filter (fun n => decide (n ≠ 1)) := by
  apply List.filter_congr
  intro n hn
  have := h n hn
  rcases Nat.lt_or_ge 1 n with h1 | h1
  · simp only [gt_iff_lt, h1, decide_true, ne_eq]
    have : n ≠ 1 := by omega
    simp [this]
  · have : n = 1 := by omega
    subst this; rfl

theorem mem_ravel {α : Type} {x : α} : ∀ {shape : List Nat} {val : List Nat → α},
    x ∈ ravel shape val → ∃ idx, InBounds shape idx ∧ val idx = x
  | [], val, h => ⟨[], .nil, by
    have : x = val [] := by simpa [ravel] using h
    exact this.symm⟩
  | n :: ns, val, h => by
    unfold ravel at h
    obtain ⟨i, hi, h⟩ := List.mem_flatMap.1 h
    obtain ⟨is, his, e⟩ := mem_ravel h
    exact ⟨i :: is, .cons (by simpa using hi) his, e⟩

/-- Reading data stored as the array `val` of shape `full`. -/
theorem read_ravel {l : Layout} {big : Bool} {w : Nat} {full : List Nat} {val : List Nat → Nat}
    (hshape : readShape l = full.filter (fun n => decide (n ≠ 1))) (hoff : l.offset = 0)
    (hval : ∀ idx, InBounds full idx → val idx < 256 ^ w) :
    readRaw l big w (rawBytes big w (ravel full val)) =
        .ok (full.filter (fun n => decide (n ≠ 1)), ravel full val) ∧
      ∀ idx, InBounds full idx → (ravel full val)[flatIndex
        (full.filter (fun n => decide (n ≠ 1))) (squeezeIdx full idx)]? = some (val idx) := by
  constructor
  · have := C28_offset l big w (ravel full val) [] [] ?_ ?_ hoff.symm
    · simpa [hshape] using this
    · intro x hx
      obtain ⟨idx, h, rfl⟩ := mem_ravel hx
      exact hval idx h
    · rw [length_ravel, hshape, size_squeeze]
  · intro idx h
    rw [flatIndex_squeeze h, ravel_getElem val h]

/-- C28, partial (the raw data; a header can be refused, see `C28_fails_single_channel`): writing
and reading back. The data have the shape of the signal with navigation axes first
and without axes of length one; every element is where its index says. -/
theorem C28_roundtrip_partial {s : Signal} {l : Layout} {big : Bool} {w : Nat}
    (hlay : layoutOf s = .ok (some l)) (hlen : s.nav.length = s.shape.length)
    (hpos : ∀ n ∈ s.shape, 0 < n) (hval : ∀ idx, InBounds s.shape idx → s.val idx < 256 ^ w) :
    ∃ data, readRaw l big w (rawBytes big w (rawItems s l.recordBy)) =
        .ok ((reorder s s.shape).filter (fun n => decide (n ≠ 1)), data) ∧
      ∀ idx, InBounds s.shape idx →
        data[flatIndex ((reorder s s.shape).filter (fun n => decide (n ≠ 1)))
          (squeezeIdx (reorder s s.shape) (reorder s idx))]? = some (s.val idx) := by
  obtain ⟨shape, nav, val⟩ := s
  dsimp only at hlen hpos hval
  -- the shape has at most three axes
  have h3 : shape.length ≤ 3 := by
    by_contra h
    unfold layoutOf at hlay
    rw [if_pos (by simpa using h)] at hlay
    cases hlay
  rcases shape with _ | ⟨a, _ | ⟨b, _ | ⟨c, _ | ⟨d, shape⟩⟩⟩⟩
  · rcases nav with _ | ⟨x, nav⟩
    · simp [layoutOf, sizes] at hlay
    · simp at hlen
  · rcases nav with _ | ⟨x, _ | ⟨y, nav⟩⟩
    · simp at hlen
    · have ha := hpos a (by simp)
      cases x
      · simp [layoutOf, sizes] at hlay
        subst hlay
        obtain ⟨h1, h2⟩ := read_ravel (l := ⟨1, 1, a, 0, .vector⟩) (big := big) (w := w)
          (full := [a]) (val := val) (by
            show ([1, 1, a].filter _) = _
            rw [filter_gt_one (by simpa using ha)]; rfl) rfl hval
        exact ⟨_, h1, fun idx hidx => by
          obtain ⟨i, rest, hi, hr, rfl⟩ := List.forall₂_cons_left_iff.1 hidx
          cases hr
          exact h2 _ hidx⟩
      · simp [layoutOf, sizes] at hlay
    · simp at hlen
  · rcases nav with _ | ⟨x, _ | ⟨y, _ | ⟨z, nav⟩⟩⟩
    · simp at hlen
    · simp at hlen
    · have ha := hpos a (by simp)
      have hb := hpos b (by simp)
      cases x <;> cases y
      · simp [layoutOf, sizes] at hlay
        subst hlay
        obtain ⟨h1, h2⟩ := read_ravel (l := ⟨b, a, 1, 0, .dontCare⟩) (big := big) (w := w)
          (full := [a, b]) (val := val) (by
            show ([a, b].filter _) = _
            rw [filter_gt_one (by simpa using hpos)]) rfl hval
        exact ⟨_, h1, fun idx hidx => by
          obtain ⟨i, r1, hi, hr1, rfl⟩ := List.forall₂_cons_left_iff.1 hidx
          obtain ⟨j, r2, hj, hr2, rfl⟩ := List.forall₂_cons_left_iff.1 hr1
          cases hr2
          exact h2 _ hidx⟩
      · simp [layoutOf, sizes] at hlay
        subst hlay
        obtain ⟨h1, h2⟩ := read_ravel (l := ⟨b, 1, a, 0, .vector⟩) (big := big) (w := w)
          (full := [b, a]) (val := fun i => val (rollToEnd 0 i)) (by
            show ([1, b, a].filter _) = _
            rw [filter_gt_one (by simp [ha, hb])]; rfl) rfl (by
            intro idx hidx
            obtain ⟨i, r1, hi, hr1, rfl⟩ := List.forall₂_cons_left_iff.1 hidx
            obtain ⟨j, r2, hj, hr2, rfl⟩ := List.forall₂_cons_left_iff.1 hr1
            cases hr2
            exact hval [j, i] (.cons hj (.cons hi .nil)))
        exact ⟨_, h1, fun idx hidx => by
          obtain ⟨i, r1, hi, hr1, rfl⟩ := List.forall₂_cons_left_iff.1 hidx
          obtain ⟨j, r2, hj, hr2, rfl⟩ := List.forall₂_cons_left_iff.1 hr1
          cases hr2
          exact h2 [j, i] (.cons hj (.cons hi .nil))⟩
      · simp [layoutOf, sizes] at hlay
        subst hlay
        obtain ⟨h1, h2⟩ := read_ravel (l := ⟨a, 1, b, 0, .vector⟩) (big := big) (w := w)
          (full := [a, b]) (val := fun i => val (rollToEnd 1 i)) (by
            show ([1, a, b].filter _) = _
            rw [filter_gt_one (by simp [ha, hb])]; rfl) rfl (by
            intro idx hidx
            obtain ⟨i, r1, hi, hr1, rfl⟩ := List.forall₂_cons_left_iff.1 hidx
            obtain ⟨j, r2, hj, hr2, rfl⟩ := List.forall₂_cons_left_iff.1 hr1
            cases hr2
            exact hval [i, j] hidx)
        exact ⟨_, h1, fun idx hidx => by
          obtain ⟨i, r1, hi, hr1, rfl⟩ := List.forall₂_cons_left_iff.1 hidx
          obtain ⟨j, r2, hj, hr2, rfl⟩ := List.forall₂_cons_left_iff.1 hr1
          cases hr2
          exact h2 [i, j] hidx⟩
      · simp [layoutOf, sizes] at hlay
    · simp at hlen
  · rcases nav with _ | ⟨x, _ | ⟨y, _ | ⟨z, _ | ⟨u, nav⟩⟩⟩⟩
    · simp at hlen
    · simp at hlen
    · simp at hlen
    · have ha := hpos a (by simp)
      have hb := hpos b (by simp)
      have hc := hpos c (by simp)
      cases x <;> cases y <;> cases z
      · simp [layoutOf, sizes] at hlay
      · -- [F, F, T]
        simp [layoutOf, sizes] at hlay
        subst hlay
        obtain ⟨h1, h2⟩ := read_ravel (l := ⟨b, a, c, 0, .image⟩) (big := big) (w := w)
          (full := [c, a, b]) (val := fun i => val (rollToFront 2 i)) (by
            show ([c, a, b].filter _) = _
            rw [filter_gt_one (by simp [ha, hb, hc])]) rfl (by
            intro idx hidx
            obtain ⟨i, r1, hi, hr1, rfl⟩ := List.forall₂_cons_left_iff.1 hidx
            obtain ⟨j, r2, hj, hr2, rfl⟩ := List.forall₂_cons_left_iff.1 hr1
            obtain ⟨k, r3, hk, hr3, rfl⟩ := List.forall₂_cons_left_iff.1 hr2
            cases hr3
            exact hval [j, k, i] (.cons hj (.cons hk (.cons hi .nil))))
        exact ⟨_, h1, fun idx hidx => by
          obtain ⟨i, r1, hi, hr1, rfl⟩ := List.forall₂_cons_left_iff.1 hidx
          obtain ⟨j, r2, hj, hr2, rfl⟩ := List.forall₂_cons_left_iff.1 hr1
          obtain ⟨k, r3, hk, hr3, rfl⟩ := List.forall₂_cons_left_iff.1 hr2
          cases hr3
          exact h2 [k, i, j] (.cons hk (.cons hi (.cons hj .nil)))⟩
      · -- [F, T, F]
        simp [layoutOf, sizes] at hlay
        subst hlay
        obtain ⟨h1, h2⟩ := read_ravel (l := ⟨c, a, b, 0, .image⟩) (big := big) (w := w)
          (full := [b, a, c]) (val := fun i => val (rollToFront 1 i)) (by
            show ([b, a, c].filter _) = _
            rw [filter_gt_one (by simp [ha, hb, hc])]) rfl (by
            intro idx hidx
            obtain ⟨i, r1, hi, hr1, rfl⟩ := List.forall₂_cons_left_iff.1 hidx
            obtain ⟨j, r2, hj, hr2, rfl⟩ := List.forall₂_cons_left_iff.1 hr1
            obtain ⟨k, r3, hk, hr3, rfl⟩ := List.forall₂_cons_left_iff.1 hr2
            cases hr3
            exact hval [j, i, k] (.cons hj (.cons hi (.cons hk .nil))))
        exact ⟨_, h1, fun idx hidx => by
          obtain ⟨i, r1, hi, hr1, rfl⟩ := List.forall₂_cons_left_iff.1 hidx
          obtain ⟨j, r2, hj, hr2, rfl⟩ := List.forall₂_cons_left_iff.1 hr1
          obtain ⟨k, r3, hk, hr3, rfl⟩ := List.forall₂_cons_left_iff.1 hr2
          cases hr3
          exact h2 [j, i, k] (.cons hj (.cons hi (.cons hk .nil)))⟩
      · -- [F, T, T]
        simp [layoutOf, sizes] at hlay
        subst hlay
        obtain ⟨h1, h2⟩ := read_ravel (l := ⟨c, b, a, 0, .vector⟩) (big := big) (w := w)
          (full := [b, c, a]) (val := fun i => val (rollToEnd 0 i)) (by
            show ([b, c, a].filter _) = _
            rw [filter_gt_one (by simp [ha, hb, hc])]) rfl (by
            intro idx hidx
            obtain ⟨i, r1, hi, hr1, rfl⟩ := List.forall₂_cons_left_iff.1 hidx
            obtain ⟨j, r2, hj, hr2, rfl⟩ := List.forall₂_cons_left_iff.1 hr1
            obtain ⟨k, r3, hk, hr3, rfl⟩ := List.forall₂_cons_left_iff.1 hr2
            cases hr3
            exact hval [k, i, j] (.cons hk (.cons hi (.cons hj .nil))))
        exact ⟨_, h1, fun idx hidx => by
          obtain ⟨i, r1, hi, hr1, rfl⟩ := List.forall₂_cons_left_iff.1 hidx
          obtain ⟨j, r2, hj, hr2, rfl⟩ := List.forall₂_cons_left_iff.1 hr1
          obtain ⟨k, r3, hk, hr3, rfl⟩ := List.forall₂_cons_left_iff.1 hr2
          cases hr3
          exact h2 [j, k, i] (.cons hj (.cons hk (.cons hi .nil)))⟩
      · -- [T, F, F]
        simp [layoutOf, sizes] at hlay
        subst hlay
        obtain ⟨h1, h2⟩ := read_ravel (l := ⟨c, b, a, 0, .image⟩) (big := big) (w := w)
          (full := [a, b, c]) (val := fun i => val (rollToFront 0 i)) (by
            show ([a, b, c].filter _) = _
            rw [filter_gt_one (by simp [ha, hb, hc])]) rfl (by
            intro idx hidx
            obtain ⟨i, r1, hi, hr1, rfl⟩ := List.forall₂_cons_left_iff.1 hidx
            exact hval _ hidx)
        exact ⟨_, h1, fun idx hidx => by
          obtain ⟨i, r1, hi, hr1, rfl⟩ := List.forall₂_cons_left_iff.1 hidx
          obtain ⟨j, r2, hj, hr2, rfl⟩ := List.forall₂_cons_left_iff.1 hr1
          obtain ⟨k, r3, hk, hr3, rfl⟩ := List.forall₂_cons_left_iff.1 hr2
          cases hr3
          exact h2 _ hidx⟩
      · -- [T, F, T]
        simp [layoutOf, sizes] at hlay
        subst hlay
        obtain ⟨h1, h2⟩ := read_ravel (l := ⟨c, a, b, 0, .vector⟩) (big := big) (w := w)
          (full := [a, c, b]) (val := fun i => val (rollToEnd 1 i)) (by
            show ([a, c, b].filter _) = _
            rw [filter_gt_one (by simp [ha, hb, hc])]) rfl (by
            intro idx hidx
            obtain ⟨i, r1, hi, hr1, rfl⟩ := List.forall₂_cons_left_iff.1 hidx
            obtain ⟨j, r2, hj, hr2, rfl⟩ := List.forall₂_cons_left_iff.1 hr1
            obtain ⟨k, r3, hk, hr3, rfl⟩ := List.forall₂_cons_left_iff.1 hr2
            cases hr3
            exact hval [i, k, j] (.cons hi (.cons hk (.cons hj .nil))))
        exact ⟨_, h1, fun idx hidx => by
          obtain ⟨i, r1, hi, hr1, rfl⟩ := List.forall₂_cons_left_iff.1 hidx
          obtain ⟨j, r2, hj, hr2, rfl⟩ := List.forall₂_cons_left_iff.1 hr1
          obtain ⟨k, r3, hk, hr3, rfl⟩ := List.forall₂_cons_left_iff.1 hr2
          cases hr3
          exact h2 [i, k, j] (.cons hi (.cons hk (.cons hj .nil)))⟩
      · -- [T, T, F]
        simp [layoutOf, sizes] at hlay
        subst hlay
        obtain ⟨h1, h2⟩ := read_ravel (l := ⟨b, a, c, 0, .vector⟩) (big := big) (w := w)
          (full := [a, b, c]) (val := fun i => val (rollToEnd 2 i)) (by
            show ([a, b, c].filter _) = _
            rw [filter_gt_one (by simp [ha, hb, hc])]) rfl (by
            intro idx hidx
            obtain ⟨i, r1, hi, hr1, rfl⟩ := List.forall₂_cons_left_iff.1 hidx
            obtain ⟨j, r2, hj, hr2, rfl⟩ := List.forall₂_cons_left_iff.1 hr1
            obtain ⟨k, r3, hk, hr3, rfl⟩ := List.forall₂_cons_left_iff.1 hr2
            cases hr3
            exact hval [i, j, k] hidx)
        exact ⟨_, h1, fun idx hidx => by
          obtain ⟨i, r1, hi, hr1, rfl⟩ := List.forall₂_cons_left_iff.1 hidx
          obtain ⟨j, r2, hj, hr2, rfl⟩ := List.forall₂_cons_left_iff.1 hr1
          obtain ⟨k, r3, hk, hr3, rfl⟩ := List.forall₂_cons_left_iff.1 hr2
          cases hr3
          exact h2 [i, j, k] hidx⟩
      · simp [layoutOf, sizes] at hlay
    · simp at hlen
  · simp at h3

/-- A stack of two 3 × 1 images, with the navigation axis last in the array. -/
example : layoutOf ⟨[3, 1, 2], [false, false, true], fun i => i.sum⟩ =
    .ok (some ⟨1, 3, 2, 0, .image⟩) := by decide

/-- The axes returned with the data have the sizes of the data, except for `dont-care` records with
a depth, see `C27_fails_dont_care_depth`. -/
theorem C28_axes (l : Layout) (h : l.recordBy = .dontCare → l.depth ≤ 1) :
    (readAxes l).map Prod.snd = readShape l := by
  obtain ⟨w, h', d, o, r⟩ := l
  have key : ∀ l : List (String × Nat), (l.filter (fun e => decide (e.2 > 1))).map Prod.snd =
      (l.map Prod.snd).filter (fun n => decide (n > 1)) := by
    intro l
    rw [List.filter_map]
    rfl
  unfold readAxes readShape
  cases r
  · exact key _
  · exact key _
  · have hd := h rfl
    dsimp only at hd ⊢
    rw [key]
    simp only [List.map_cons, List.map_nil]
    rw [List.filter_cons_of_neg (by simpa using hd)]

/-- The element types that can be written read back as the same type. -/
theorem C28_dtype : ∀ e ∈ dtype2keys, readDType e.2.1 e.2.2 = .ok e.1 := by decide +kernel

/-- Not every integer type can be written. -/
theorem C28_fails_int16 : ∀ e ∈ dtype2keys, e.1 ≠ ⟨"int".toList, 2⟩ := by decide +kernel

/-- Spectra of a single channel are written as `vector` records of depth 1, which are refused when
reading. -/
theorem C28_fails_single_channel :
    layoutOf ⟨[2, 3, 1], [true, true, false], fun _ => 0⟩ = .ok (some ⟨3, 2, 1, 0, .vector⟩) ∧
    readBack [] "eV".toList 1 "vector".toList = .error .ioError := by
  decide +kernel

end Verif.Props.Ripple
