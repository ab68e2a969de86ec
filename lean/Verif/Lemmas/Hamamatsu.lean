import Verif.Spec.Hamamatsu
/-! Lemmas for C84: comments of Hamamatsu files. -/
namespace Verif.Lemmas.Hamamatsu
open Verif.Hamamatsu Verif.Spec.Hamamatsu

theorem cut_append {c : Char} : ∀ {s t : Text}, c ∉ s → cut c (s ++ c :: t) = some (s, t)
  | [], t, _ => by simp [cut]
  | a :: s, t, h => by
    have ha : a ≠ c := fun e => h (by simp [e])
    have hs : c ∉ s := fun m => h (List.mem_cons_of_mem _ m)
    rw [List.cons_append, cut, if_neg ha, cut_append hs]
    rfl

/-- One entry that is followed by another one. -/
theorem entry_more {e : Text × Value} (h : EntryOk e) (rest : Text) : entry (shownEntry e ++ ',' :: rest) false = .ok (e.1, e.2.text, rest) := by
  obtain ⟨k, v⟩ := e
  obtain ⟨_, h2, _, h4⟩ := h
  unfold entry shownEntry
  dsimp only at *
  rw [List.append_assoc, List.cons_append, cut_append h2]
  cases v with
  | quoted t =>
    dsimp only [Value.shown, Value.text] at *
    rw [List.cons_append, List.cons_append]
    dsimp only
    rw [if_pos rfl, List.append_assoc, List.singleton_append, cut_append h4]
    rfl
  | plain t =>
    dsimp only [Value.shown, Value.text] at *
    cases t with
    | nil => simp [cut]
    | cons a t =>
      rw [List.cons_append]
      dsimp only
      rw [if_neg (fun hh => h4.2 (by rw [hh]; rfl)), ← List.cons_append, cut_append h4.1]
      rfl

/-- The last entry. -/
theorem entry_last {e : Text × Value} (h : EntryOk e) (last : Bool) (hl : ∀ t, e.2 = .plain t → t ≠ [] ∧ last = true) :
    entry (shownEntry e) last = .ok (e.1, e.2.text, []) := by
  obtain ⟨k, v⟩ := e
  obtain ⟨_, h2, _, h4⟩ := h
  unfold entry shownEntry
  dsimp only at *
  rw [cut_append h2]
  cases v with
  | quoted t =>
    dsimp only [Value.shown, Value.text] at *
    rw [List.cons_append]
    dsimp only
    rw [if_pos rfl, show t ++ ['"'] = t ++ '"' :: [] from rfl, cut_append h4]
    rfl
  | plain t =>
    dsimp only [Value.shown, Value.text] at *
    obtain ⟨h5, h6⟩ := hl t rfl
    cases t with
    | nil => exact absurd rfl h5
    | cons a t =>
      dsimp only
      rw [if_neg (fun hh => h4.2 (by rw [hh]; rfl)), h6]
      rfl

theorem shownEntry_ne (e : Text × Value) : shownEntry e ≠ [] := by
  unfold shownEntry
  simp

theorem body_ne : ∀ {es : List (Text × Value)}, es ≠ [] → body es ≠ []
  | [], h => absurd rfl h
  | [e], _ => shownEntry_ne e
  | e :: e' :: es, _ => by rw [body]; simp

/-- The loop over the entries. -/
theorem entries_loop (num : Nat) : ∀ (es : List (Text × Value)) (fuel count : Nat) (d : List (Text × Text)), es ≠ [] → es.length ≤ fuel →
    (∀ e ∈ es, EntryOk e) → count + es.length ≤ num → (∀ k t, es.getLast? = some (k, .plain t) → t ≠ [] ∧ count + es.length = num) →
    entries num fuel count (body es) d = .ok (es.foldl (fun d e => setKw e.1 e.2.text d) d)
  | [], _, _, _, h, _, _, _, _ => absurd rfl h
  | [e], fuel, count, d, _, hf, hok, hn, hlast => by
    cases fuel with
    | zero => simp at hf
    | succ fuel =>
      have he := hok e List.mem_cons_self
      have hl : ∀ t, e.2 = .plain t → t ≠ [] ∧ decide (count + 1 = num) = true := by
        intro t ht
        have := hlast e.1 t (by rw [List.getLast?_singleton, ← ht])
        exact ⟨this.1, decide_eq_true this.2⟩
      rw [entries, body, if_neg (shownEntry_ne e), entry_last he _ hl]
      dsimp only
      cases fuel with
      | zero => rfl
      | succ fuel => rw [entries, if_pos rfl]; rfl
  | e :: e' :: es, fuel, count, d, _, hf, hok, hn, hlast => by
    cases fuel with
    | zero => simp at hf
    | succ fuel =>
      have he := hok e List.mem_cons_self
      simp only [List.length_cons] at hf hn hlast
      rw [entries, body, if_neg (by simp), show decide (count + 1 = num) = false from decide_eq_false (by omega), entry_more he]
      dsimp only
      rw [entries_loop num (e' :: es) fuel (count + 1) _ (by simp) (by simp; omega) (fun x hx => hok x (List.mem_cons_of_mem _ hx)) (by simp; omega)]
      · rfl
      · intro k t ht
        obtain ⟨h1, h2⟩ := hlast k t (by rw [List.getLast?_cons_cons]; exact ht)
        exact ⟨h1, by simp; omega⟩

theorem count_shown_ge (e : Text × Value) : 1 ≤ (shownEntry e).count '=' := by
  unfold shownEntry
  rw [List.count_append, List.count_cons_self]
  omega

theorem count_body_ge : ∀ es : List (Text × Value), es.length ≤ (body es).count '='
  | [] => Nat.zero_le _
  | [e] => count_shown_ge e
  | e :: e' :: es => by
    rw [body, List.count_append, List.count_cons_of_ne (by decide)]
    have h1 := count_shown_ge e
    have h2 := count_body_ge (e' :: es)
    simp only [List.length_cons] at *
    omega

theorem count_shown_eq {e : Text × Value} (h1 : '=' ∉ e.1) (h2 : '=' ∉ e.2.text) : (shownEntry e).count '=' = 1 := by
  obtain ⟨k, v⟩ := e
  unfold shownEntry
  dsimp only at *
  rw [List.count_append, List.count_cons_self, List.count_eq_zero.mpr h1]
  cases v with
  | quoted t =>
    dsimp only [Value.shown, Value.text] at *
    rw [List.cons_append, List.count_cons_of_ne (by decide), List.count_append, List.count_eq_zero.mpr h2]
    rfl
  | plain t =>
    dsimp only [Value.shown, Value.text] at *
    rw [List.count_eq_zero.mpr h2]

theorem count_body_eq : ∀ {es : List (Text × Value)}, (∀ e ∈ es, EntryOk e ∧ '=' ∉ e.2.text) → (body es).count '=' = es.length
  | [], _ => rfl
  | [e], h => count_shown_eq (h e List.mem_cons_self).1.2.1 (h e List.mem_cons_self).2
  | e :: e' :: es, h => by
    rw [body, List.count_append, List.count_cons_of_ne (by decide), count_shown_eq (h e List.mem_cons_self).1.2.1 (h e List.mem_cons_self).2,
      count_body_eq fun x hx => h x (List.mem_cons_of_mem _ hx)]
    simp only [List.length_cons]
    omega

theorem foldl_setKw : ∀ (es : List (Text × Value)) (d : List (Text × Text)), (d.map Prod.fst ++ es.map Prod.fst).Nodup →
    es.foldl (fun d e => setKw e.1 e.2.text d) d = d ++ es.map fun e => (e.1, e.2.text)
  | [], d, _ => by simp
  | e :: es, d, h => by
    have hn : e.1 ∉ d.map Prod.fst := by
      intro hh
      rw [List.map_cons] at h
      exact (List.nodup_append.mp h).2.2 _ hh _ List.mem_cons_self rfl
    rw [List.foldl_cons, setKw_new hn, foldl_setKw es]
    · simp
    · simpa using h

/-- The entries of a section. -/
theorem extract_body {s : Section} (h : SectionOk s) : extract (body s.entries) = .ok s.content := by
  obtain ⟨_, _, _, h4, h5, h6⟩ := h
  unfold extract Section.content
  cases hes : s.entries with
  | nil => rfl
  | cons e es =>
    rw [hes] at h4 h5 h6
    have hge := count_body_ge (e :: es)
    dsimp only
    rw [if_neg (by simp only [List.length_cons] at hge; omega)]
    rw [entries_loop _ (e :: es) _ 0 [] (by simp) (le_trans hge List.count_le_length) h4 (by omega)]
    · rw [foldl_setKw (e :: es) [] (by simpa using h6)]
      rfl
    · intro k t ht
      obtain ⟨h1, _, h3⟩ := h5 k t ht
      exact ⟨h1, by rw [Nat.zero_add, count_body_eq fun x hx => ⟨h4 x hx, h3 x hx⟩]⟩

theorem body_no {es : List (Text × Value)} (h : ∀ e ∈ es, EntryOk e) : '[' ∉ body es := by
  have h1 : ∀ e, EntryOk e → '[' ∉ shownEntry e := by
    rintro ⟨k, v⟩ ⟨a1, _, a3, _⟩
    unfold shownEntry
    dsimp only at *
    cases v <;> simp_all [Value.shown, Value.text]
  induction es with
  | nil => simp [body]
  | cons e es ih =>
    cases es with
    | nil => exact h1 e (h e List.mem_cons_self)
    | cons e' es =>
      rw [body]
      have a := h1 e (h e List.mem_cons_self)
      have b := ih fun x hx => h x (List.mem_cons_of_mem _ hx)
      simp only [List.mem_append, List.mem_cons, not_or]
      exact ⟨a, by decide, b⟩

theorem body_last : ∀ {es : List (Text × Value)}, es ≠ [] → ∃ e t, es.getLast? = some e ∧ body es = t ++ shownEntry e
  | [], h => absurd rfl h
  | [e], _ => ⟨e, [], rfl, rfl⟩
  | e :: e' :: es, _ => by
    obtain ⟨x, t, h1, h2⟩ := body_last (es := e' :: es) (by simp)
    refine ⟨x, shownEntry e ++ ',' :: t, ?_, ?_⟩
    · rw [List.getLast?_cons_cons]; exact h1
    · rw [body, h2]; simp

/-- White space at the end of a section. -/
theorem rstrip_body {s : Section} (h : SectionOk s) : rstripBy isSpace (body s.entries ++ s.ending) = body s.entries := by
  obtain ⟨_, _, h3, h4, h5, _⟩ := h
  rw [rstripBy_append h3]
  refine rstripBy_id fun c hc => ?_
  cases hes : s.entries with
  | nil => rw [hes] at hc; cases hc
  | cons e es =>
    obtain ⟨x, t, h1, h2⟩ := body_last (es := s.entries) (by rw [hes]; simp)
    rw [h2] at hc
    obtain ⟨k, v⟩ := x
    unfold shownEntry at hc
    cases v with
    | quoted u =>
      dsimp only [Value.shown] at hc
      rw [show t ++ (k ++ '=' :: ('"' :: u ++ ['"'])) = (t ++ (k ++ '=' :: '"' :: u)) ++ ['"'] by simp, List.getLast?_concat] at hc
      injection hc with hc
      subst hc
      decide
    | plain u =>
      dsimp only [Value.shown] at hc
      obtain ⟨g1, g2, _⟩ := h5 k u h1
      rw [show t ++ (k ++ '=' :: u) = (t ++ (k ++ ['='])) ++ u by simp, List.getLast?_append_of_ne_nil _ g1] at hc
      exact g2 c hc

theorem section_shown {s : Section} (h : SectionOk s) : section_ (s.name ++ ']' :: ',' :: body s.entries ++ s.ending) = .ok (s.name, body s.entries) := by
  unfold section_
  rw [List.append_assoc, List.cons_append, cut_append h.2.1]
  dsimp only
  rw [show List.drop 1 (',' :: body s.entries ++ s.ending) = body s.entries ++ s.ending from rfl, rstrip_body h]

theorem shown_no {s : Section} (h : SectionOk s) : '[' ∉ s.name ++ ']' :: ',' :: body s.entries ++ s.ending := by
  obtain ⟨h1, _, h3, h4, _, _⟩ := h
  have h5 := body_no h4
  have h6 : '[' ∉ s.ending := fun hh => absurd (h3 _ hh) (by decide)
  simp [h1, h5, h6]

theorem split_sections : ∀ (s : Section) (ss : List Section), (∀ x ∈ s :: ss, SectionOk x) →
    splitChar '[' ((comment (s :: ss)).drop 1) = (s :: ss).map fun x => x.name ++ ']' :: ',' :: body x.entries ++ x.ending
  | s, [], h => by
    have hs := shown_no (h s List.mem_cons_self)
    have e : (comment [s]).drop 1 = s.name ++ ']' :: ',' :: body s.entries ++ s.ending := by simp [comment, Section.shown]
    rw [e, splitChar_none hs]
    rfl
  | s, s' :: ss, h => by
    have hs := shown_no (h s List.mem_cons_self)
    have e : (comment (s :: s' :: ss)).drop 1 = (s.name ++ ']' :: ',' :: body s.entries ++ s.ending) ++ '[' :: (comment (s' :: ss)).drop 1 := by
      simp [comment, Section.shown]
    rw [e, splitChar_append hs, split_sections s' ss fun x hx => h x (List.mem_cons_of_mem _ hx)]
    rfl

theorem foldlM_sections : ∀ (ss : List Section) (d : List (Text × Text)), (∀ x ∈ ss, SectionOk x) → (d.map Prod.fst ++ ss.map Section.name).Nodup →
    (ss.map fun x => x.name ++ ']' :: ',' :: body x.entries ++ x.ending).foldlM (fun d entry => (section_ entry).map fun p => setKw p.1 p.2 d) d =
      (Except.ok (d ++ ss.map fun x => (x.name, body x.entries)) : Py _)
  | [], d, _, _ => by simp; rfl
  | s :: ss, d, h, hn => by
    have hd : s.name ∉ d.map Prod.fst := by
      intro hh
      rw [List.map_cons] at hn
      exact (List.nodup_append.mp hn).2.2 _ hh _ List.mem_cons_self rfl
    rw [List.map_cons, List.foldlM_cons, section_shown (h s List.mem_cons_self)]
    show (List.foldlM _ (setKw s.name (body s.entries) d) _ : Py _) = _
    rw [setKw_new hd, foldlM_sections ss _ (fun x hx => h x (List.mem_cons_of_mem _ hx)) (by simpa using hn)]
    simp

theorem mapM_sections : ∀ (ss : List Section), (∀ x ∈ ss, SectionOk x) →
    (ss.map fun x => (x.name, body x.entries)).mapM (fun e => (extract e.2).map fun v => (e.1, v)) = (Except.ok (ss.map fun x => (x.name, x.content)) : Py _)
  | [], _ => rfl
  | s :: ss, h => by
    rw [List.map_cons, List.mapM_cons, extract_body (h s List.mem_cons_self), mapM_sections ss fun x hx => h x (List.mem_cons_of_mem _ hx)]
    rfl

/-- The comment is read as it was written. -/
theorem process_comment {ss : List Section} (hne : ss ≠ []) (h : ∀ x ∈ ss, SectionOk x) (hn : (ss.map Section.name).Nodup) :
    process (comment ss) = .ok (ss.map fun x => (x.name, x.content)) := by
  cases ss with
  | nil => exact absurd rfl hne
  | cons s ss =>
    unfold process sections
    rw [split_sections s ss h, foldlM_sections (s :: ss) [] h (by simpa using hn)]
    exact mapM_sections (s :: ss) h

end Verif.Lemmas.Hamamatsu
