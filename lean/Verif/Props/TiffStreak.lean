import Verif.Props.TiffMeta
import Verif.Lemmas.Empad
import Mathlib.Data.List.Nodup
/-!
C121: streak images of Hamamatsu in TIFF files.
-/
namespace Verif.Props.Tiff
open Verif Verif.Tiff Verif.Spec.Tiff
open Verif.Empad (splitChar_cat)

/-! ### Rows -/

/-- Without quotes at the beginning of a field, a row is split at the commas. -/
theorem csv_split : ∀ (t cur p : Text) (ps : List Text), splitChar ',' t = p :: ps → (∀ q ∈ ps, q.head? ≠ some '"') →
    (cur = [] → p.head? ≠ some '"') → csvRow false cur t = (cur ++ p) :: ps
  | [], cur, p, ps, h, _, _ => by
    simp only [splitChar, List.cons.injEq] at h
    obtain ⟨rfl, rfl⟩ := h
    rw [csvRow, List.append_nil]
  | c :: t, cur, p, ps, h, h1, h2 => by
    by_cases hc : c = ','
    · subst hc
      simp only [splitChar, if_true, List.cons.injEq] at h
      obtain ⟨rfl, rfl⟩ := h
      have e : csvRow false cur (',' :: t) = cur :: csvRow false [] t := by
        cases cur <;> rfl
      rw [e]
      obtain ⟨q, qs, hq⟩ := List.exists_cons_of_ne_nil (splitChar_ne_nil ',' t)
      rw [hq] at h1 ⊢
      rw [csv_split t [] q qs hq (fun r hr => h1 r (List.mem_cons_of_mem _ hr)) fun _ => h1 q (List.mem_cons_self ..)]
      simp
    · obtain ⟨q, qs, hq⟩ := List.exists_cons_of_ne_nil (splitChar_ne_nil ',' t)
      simp only [splitChar, if_neg hc, hq, List.cons.injEq] at h
      obtain ⟨rfl, rfl⟩ := h
      have e : csvRow false cur (c :: t) = csvRow false (cur ++ [c]) t := by
        rw [csvRow]
        · exact hc
        · rintro rfl rfl
          exact h2 rfl rfl
      rw [e, csv_split t (cur ++ [c]) q qs hq h1 (fun e => by simp at e)]
      simp

theorem pieces_mem {c : Char} : ∀ {t p : Text}, p ∈ splitChar c t → ∀ x ∈ p, x ∈ t
  | [], p, h, x, hx => by
    simp only [splitChar, List.mem_singleton] at h
    rw [h] at hx
    exact hx
  | a :: t, p, h, x, hx => by
    unfold splitChar at h
    split at h
    · rcases List.mem_cons.1 h with rfl | h
      · cases hx
      · exact List.mem_cons_of_mem _ (pieces_mem h x hx)
    · split at h
      · rename_i he
        exact absurd he (splitChar_ne_nil c t)
      · rename_i q qs he
        rcases List.mem_cons.1 h with rfl | h
        · rcases List.mem_cons.1 hx with rfl | hx
          · exact List.mem_cons_self ..
          · exact List.mem_cons_of_mem _ (pieces_mem (t := t) (by rw [he]; exact List.mem_cons_self ..) x hx)
        · exact List.mem_cons_of_mem _ (pieces_mem (t := t) (by rw [he]; exact List.mem_cons_of_mem _ h) x hx)

/-- The parts of the rest of a value do not begin with a quote. -/
theorem rest_heads : ∀ {t : Text}, t ≠ [] → t.getLast? ≠ some ',' → (∀ c ∈ t, c ≠ '"') → ∀ p ∈ splitChar ',' (t ++ ['"']), p.head? ≠ some '"'
  | [c], _, h2, h3, p, hp => by
    have hc : c ≠ ',' := fun e => h2 (by rw [e]; rfl)
    have : splitChar ',' ([c] ++ ['"']) = [[c, '"']] := by
      simp [splitChar, hc]
    rw [this, List.mem_singleton] at hp
    rw [hp]
    intro e
    exact h3 c (List.mem_cons_self ..) (Option.some.inj e)
  | c :: d :: t, _, h2, h3, p, hp => by
    have ih := rest_heads (t := d :: t) (by simp) (by simpa using h2) fun x hx => h3 x (List.mem_cons_of_mem _ hx)
    rw [List.cons_append, splitChar] at hp
    split at hp
    · rcases List.mem_cons.1 hp with rfl | hp
      · simp
      · exact ih p hp
    · split at hp
      · rename_i he
        exact absurd he (splitChar_ne_nil _ _)
      · rename_i q qs he
        rcases List.mem_cons.1 hp with rfl | hp
        · intro e
          exact h3 c (List.mem_cons_self ..) (Option.some.inj e)
        · exact ih p (by rw [he]; exact List.mem_cons_of_mem _ hp)

theorem rowDict_append (d : Op) : ∀ (l l' : List Text), rowDict (l ++ l') d = rowDict l' (rowDict l d)
  | [], l' => rfl
  | e :: l, l' => by
    rw [List.cons_append, rowDict, rowDict.eq_def (e :: l)]
    simp only
    split
    · exact rowDict_append _ l l'
    · exact rowDict_append d l l'

theorem rowDict_skip {d : Op} : ∀ {l : List Text}, (∀ p ∈ l, '=' ∉ p) → rowDict l d = d
  | [], _ => rfl
  | e :: l, h => by
    unfold rowDict
    rw [splitChar_none (h e (List.mem_cons_self ..))]
    exact rowDict_skip fun p hp => h p (List.mem_cons_of_mem _ hp)

theorem plain_no {t : Text} (h : Plain t) : ',' ∉ t ∧ '=' ∉ t ∧ '"' ∉ t :=
  ⟨fun e => (h _ e).1 rfl, fun e => (h _ e).2.1 rfl, fun e => (h _ e).2.2.1 rfl⟩

/-- The fields of an entry. -/
theorem item_fields {i : Item} (h : i.Ok) (d : Op) : ∃ p ps, splitChar ',' i.text = p :: ps ∧
    (∀ q ∈ p :: ps, q.head? ≠ some '"') ∧ rowDict (p :: ps) d = setKw i.key (.str i.value) d := by
  obtain ⟨k, v, q, m⟩ := i
  obtain ⟨k1, k2, k3⟩ := plain_no h.key
  obtain ⟨v1, v2, v3⟩ := plain_no h.value
  simp only at k1 k2 k3 v1 v2 v3
  have hk : ∀ r : Text, (k ++ '=' :: r).head? ≠ some '"' := by
    intro r e
    cases k with
    | nil => exact absurd (Option.some.inj e) (by decide)
    | cons c k => exact k3 (by rw [← Option.some.inj e]; exact List.mem_cons_self ..)
  have hstrip : stripBy (fun c => decide (c = '"')) v = v := by
    refine stripBy_id (fun c hc => ?_) fun c hc => ?_
    · exact decide_eq_false fun e => v3 (e ▸ List.mem_of_mem_head? hc)
    · exact decide_eq_false fun e => v3 (e ▸ List.mem_of_getLast? hc)
  cases q with
  | false =>
    have hm : m = none := by
      cases m with
      | none => rfl
      | some t => exact absurd (h.more t rfl).1 (by simp)
    subst hm
    have ht : (⟨k, v, false, none⟩ : Item).text = k ++ '=' :: v := rfl
    refine ⟨k ++ '=' :: v, [], ?_, ?_, ?_⟩
    · rw [ht]
      refine splitChar_none fun e => ?_
      rcases List.mem_append.1 e with e | e
      · exact k1 e
      · rcases List.mem_cons.1 e with e | e
        · exact absurd e (by decide)
        · exact v1 e
    · intro q hq
      rw [List.mem_singleton.1 hq]
      exact hk v
    · simp only [rowDict, splitChar_append k2, splitChar_none v2, hstrip]
  | true =>
    have hq1 : stripBy (fun c => decide (c = '"')) ('"' :: v) = v := by
      have : stripBy (fun c => decide (c = '"')) ('"' :: v) = stripBy (fun c => decide (c = '"')) v := by
        simp [stripBy, lstripBy]
      rw [this, hstrip]
    cases m with
    | none =>
      have ht : (⟨k, v, true, none⟩ : Item).text = k ++ '=' :: ('"' :: v ++ ['"']) := by simp [Item.text]
      refine ⟨k ++ '=' :: ('"' :: v ++ ['"']), [], ?_, ?_, ?_⟩
      · rw [ht]
        refine splitChar_none fun e => ?_
        simp only [List.mem_append, List.mem_cons, List.not_mem_nil, or_false] at e
        rcases e with e | e | (e | e) | e
        · exact k1 e
        · exact absurd e (by decide)
        · exact absurd e (by decide)
        · exact v1 e
        · exact absurd e (by decide)
      · intro q hq
        rw [List.mem_singleton.1 hq]
        exact hk _
      · have e2 : '=' ∉ '"' :: v ++ ['"'] := by
          simp only [List.mem_append, List.mem_cons, List.not_mem_nil, or_false]
          rintro ((e | e) | e)
          · exact absurd e (by decide)
          · exact v2 e
          · exact absurd e (by decide)
        simp only [rowDict, splitChar_append k2, splitChar_none e2]
        rw [stripBy_append (by simp), hq1]
    | some t =>
      obtain ⟨_, t1, t2, t3⟩ := h.more t rfl
      have ht : (⟨k, v, true, some t⟩ : Item).text = (k ++ '=' :: '"' :: v) ++ ',' :: (t ++ ['"']) := by simp [Item.text]
      refine ⟨k ++ '=' :: '"' :: v, splitChar ',' (t ++ ['"']), ?_, ?_, ?_⟩
      · rw [ht]
        refine splitChar_append fun e => ?_
        simp only [List.mem_append, List.mem_cons] at e
        rcases e with e | e | e | e
        · exact k1 e
        · exact absurd e (by decide)
        · exact absurd e (by decide)
        · exact v1 e
      · intro q hq
        rcases List.mem_cons.1 hq with rfl | hq
        · exact hk _
        · exact rest_heads t1 t2 (fun c hc => (t3 c hc).2.1) q hq
      · have e2 : '=' ∉ '"' :: v := by
          simp only [List.mem_cons]
          rintro (e | e)
          · exact absurd e (by decide)
          · exact v2 e
        simp only [rowDict, splitChar_append k2, splitChar_none e2, hq1]
        refine rowDict_skip fun p hp e => ?_
        have := pieces_mem hp _ e
        rcases List.mem_append.1 this with e | e
        · exact (t3 _ e).1 rfl
        · exact absurd (List.mem_singleton.1 e) (by decide)

/-- The entries of a row. -/
def itemsDict (items : List Item) (d : Op) : Op := items.foldl (fun d i => setKw i.key (.str i.value) d) d

theorem items_fields : ∀ {items : List Item}, (∀ i ∈ items, i.Ok) → ∀ d : Op, ∃ fs, (∀ q ∈ fs, q.head? ≠ some '"') ∧
    rowDict fs d = itemsDict items d ∧ ∀ n : Text, ',' ∉ n → splitChar ',' (joinWith [','] (n :: items.map Item.text)) = n :: fs
  | [], _, d => ⟨[], by simp, rfl, fun n hn => by simpa [joinWith] using splitChar_none hn⟩
  | i :: items, h, d => by
    obtain ⟨p, ps, e1, e2, e3⟩ := item_fields (h i (List.mem_cons_self ..)) d
    obtain ⟨fs, f1, f2, f3⟩ := items_fields (items := items) (fun j hj => h j (List.mem_cons_of_mem _ hj)) (setKw i.key (.str i.value) d)
    refine ⟨(p :: ps) ++ fs, ?_, ?_, ?_⟩
    · intro q hq
      rcases List.mem_append.1 hq with hq | hq
      · exact e2 q hq
      · exact f1 q hq
    · rw [rowDict_append, e3, f2]
      rfl
    · intro n hn
      have e : joinWith [','] (n :: (i :: items).map Item.text) = n ++ ',' :: joinWith [','] (i.text :: items.map Item.text) := by
        simp [joinWith]
      rw [e, splitChar_append hn]
      congr 1
      cases items with
      | nil =>
        have : fs = [] := by simpa [joinWith, splitChar] using f3 [] (by simp)
        rw [this, List.append_nil]
        exact e1
      | cons j items =>
        have e' : joinWith [','] (i.text :: (j :: items).map Item.text) = i.text ++ ',' :: joinWith [','] ((j :: items).map Item.text) := by
          simp [joinWith]
        have f3' := f3 [] (by simp)
        have : joinWith [','] ([] :: (j :: items).map Item.text) = [] ++ ',' :: joinWith [','] ((j :: items).map Item.text) := by
          simp [joinWith]
        rw [this, splitChar_append (by simp)] at f3'
        rw [e', splitChar_cat, e1, (List.cons.inj f3').2]

/-- A row gives its name and its entries. -/
theorem row_ok {r : Row} (h : r.Ok) : ∃ k fs, csvRow false [] r.text = k :: fs ∧
    stripBy (fun c => c = ' ' || c = '[' || c = ']') k = r.name ∧ rowDict fs [] = itemsDict r.items [] := by
  obtain ⟨fs, f1, f2, f3⟩ := items_fields h.items []
  have hn : ',' ∉ '[' :: r.name ++ [']'] := by
    simp only [List.mem_append, List.mem_cons, List.not_mem_nil, or_false]
    rintro ((e | e) | e)
    · exact absurd e (by decide)
    · exact (plain_no h.name).1 e
    · exact absurd e (by decide)
  have e := csv_split r.text [] _ fs (f3 _ hn) f1 (fun _ => by
    intro e
    exact absurd (Option.some.inj e) (by decide))
  refine ⟨'[' :: r.name ++ [']'], fs, e, ?_, f2⟩
  rw [stripBy_append (by simp)]
  have : stripBy (fun c => c = ' ' || c = '[' || c = ']') ('[' :: r.name) = stripBy (fun c => c = ' ' || c = '[' || c = ']') r.name := by
    simp [stripBy, lstripBy]
  rw [this]
  refine stripBy_id (fun c hc => ?_) fun c hc => ?_
  · obtain ⟨a, b, d⟩ := h.first c hc
    simp [a, b, d]
  · obtain ⟨a, b, d⟩ := h.last c hc
    simp [a, b, d]

theorem row_head (r : Row) : ∃ t, r.text = '[' :: t := by
  unfold Row.text
  cases r.items <;> exact ⟨_, rfl⟩

/-- All rows. -/
def rowsDict (rows : List Row) (d : Op) : Op := rows.foldl (fun d r => setKw r.name (.dict (itemsDict r.items [])) d) d

theorem describe_ok : ∀ {rows : List Row}, (∀ r ∈ rows, r.Ok) → ∀ d : Op, describe (rows.map Row.text) d = .ok (rowsDict rows d)
  | [], _, d => rfl
  | r :: rows, h, d => by
    obtain ⟨k, fs, e1, e2, e3⟩ := row_ok (h r (List.mem_cons_self ..))
    obtain ⟨t, ht⟩ := row_head r
    rw [List.map_cons]
    rw [ht] at e1 ⊢
    unfold describe
    rw [e1]
    simp only [e2, e3]
    exact describe_ok (fun q hq => h q (List.mem_cons_of_mem _ hq)) _

/-! ### Lines -/

theorem item_line {i : Item} (h : i.Ok) : ∀ c ∈ i.text, c ≠ '\n' ∧ c ≠ '\r' := by
  obtain ⟨k, v, q, m⟩ := i
  have hk := h.key
  have hv := h.value
  have hm := h.more
  simp only at hk hv hm
  have hd : ∀ c : Char, c ∈ ['=', '"', ','] → c ≠ '\n' ∧ c ≠ '\r' := by decide
  intro c hc
  simp only [Item.text] at hc
  rcases List.mem_append.1 hc with hc | hc
  · exact (hk c hc).2.2.2
  · rcases List.mem_cons.1 hc with rfl | hc
    · decide
    · cases q with
      | false => exact (hv c (by simpa using hc)).2.2.2
      | true =>
        cases m with
        | none =>
          simp only [if_true, List.append_nil, List.mem_append, List.mem_cons, List.not_mem_nil, or_false] at hc
          rcases hc with (rfl | hc) | rfl
          · decide
          · exact (hv c hc).2.2.2
          · decide
        | some t =>
          simp only [if_true, List.mem_append, List.mem_cons, List.not_mem_nil, or_false] at hc
          rcases hc with ((rfl | hc) | rfl | hc) | rfl
          · decide
          · exact (hv c hc).2.2.2
          · decide
          · exact ((hm t rfl).2.2.2 c hc).2.2
          · decide

theorem row_line {r : Row} (h : r.Ok) : '\n' ∉ r.text ∧ '\r' ∉ r.text := by
  have : ∀ c ∈ r.text, c ≠ '\n' ∧ c ≠ '\r' := by
    intro c hc
    unfold Row.text at hc
    rcases mem_join hc with hc | ⟨p, hp, hc⟩
    · rw [List.mem_singleton.1 hc]
      decide
    · rcases List.mem_cons.1 hp with rfl | hp
      · simp only [List.mem_append, List.mem_cons, List.not_mem_nil, or_false] at hc
        rcases hc with (rfl | hc) | rfl
        · decide
        · exact (h.name c hc).2.2.2
        · decide
      · obtain ⟨i, hi, rfl⟩ := List.mem_map.1 hp
        exact item_line (h.items i hi) c hc
  exact ⟨fun e => (this _ e).1 rfl, fun e => (this _ e).2 rfl⟩

theorem dropEnd_cr {t : Text} (h : '\r' ∉ t) : dropEnd '\r' t = t ∧ dropEnd '\r' (t ++ ['\r']) = t := by
  unfold dropEnd
  refine ⟨if_neg fun e => h (List.mem_of_getLast? e), ?_⟩
  rw [if_pos (by simp)]
  simp

theorem lines_cons {t rest : Text} (h1 : '\n' ∉ t) (h2 : '\r' ∉ t) {r : Text} (hr : r = [] ∨ r = ['\r']) :
    lines (t ++ r ++ '\n' :: rest) = t :: lines rest := by
  have hn : '\n' ∉ t ++ r := by
    rw [List.mem_append]
    rintro (e | e)
    · exact h1 e
    · rcases hr with rfl | rfl
      · cases e
      · exact absurd (List.mem_singleton.1 e) (by decide)
  unfold lines
  rw [splitChar_append hn]
  obtain ⟨q, qs, hq⟩ := List.exists_cons_of_ne_nil (splitChar_ne_nil '\n' rest)
  rw [hq]
  have e : dropEnd ([] : Text) ((t ++ r) :: q :: qs) = (t ++ r) :: dropEnd [] (q :: qs) := by
    unfold dropEnd
    rw [List.getLast?_cons_cons]
    split <;> rfl
  rw [e, List.map_cons]
  congr 1
  rcases hr with rfl | rfl
  · rw [List.append_nil, (dropEnd_cr h2).1]
  · exact (dropEnd_cr h2).2

theorem lines_rows {eol : Text} (he : eol ∈ ["\n".toList, "\r\n".toList]) {e : Text} (hend : e ∈ [[], eol]) :
    ∀ {ts : List Text}, ts ≠ [] → (∀ t ∈ ts, t ≠ [] ∧ '\n' ∉ t ∧ '\r' ∉ t) → lines (joinWith eol ts ++ e) = ts := by
  have hr : ∃ r : Text, (r = [] ∨ r = ['\r']) ∧ eol = r ++ ['\n'] := by
    simp only [List.mem_cons, List.not_mem_nil, or_false] at he
    rcases he with rfl | rfl
    · exact ⟨[], .inl rfl, rfl⟩
    · exact ⟨['\r'], .inr rfl, rfl⟩
  obtain ⟨r, hr, rfl⟩ := hr
  intro ts
  induction ts with
  | nil => intro h; exact absurd rfl h
  | cons t ts ih =>
    intro _ h
    obtain ⟨h0, h1, h2⟩ := h t (List.mem_cons_self ..)
    cases ts with
    | nil =>
      simp only [List.mem_cons, List.not_mem_nil, or_false] at hend
      rcases hend with rfl | rfl
      · simp only [joinWith, List.append_nil]
        unfold lines
        rw [splitChar_none h1]
        have : dropEnd ([] : Text) [t] = [t] := by
          unfold dropEnd
          rw [if_neg]
          simpa using h0
        rw [this, List.map_cons, List.map_nil, (dropEnd_cr h2).1]
      · have := lines_cons h1 h2 hr (rest := [])
        have e : joinWith (r ++ ['\n']) [t] ++ (r ++ ['\n']) = t ++ r ++ '\n' :: [] := by simp [joinWith]
        rw [e, this]
        rfl
    | cons u us =>
      have e' : joinWith (r ++ ['\n']) (t :: u :: us) ++ e = t ++ r ++ '\n' :: (joinWith (r ++ ['\n']) (u :: us) ++ e) := by
        simp [joinWith]
      rw [e', lines_cons h1 h2 hr, ih (by simp) fun q hq => h q (List.mem_cons_of_mem _ hq)]

theorem description_ok {rows : List Row} {t : Text} (h : Rows rows t) : describe (lines t) [] = .ok (rowsDict rows []) := by
  obtain ⟨⟨eol, h1, e, h2, rfl⟩, h3, h4, h5⟩ := h
  rw [lines_rows h1 h2 (by simpa using h5)]
  · exact describe_ok h3 []
  · intro q hq
    obtain ⟨r, hr, rfl⟩ := List.mem_map.1 hq
    obtain ⟨t, ht⟩ := row_head r
    exact ⟨by rw [ht]; simp, row_line (h3 r hr)⟩

/-! ### Scaling -/

theorem items_other {k : Text} : ∀ {items : List Item} {d : Op}, k ∉ items.map Item.key → getKw k (itemsDict items d) = getKw k d
  | [], _, _ => rfl
  | i :: items, d, h => by
    rw [List.map_cons, List.mem_cons, not_or] at h
    have := items_other (items := items) (d := setKw i.key (.str i.value) d) h.2
    rw [getKw_setKw, if_neg h.1] at this
    exact this

theorem items_get {i : Item} : ∀ {items : List Item} {d : Op}, (items.map Item.key).Nodup → i ∈ items →
    getKw i.key (itemsDict items d) = some (.str i.value)
  | j :: items, d, hn, hi => by
    rw [List.map_cons, List.nodup_cons] at hn
    rcases List.mem_cons.1 hi with rfl | hi
    · have := items_other (items := items) (d := setKw i.key (.str i.value) d) hn.1
      rw [getKw_setKw, if_pos rfl] at this
      exact this
    · exact items_get (items := items) hn.2 hi

theorem rows_other {k : Text} : ∀ {rows : List Row} {d : Op}, k ∉ rows.map Row.name → getKw k (rowsDict rows d) = getKw k d
  | [], _, _ => rfl
  | i :: rows, d, h => by
    rw [List.map_cons, List.mem_cons, not_or] at h
    have := rows_other (rows := rows) (d := setKw i.name (.dict (itemsDict i.items [])) d) h.2
    rw [getKw_setKw, if_neg h.1] at this
    exact this

theorem rows_get {r : Row} : ∀ {rows : List Row} {d : Op}, (rows.map Row.name).Nodup → r ∈ rows →
    getKw r.name (rowsDict rows d) = some (.dict (itemsDict r.items []))
  | j :: rows, d, hn, hi => by
    rw [List.map_cons, List.nodup_cons] at hn
    rcases List.mem_cons.1 hi with rfl | hi
    · have := rows_other (rows := rows) (d := setKw r.name (.dict (itemsDict r.items [])) d) hn.1
      rw [getKw_setKw, if_pos rfl] at this
      exact this
    · exact rows_get (rows := rows) hn.2 hi

theorem address_ok {t : Text} {n : Nat} (h : Address t n) : firstNumber t = .ok n := by
  obtain ⟨pre, ds, rest, rfl, h1, h2, h3, h4, rfl⟩ := h
  have e1 : (pre ++ ds ++ rest).dropWhile (!·.isDigit) = ds ++ rest := by
    obtain ⟨d, ds, rfl⟩ := List.exists_cons_of_ne_nil h2
    rw [List.append_assoc, List.dropWhile_append_of_pos (fun c hc => by simp [h1 c hc])]
    rw [List.cons_append, List.dropWhile_cons_of_neg (by simp [h3 d (List.mem_cons_self ..)])]
  have e2 : (ds ++ rest).takeWhile (·.isDigit) = ds := by
    rw [List.takeWhile_append_of_pos h3]
    cases rest with
    | nil => simp
    | cons c rest => rw [List.takeWhile_cons_of_neg (by simp [h4 c rfl]), List.append_nil]
  unfold firstNumber
  rw [e1, e2]
  obtain ⟨d, ds, rfl⟩ := List.exists_cons_of_ne_nil h2
  rfl

theorem values_ok {f : Tiff} {special : String} {t : Text} {n : Nat} {x : List ℚ} (h : Values f special t n x) {key : String} {sc : Op}
    (hk : getKw key.toList sc = some (.str t)) : streakAxis f sc key special n = .ok x := by
  unfold streakAxis
  simp only [sub, hk, T.text, bind, Except.bind, pure, Except.pure]
  cases h with
  | pixels r h => rw [starts_iff.2 ⟨r, h⟩]; rfl
  | stored h ha =>
    have : starts special t = false := by rw [← Bool.not_eq_true, starts_iff]; exact h
    rw [this, address_ok ha]
    rfl

theorem size_ok {tags : List (Text × T)} {k : String} {n : Nat} (h : Tag tags k (.num n)) : sizeTag k (opOf tags) = .ok n := by
  unfold sizeTag
  simp only [tag_sub h, bind, Except.bind, pure, Except.pure]
  rw [if_pos ⟨by simp, by simp⟩]
  simp

/-- What the description gives. -/
theorem scaling_ok {f : Tiff} {p : Page} {rows : List Row} {nx ny : Nat} {x y : List ℚ} {xu yu t : Text} (h : Rows rows t)
    (ht : Tag p.tags "ImageDescription" (.str t)) (hs : Scaling f p rows nx ny x y xu yu) :
    ∃ r ∈ rows, r.name = "Scaling".toList ∧ streakDescription f (opOf p.tags) = .ok (rowsDict rows [], x, y) ∧
      getKw "ScalingXUnit".toList (itemsDict r.items []) = some (.str xu) ∧ getKw "ScalingYUnit".toList (itemsDict r.items []) = some (.str yu) := by
  obtain ⟨⟨r, hr, hn, i, hi, j, hj, k, hk, l, hl, i1, i2, j1, j2, k1, k2, l1, l2⟩, hw, hh⟩ := hs
  have hkeys := (h.ok r hr).keys
  have g1 := items_get (d := []) hkeys hi
  have g2 := items_get (d := []) hkeys hj
  have g3 := items_get (d := []) hkeys hk
  have g4 := items_get (d := []) hkeys hl
  rw [i1] at g1
  rw [j1] at g2
  rw [k1, k2] at g3
  rw [l1, l2] at g4
  refine ⟨r, hr, hn, ?_, g3, g4⟩
  have gr := rows_get (d := []) h.names hr
  rw [hn] at gr
  unfold streakDescription
  simp only [tag_get ht, T.text, bind, Except.bind, description_ok h, sub, gr, size_ok hw, size_ok hh, values_ok i2 g1, values_ok j2 g2, pure, Except.pure]

theorem labels_yx : "YX".toList.mapM labelOf = .ok [some "height".toList, some "width".toList] := by
  have h1 : labelOf 'Y' = .ok (some "height".toList) := rfl
  have h2 : labelOf 'X' = .ok (some "width".toList) := rfl
  have : "YX".toList = ['Y', 'X'] := rfl
  rw [this]
  simp only [List.mapM_cons, List.mapM_nil, h1, h2, bind, Except.bind, pure, Except.pure]

variable {env : Env} {f : Tiff} {name : Text} {force : Bool} {ty : StreakType} {h : Handle} {s : Sig} {rows : List Row} {t : Text}
  {nx ny : Nat} {x y : List ℚ} {xu yu : Text}

theorem date_signal {env : Env} {op : Op} {m m' : Meta} (h : dateOf env op m = .ok m') : m'.signalType = m.signalType := by
  have hj : ∀ {m' : Meta}, jeolDate op m = .ok m' → m'.signalType = m.signalType := by
    intro m' h
    unfold jeolDate at h
    simp only [bind, Except.bind] at h
    split at h
    · cases h
    · split at h
      · cases h
      · split at h
        · cases h
        · cases h
          rfl
  have ho : ∀ {v : T} {m' : Meta}, otherDate env op v m = .ok m' → m'.signalType = m.signalType := by
    intro v m' h
    unfold otherDate at h
    split at h
    · exact hj h
    · split at h
      · split at h
        · cases h; rfl
        · cases h
      · cases h
  have hk : ∀ {v : T} {r : Py Meta} {m' : Meta}, (∀ q, r = .ok q → q.signalType = m.signalType) → orKeep v m r = .ok m' → m'.signalType = m.signalType := by
    intro v r m' hq h
    unfold orKeep at h
    split at h
    · cases h; exact hq _ rfl
    · split at h
      · cases h; rfl
      · cases h
  unfold dateOf at h
  split at h
  · cases h; rfl
  · split at h
    · cases h; rfl
    · exact hk (fun _ h => ho h) h
  · exact hk (fun _ h => ho h) h

/-- **C121, axes, partial.** The width of a streak image is the line through the values of the horizontal scaling. The height is the line
through those of the vertical scaling, or these values, or the polynomial of the third degree through them, as asked for. The units
are those of the description. Missing: series of streak images, whose other axes are empty, see `C121_fails_series`. -/
theorem C121_axes_partial (hr : readTiff env f name force ty h = .ok s) (k : IsKind f h.page force .streak) (ha : (frame h).1 = "YX".toList)
    (hs : (frame h).2 = [ny, nx]) (ht : Tag h.page.tags "ImageDescription" (.str t)) (hd : Rows rows t)
    (hsc : Scaling f h.page rows nx ny x y xu yu) {a b : ℚ} (hx : env.polyfit 1 x = [a, b]) {height : Ax} (hy : Height env.polyfit ny yu y ty height) :
    s.axes = [height, .lin nx "width".toList (.num a) (.num b) (.str xu) none] := by
  obtain ⟨names, op, r, m, m', op', _, h2, h3, _, _, _, _, h8, _⟩ := read_parts hr
  rw [ha, labels_yx] at h2
  have hn := Except.ok.inj h2
  subst hn
  rw [parse_streak k] at h3
  obtain ⟨row, _, hrow, d1, d2, d3⟩ := scaling_ok hd ht hsc
  have gr := rows_get (d := []) hd.names ‹row ∈ rows›
  rw [hrow] at gr
  have : streak env f (opOf h.page.tags) (frame h).2 [some "height".toList, some "width".toList] ty =
      .ok [height, .lin nx "width".toList (.num a) (.num b) (.str xu) none] := by
    have i1 : indexOf "width" [some "height".toList, some "width".toList] = .ok 1 := by decide
    have i2 : indexOf "height" [some "height".toList, some "width".toList] = .ok 0 := by decide
    have hh : streakHeight env ty (.str yu) ny y = height := by
      cases hy with
      | unset h => simp only [streakHeight, h]; rfl
      | uniform h => simp only [streakHeight, h]; rfl
      | data => rfl
      | functional h => simp only [streakHeight, h]
    unfold streak
    simp only [d1, bind, Except.bind, sub, gr, i1, i2, hs, T.get, d2, d3, List.getElem?_cons_succ, List.getElem?_cons_zero, hh, hx, pure, Except.pure]
    rfl
  rw [this] at h3
  rw [h8, ← (Prod.mk.inj h3).2]
  rfl

/-- **C121, lines.** Equidistant values give their step and their first value: for the width, and for the height if a uniform axis is
asked for. -/
theorem C121_linear (hf : Fits env.polyfit) (hr : readTiff env f name force ty h = .ok s) (k : IsKind f h.page force .streak) (ha : (frame h).1 = "YX".toList)
    (hs : (frame h).2 = [ny, nx]) (ht : Tag h.page.tags "ImageDescription" (.str t)) (hd : Rows rows t) {a b c d : ℚ}
    (hsc : Scaling f h.page rows nx ny ((List.range nx).map fun i : Nat => b + i * a) ((List.range ny).map fun i : Nat => d + i * c) xu yu)
    (h2 : 2 ≤ nx) (h3 : 2 ≤ ny) (hty : ty = .none ∨ ty = .uniform) :
    s.axes = [.lin ny "height".toList (.num c) (.num d) (.str yu) none, .lin nx "width".toList (.num a) (.num b) (.str xu) none] := by
  rcases hty with rfl | rfl
  · exact C121_axes_partial hr k ha hs ht hd hsc (hf nx a b h2) (.unset (hf ny c d h3))
  · exact C121_axes_partial hr k ha hs ht hd hsc (hf nx a b h2) (.uniform (hf ny c d h3))

/-- **C121, description, partial.** The original metadata have the rows of the description under their names, with all entries, and the values
of both scalings; the kind of signal is a transient spectrum if LumiSpy is there. Missing: values with commas, which
end at the first one, see `C121_fails_comma`. -/
theorem C121_description_partial (hr : readTiff env f name force ty h = .ok s) (k : IsKind f h.page force .streak)
    (ht : Tag h.page.tags "ImageDescription" (.str t)) (hd : Rows rows t) (hsc : Scaling f h.page rows nx ny x y xu yu) :
    (∃ d, getKw "ImageDescriptionParsed".toList s.original = some (.dict d) ∧
      (∀ r ∈ rows, ∃ e, getKw r.name d = some (.dict e) ∧
        (∀ i ∈ r.items, i.key ≠ "ScalingXaxis".toList → i.key ≠ "ScalingYaxis".toList → getKw i.key e = some (.str i.value)) ∧
        (r.name = "Scaling".toList → getKw "ScalingXaxis".toList e = some (.list (x.map .num)) ∧ getKw "ScalingYaxis".toList e = some (.list (y.map .num)))) ∧
      ∀ q, q ∉ rows.map Row.name → getKw q d = none) ∧
    s.meta'.signalType = if env.lumispy then "LumiTransientSpectrum".toList else [] := by
  obtain ⟨names, op, r, m, m', op', _, h2, h3, h4, _, h6, _, _, h9, h10⟩ := read_parts hr
  rw [parse_streak k] at h3
  have ho : op = opOf h.page.tags := (Prod.mk.inj h3).1.symm
  subst ho
  obtain ⟨row, hrow, hname, d1, _⟩ := scaling_ok hd ht hsc
  have gr := rows_get (d := []) hd.names hrow
  rw [hname] at gr
  have hm : (intensity (opOf h.page.tags) m).signalType = [] := by
    have h0 : m.signalType = [] := date_signal h4
    unfold intensity
    split
    · exact h0
    · exact h0
  unfold addStreak at h6
  simp only [isStreak_true k.2.2.2.2.2.2, if_true, bind, Except.bind, d1, sub, gr, pure, Except.pure] at h6
  have e6 := Except.ok.inj h6
  have o6 := (Prod.mk.inj e6).1
  have m6 := (Prod.mk.inj e6).2
  refine ⟨⟨_, by rw [h9, ← o6, getKw_setKw, if_pos rfl], fun q hq => ?_, fun q hq => ?_⟩, ?_⟩
  · by_cases hqs : q.name = "Scaling".toList
    · have hqr : q = row := by
        have : ∀ {l : List Row}, (l.map Row.name).Nodup → ∀ a ∈ l, ∀ b ∈ l, a.name = b.name → a = b := by
          intro l hl a ha b hb e
          exact List.inj_on_of_nodup_map hl ha hb e
        exact this hd.names q hq row hrow (hqs.trans hname.symm)
      subst hqr
      refine ⟨_, by rw [getKw_setKw, if_pos hname], fun i hi n1 n2 => ?_, fun _ => ⟨?_, ?_⟩⟩
      · rw [getKw_setKw, if_neg n2, getKw_setKw, if_neg n1]
        exact items_get (hd.ok q hq).keys hi
      · rw [getKw_setKw, if_neg (by decide), getKw_setKw, if_pos rfl]
      · rw [getKw_setKw, if_pos rfl]
    · refine ⟨_, by rw [getKw_setKw, if_neg hqs, rows_get hd.names hq], fun i hi _ _ => items_get (hd.ok q hq).keys hi, fun e => absurd e hqs⟩
  · have hqs : q ≠ "Scaling".toList := fun e => hq (by rw [e, ← hname]; exact List.mem_map_of_mem hrow)
    rw [getKw_setKw, if_neg hqs, rows_other hq]
    rfl
  · rw [h10, ← m6]
    cases env.lumispy
    · exact hm
    · rfl

/-- **C121, read.** A streak image with such a description is read, if its date is a text or missing. -/
theorem C121_reads (hty : ty ≠ .other) (hl : Loads h) (k : IsKind f h.page force .streak) (hk : ∀ c ∈ (frame h).1, Known c)
    (hdate : NoTag h.page.tags "DateTime" ∨ ∃ t, Tag h.page.tags "DateTime" (.str t)) (ht : Tag h.page.tags "ImageDescription" (.str t))
    (hd : Rows rows t) (hsc : Scaling f h.page rows nx ny x y xu yu) (hv : h.page.isTvips = true → ∃ d, Tag h.page.tags "TVIPS" (.dict d)) :
    ∃ s, readTiff env f name force ty h = .ok s := by
  obtain ⟨⟨d, l1⟩, l2⟩ := loads_ok hl
  obtain ⟨names, l3⟩ := mapM_known hk
  obtain ⟨row, hrow, hname, d1, _⟩ := scaling_ok hd ht hsc
  have gr := rows_get (d := []) hd.names hrow
  rw [hname] at gr
  have g1 : ∃ m, dateOf env (opOf h.page.tags) ⟨baseName name, [], none, none, none, none, none, none⟩ = .ok m := by
    refine date_ok ?_
    rcases hdate with hd | ⟨t, hd⟩
    · exact .inl (noTag_get hd)
    · exact .inr ⟨t, tag_get hd⟩
  obtain ⟨m, g1⟩ := g1
  have g3 : ∃ v m', addStreak env f (opOf h.page.tags) (intensity (opOf h.page.tags) m) = .ok (setKw "ImageDescriptionParsed".toList v (opOf h.page.tags), m') := by
    unfold addStreak
    simp only [isStreak_true k.2.2.2.2.2.2, if_true, bind, Except.bind, d1, sub, gr, pure, Except.pure]
    exact ⟨_, _, rfl⟩
  obtain ⟨v, m', g3⟩ := g3
  have g4 : (tagOr "Make" (setKw "ImageDescriptionParsed".toList v (opOf h.page.tags)) .null).isText "JEOL Ltd." = false := by
    have : tagOr "Make" (setKw "ImageDescriptionParsed".toList v (opOf h.page.tags)) .null = tagOr "Make" (opOf h.page.tags) .null := by
      unfold tagOr
      rw [get_set_other (by decide)]
    rw [this]
    exact notJeol k.2.2.2.2.2.1
  obtain ⟨mp, g5⟩ := mapping_ok (p := h.page) g4 fun e => by
    obtain ⟨d, hd⟩ := hv e
    exact ⟨d, by rw [get_set_other (by decide)]; exact tag_get hd⟩
  unfold readTiff
  simp only [bind, Except.bind, l2, l3, if_neg hty, parse_streak k, g1, l1, g3, g5, pure, Except.pure]
  exact ⟨_, rfl⟩

end Verif.Props.Tiff
