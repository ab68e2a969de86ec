import Verif.Lemmas.Impulse
import Verif.Lemmas.Empad
import Verif.Props.Protochips
/-! C94: log files of DENSsolutions Impulse. -/
namespace Verif.Props.Impulse
open Verif.Genfromtxt Verif.Impulse Verif.Spec.Impulse Verif.Spec.Tables Verif.Lemmas.Genfromtxt Verif.Lemmas.Impulse

variable {num : Text → Option Rat}

/-- The columns of a log. -/
def columnsOf (qs : List Text) : List Text := "TimeStamp".toList :: "Experiment time".toList :: qs

theorem name_stamp : Name "TimeStamp".toList := ⟨by decide, by decide, by decide⟩
theorem name_time : Name "Experiment time".toList := ⟨by decide, by decide, by decide⟩

theorem all_names {qs : List Text} (h : ColumnsOk qs) : ∀ n ∈ columnsOf qs, Name n := by
  intro n hn
  rcases List.mem_cons.1 hn with rfl | hn
  · exact name_stamp
  rcases List.mem_cons.1 hn with rfl | hn
  · exact name_time
  · exact h.name n hn

theorem columns_line {qs : List Text} (h : ColumnsOk qs) : Line (joinWith [','] (columnsOf qs)) := by
  have key : ∀ c ∈ joinWith [','] (columnsOf qs), c ≠ '\n' ∧ c ≠ '\r' := by
    intro c hc
    rcases mem_join hc with hc | ⟨p, hp, hc⟩
    · rw [List.mem_singleton.1 hc]
      decide
    · have := allowed_char ((all_names h p hp).char c hc)
      exact ⟨this.2.2.1, this.2.2.2.1⟩
  exact ⟨fun hm => (key _ hm).1 rfl, fun hm => (key _ hm).2 rfl⟩

theorem getLast_join : ∀ {l : List Text} {q : Text}, l.getLast? = some q → q ≠ [] → (joinWith [','] l).getLast? = q.getLast?
  | [], q, h, _ => by simp at h
  | [p], q, h, _ => by
    simp only [List.getLast?_singleton, Option.some.injEq] at h
    rw [h]
    rfl
  | p :: p' :: l, q, h, hq => by
    rw [List.getLast?_cons_cons] at h
    rw [joinWith, List.getLast?_append, getLast_join h hq]
    cases e : q.getLast? with
    | none => exact absurd (List.getLast?_eq_none_iff.1 e) hq
    | some x => rfl

theorem columns_read {qs : List Text} (h : ColumnsOk qs) : splitChar ',' (stripBy isSpace (joinWith [','] (columnsOf qs) ++ ['\n'])) = columnsOf qs := by
  have hname := all_names h
  rw [stripBy_append (by decide), stripBy_id, splitChar_join (by simp [columnsOf])]
  · intro p hp hm
    exact (allowed_char ((hname p hp).char _ hm)).2.1 rfl
  · intro c hc
    have : (joinWith [','] (columnsOf qs)).head? = some 'T' := by
      unfold columnsOf
      cases qs <;> rfl
    rw [this] at hc
    cases hc
    decide
  · intro c hc
    obtain ⟨q, hq⟩ : ∃ q, qs.getLast? = some q := by
      cases e : qs.getLast? with
      | none => exact absurd (List.getLast?_eq_none_iff.1 e) h.some
      | some q => exact ⟨q, rfl⟩
    have hqm : q ∈ qs := List.mem_of_getLast? hq
    have hqne : q ≠ [] := by
      rintro rfl
      exact (h.name _ hqm).some rfl
    have hl : (columnsOf qs).getLast? = some q := by
      unfold columnsOf
      cases qs with
      | nil => simp at hq
      | cons a l => rw [List.getLast?_cons_cons, List.getLast?_cons_cons]; exact hq
    rw [getLast_join hl hqne] at hc
    have hc' : q.getLast? = some c := hc
    have h1 := allowed_char ((h.name q hqm).char c (List.mem_of_getLast? hc'))
    cases e : isSpace c with
    | false => rfl
    | true =>
      exfalso
      rw [h1.2.2.2.2 e] at hc'
      exact h.last q hq hc'

theorem valve_read {cell : Text} {a b c : Int} (h : Positions cell a b c) : valve cell = .ok ((a + 2) * 100 + (b + 2) * 10 + (c + 2)) := by
  obtain ⟨x, y, z, rfl, hno, h1, h2, h3⟩ := h
  unfold valve
  rw [splitChar_join (by simp) hno]
  dsimp only
  rw [h1, h2, h3]
  rfl

theorem units_read {q u : Text} (h : UnitsOf q u) : unitsOf q = u := by
  obtain ⟨a, rfl, hne, hhead, hu⟩ := h
  have hs : stripBy isSpace (a ++ " (".toList ++ u ++ ")".toList) = a ++ ' ' :: (['('] ++ u ++ [')']) := by
    have e : a ++ " (".toList ++ u ++ ")".toList = a ++ ' ' :: (['('] ++ u ++ [')']) := by simp
    rw [e]
    apply stripBy_id
    · intro c hc
      cases a with
      | nil => exact absurd rfl hne
      | cons x a => exact hhead c hc
    · intro c hc
      have : (a ++ ' ' :: (['('] ++ u ++ [')'])).getLast? = some ')' := by
        have e : a ++ ' ' :: (['('] ++ u ++ [')']) = (a ++ ' ' :: (['('] ++ u)) ++ [')'] := by simp
        rw [e, List.getLast?_concat]
      rw [this] at hc
      cases hc
      decide
  have hw : ' ' ∉ ['('] ++ u ++ [')'] := by
    intro hm
    simp only [List.cons_append, List.nil_append, List.mem_cons, List.mem_append, List.not_mem_nil, or_false] at hm
    rcases hm with hm | hm | hm
    · exact absurd hm (by decide)
    · exact (hu _ hm).1 rfl
    · exact absurd hm (by decide)
  unfold unitsOf
  rw [hs, Verif.Empad.splitChar_cat, splitChar_none hw]
  dsimp only
  rw [if_pos]
  · have e1 : (splitChar ' ' a ++ [['('] ++ u ++ [')']]).getLastD [] = ['('] ++ u ++ [')'] := by
      rw [List.getLastD_eq_getLast?, List.getLast?_concat]
      rfl
    rw [e1, List.filter_append, List.filter_append]
    have e2 : u.filter (fun c => decide (c ≠ '(' ∧ c ≠ ')')) = u := by
      rw [List.filter_eq_self]
      intro c hc
      simpa using (hu c hc).2
    rw [e2]
    simp
  · refine ⟨?_, ?_, ?_⟩
    · have := List.length_pos_iff.2 (splitChar_ne_nil ' ' a)
      simp only [List.length_append, List.length_singleton]
      omega
    · rw [List.getLastD_eq_getLast?, List.getLast?_concat]
      rfl
    · rw [List.getLastD_eq_getLast?, List.getLast?_concat, Option.getD_some, List.getLast?_concat]

theorem units_none {q : Text} (h : '(' ∉ q) : unitsOf q = [] := by
  unfold unitsOf
  dsimp only
  rw [if_neg]
  rintro ⟨_, h2, _⟩
  apply h
  have h3 := List.mem_of_mem_head? h2
  obtain ⟨ws, hws⟩ : ∃ ws, ws = splitChar ' ' (stripBy isSpace q) := ⟨_, rfl⟩
  rw [← hws] at h3
  rw [List.getLastD_eq_getLast?] at h3
  cases e : ws.getLast? with
  | none => rw [e] at h3; simp at h3
  | some w =>
    rw [e, Option.getD_some] at h3
    have hw : w ∈ ws := List.mem_of_getLast? e
    have sub : ∀ (s : Text), ∀ w ∈ splitChar ' ' s, ∀ c ∈ w, c ∈ s := by
      intro s
      induction s with
      | nil =>
        intro w hw c hc
        simp only [splitChar, List.mem_singleton] at hw
        rw [hw] at hc
        exact hc
      | cons a t ih =>
        intro w hw c hc
        unfold splitChar at hw
        split at hw
        · rcases List.mem_cons.1 hw with rfl | hw
          · simp at hc
          · exact List.mem_cons_of_mem _ (ih w hw c hc)
        · split at hw
          · rw [List.mem_singleton.1 hw] at hc
            rw [List.mem_singleton.1 hc]
            exact List.mem_cons_self ..
          · next p ps hp =>
            rcases List.mem_cons.1 hw with rfl | hw
            · rcases List.mem_cons.1 hc with rfl | hc
              · exact List.mem_cons_self ..
              · exact List.mem_cons_of_mem _ (ih p (by rw [hp]; exact List.mem_cons_self ..) c hc)
            · exact List.mem_cons_of_mem _ (ih w (by rw [hp]; exact List.mem_cons_of_mem _ hw) c hc)
    have h4 := sub _ w (by rw [← hws]; exact hw) _ h3
    unfold stripBy rstripBy lstripBy at h4
    rw [List.mem_reverse] at h4
    have h5 := (List.dropWhile_sublist _).subset h4
    rw [List.mem_reverse] at h5
    exact (List.dropWhile_sublist _).subset h5

/-- What is returned for a quantity. -/
structure SignalOk (entries : List (Text × Text)) (notes : List Text) (date time : Text) (rows : List (List Text)) (T : List Rat) (j : Nat) (q : Text) (s : Signal) : Prop where
  title : s.title = q
  units : (∀ u, UnitsOf q u → s.units = u) ∧ ('(' ∉ q → s.units = [])
  data : q ≠ "MixValve".toList → s.data = .cells (rows.map (·.getD (j + 2) []))
  valve : q = "MixValve".toList → ∃ vs : List Int, s.data = .valve vs ∧ vs.length = rows.length ∧
    ∀ (i : Nat) (r : List Text), rows[i]? = some r → ∀ a b c, Positions (r.getD (j + 2) []) a b c → vs[i]? = some ((a + 2) * 100 + (b + 2) * 10 + (c + 2))
  date : s.date = date
  time : s.time = time
  size : s.size = rows.length
  scale : s.scale = some (innerStep T)
  offset : s.offset = 0
  entries : ∀ e ∈ entries, getKw (key e.1) s.header.entries = some (stripBy isSpace e.2)
  notes : s.header.notes = notes.modifyHead (stripBy isSpace)

theorem mapM_valves : ∀ {l : List Text}, (∀ c ∈ l, ∃ a b d, Positions c a b d) → ∃ vs : List Int, l.mapM valve = .ok vs ∧ vs.length = l.length ∧
    ∀ (i : Nat) (c : Text), l[i]? = some c → ∀ a b d, Positions c a b d → vs[i]? = some ((a + 2) * 100 + (b + 2) * 10 + (d + 2))
  | [], _ => ⟨[], rfl, rfl, by simp⟩
  | c :: l, h => by
    obtain ⟨vs, h1, h2, h3⟩ := mapM_valves (l := l) fun x hx => h x (List.mem_cons_of_mem _ hx)
    obtain ⟨a, b, d, hp⟩ := h c (List.mem_cons_self ..)
    refine ⟨((a + 2) * 100 + (b + 2) * 10 + (d + 2)) :: vs, ?_, by simp [h2], ?_⟩
    · rw [List.mapM_cons, valve_read hp, h1]
      rfl
    · intro i x hx a' b' d' hp'
      cases i with
      | zero =>
        simp only [List.getElem?_cons_zero, Option.some.injEq] at hx
        subst hx
        have e1 := valve_read hp
        rw [valve_read hp'] at e1
        rw [List.getElem?_cons_zero, Except.ok.inj e1]
      | succ i =>
        rw [List.getElem?_cons_succ] at hx ⊢
        exact h3 i x hx a' b' d' hp'

theorem times_read {cells : List Text} {T : List Rat} (h : cells.map num = T.map some) : numbers num cells = .ok T := by
  have := Verif.Props.Protochips.times_read h
  exact this

theorem meta_read {entries : List (Text × Text)} {notes : List Text} {date time : Text} (h : MetaOk entries date time) {filename : Text} (hf : "_Synchronized data".toList <:+: filename ∨ "raw".toList <:+: filename) :
    ∃ m, readMeta filename (some (metaRows entries notes)) = .ok m ∧ (∀ e ∈ entries, getKw (key e.1) m.entries = some (stripBy isSpace e.2)) ∧ m.notes = notes.modifyHead (stripBy isSpace) := by
  obtain ⟨kw, h1, h2⟩ := fold_entries entries [] h.distinct h.notes
  refine ⟨⟨kw, notes.modifyHead (stripBy isSpace)⟩, ?_, fun e he => (h2 _).1 e he rfl, rfl⟩
  unfold readMeta
  rw [if_pos (by rw [Bool.or_eq_true, contains_iff, contains_iff]; exact hf)]
  unfold metaRows
  dsimp only
  rw [List.foldlM_append, h1]
  cases notes with
  | nil => rfl
  | cons n ns =>
    simp only [bind, Except.bind]
    rw [List.foldlM_cons]
    have e : metaRow (kw, none) ["Live notes".toList, n] = .ok (kw, some [stripBy isSpace n]) := rfl
    rw [e]
    simp only [bind, Except.bind]
    rw [fold_notes]
    rfl

theorem get_entry {entries kw : List (Text × Text)} {date : Text} (hkw : ∀ e ∈ entries, getKw (key e.1) kw = some (stripBy isSpace e.2)) {n : Text} (h : ∃ d, (n, d) ∈ entries ∧ stripBy isSpace d = date) :
    getKw (key n) kw = some date := by
  obtain ⟨d, hd, hs⟩ := h
  rw [← hs]
  exact hkw _ hd

theorem dictionary_ok {m : Meta} {d : Data} {q : Text} {v : Values} {cells : List Text} {T : List Rat} {date time : Text} {st : Rat} (h1 : getKw q d.dict = some v) (h2 : d.times = some cells)
    (h3 : numbers num cells = .ok T) (h4 : ¬ cells.length < 2) (h5 : getKw "Experiment_date".toList m.entries = some date) (h6 : getKw "Experiment_time".toList m.entries = some time) (h7 : meanStep T = some st) :
    dictionary num m d q = .ok ⟨q, unitsOf q, date, time, v, cells.length, some st, 0, m⟩ := by
  unfold dictionary
  rw [h1, h2, h5, h6]
  simp only [bind, Except.bind, need, h3, if_neg h4, h7]

/-- **C94.** A log with its metadata file is read completely: one signal per quantity, with all its cells in order, under its name and with its units; date, time, entries and notes are those of the metadata
file. -/
theorem C94_loads_partial {filename : Text} (hf : "_Synchronized data".toList <:+: filename ∨ "raw".toList <:+: filename) {qs : List Text} (hq : ColumnsOk qs) {entries : List (Text × Text)} {date time : Text}
    (hm : MetaOk entries date time) (notes : List Text) {rows : List (List Text)} (hrows : ∀ r ∈ rows, Row (qs.length + 2) r) (h4 : 4 ≤ rows.length) {T : List Rat}
    (hT : (rows.map fun r => num (r.getD 1 [])) = T.map some) (hv : ∀ j, qs[j]? = some "MixValve".toList → ∀ r ∈ rows, ∃ a b c, Positions (r.getD (j + 2) []) a b c) :
    ∃ sigs, Verif.Impulse.read num filename (linesText (joinWith [','] ("TimeStamp".toList :: "Experiment time".toList :: qs) :: rowLines rows)) (some (metaRows entries notes)) = .ok sigs ∧
      sigs.length = qs.length ∧ ∀ j q, qs[j]? = some q → ∃ s, sigs[j]? = some s ∧ SignalOk entries notes date time rows T j q s := by
  obtain ⟨m, hm1, hm2, hm3⟩ := meta_read (notes := notes) hm hf
  have hdate := get_entry hm2 hm.date
  have htime := get_entry hm2 hm.time
  have hne : rows ≠ [] := by
    rintro rfl
    simp at h4
  have hnd0 := hq.distinct
  have hnames := all_names hq
  have hread := columns_read hq
  have hline := columns_line hq
  obtain ⟨columns, hcolumns⟩ : ∃ columns, columns = columnsOf qs := ⟨_, rfl⟩
  have hcons : columns = "TimeStamp".toList :: "Experiment time".toList :: qs := hcolumns
  rw [← hcons] at hnd0 ⊢
  rw [← hcolumns] at hnames hread hline
  have hnd : columns.Nodup := hnd0.of_map _
  have hfield : columns.map fieldName = columns.map plain := List.map_congr_left fun c hc => fieldName_plain (hnames c hc)
  have hlen : columns.length = qs.length + 2 := by rw [hcons]; simp
  have hg : genfromtxt ([joinWith [','] columns ++ ['\n']] ++ rows.map fun r => joinWith [','] r ++ ['\n']) 1 (columns.map plain) = .ok ⟨columns.map plain, rows⟩ := by
    apply genfromtxt_ok rfl _ hne _ hnd0
    · intro r hr
      rw [List.length_map, hlen]
      exact hrows r hr
    · intro n hn
      obtain ⟨k, hk, rfl⟩ := List.mem_map.1 hn
      exact plain_kept (hnames k hk)
  have hcol : ∀ c ∈ columns, column ⟨columns.map plain, rows⟩ (fieldName c) = .ok (rows.map (·.getD (columns.idxOf c) [])) := by
    intro c hc
    have hi := List.idxOf_lt_length_iff.2 hc
    have := column_ok (rows := rows) hnd0 (i := columns.idxOf c) (by rw [List.length_map]; exact hi)
    rw [List.getElem_map, List.getElem_idxOf hi] at this
    rw [fieldName_plain (hnames c hc)]
    exact this
  have hidx : ∀ j q, qs[j]? = some q → columns.idxOf q = j + 2 := by
    intro j q hj
    have hlt : j + 2 < columns.length := by
      have : j < qs.length := by
        by_contra hno
        rw [List.getElem?_eq_none (by omega)] at hj
        exact absurd hj (by simp)
      omega
    have e : columns[j + 2]'hlt = q := by
      have e1 : columns[j + 2]? = some q := by
        rw [hcons]
        exact hj
      rw [List.getElem?_eq_getElem hlt] at e1
      exact Option.some.inj e1
    rw [← e, hnd.idxOf_getElem]
  obtain ⟨vs, hvs⟩ : ∃ vs : List Int, "MixValve".toList ∈ columns → (rows.map (·.getD (columns.idxOf "MixValve".toList) [])).mapM valve = .ok vs ∧ vs.length = rows.length ∧
      ∀ (i : Nat) (r : List Text), rows[i]? = some r → ∀ a b d, Positions (r.getD (columns.idxOf "MixValve".toList) []) a b d → vs[i]? = some ((a + 2) * 100 + (b + 2) * 10 + (d + 2)) := by
    by_cases hmem : "MixValve".toList ∈ columns
    · have hmem' := hmem
      rw [hcons] at hmem'
      rcases List.mem_cons.1 hmem' with e | hmem'
      · exact absurd e (by decide)
      rcases List.mem_cons.1 hmem' with e | hmem'
      · exact absurd e (by decide)
      obtain ⟨j, hj, hjq⟩ := List.getElem_of_mem hmem'
      have hj' : qs[j]? = some "MixValve".toList := by rw [List.getElem?_eq_getElem hj, hjq]
      obtain ⟨vs, e1, e2, e3⟩ := mapM_valves (l := rows.map (·.getD (columns.idxOf "MixValve".toList) [])) (by
        intro c hc
        obtain ⟨r, hr, rfl⟩ := List.mem_map.1 hc
        rw [hidx j _ hj']
        exact hv j hj' r hr)
      refine ⟨vs, fun _ => ⟨e1, by rw [e2, List.length_map], ?_⟩⟩
      intro i r hr a b d hp
      exact e3 i (r.getD (columns.idxOf "MixValve".toList) []) (by rw [List.getElem?_map, hr]; rfl) a b d hp
    · exact ⟨[], fun h => absurd h hmem⟩
  obtain ⟨d, hd1, hd2, hd3⟩ := fold_columns (t := ⟨columns.map plain, rows⟩) (col := fun c => rows.map (·.getD (columns.idxOf c) [])) (vs := vs) columns ⟨[], none⟩ hnd hcol fun h => (hvs h).1
  have htimes : d.times = some (rows.map (·.getD 1 [])) := by
    have i1 : columns.idxOf "Experiment time".toList = 1 := by
      rw [hcons, List.idxOf_cons_ne _ (by decide), List.idxOf_cons_self]
    have := hd2.1 (by rw [hcons]; simp)
    simp only [i1] at this
    exact this
  have hdata : ∀ j q, qs[j]? = some q → getKw q d.dict = some (valuesOf q (rows.map (·.getD (j + 2) [])) vs) := by
    intro j q hj
    have hmem : q ∈ qs := List.mem_of_getElem? hj
    have q1 : q ≠ "Experiment time".toList := by
      rintro rfl
      have h := hnd
      rw [hcons, List.nodup_cons, List.nodup_cons] at h
      exact h.2.1 hmem
    have := (hd3 q q1).1 (by rw [hcons]; exact List.mem_cons_of_mem _ (List.mem_cons_of_mem _ hmem))
    simp only [hidx j q hj] at this
    exact this
  have hTlen : T.length = rows.length := by
    have := congrArg List.length hT
    simpa using this.symm
  have hscale : meanStep T = some (innerStep T) := meanStep_eq (by omega)
  have hnum : numbers num (rows.map (·.getD 1 [])) = .ok T := times_read (by rw [List.map_map]; exact hT)
  obtain ⟨sig, hsig⟩ : ∃ sig : Text → Signal, sig = fun q => ⟨q, unitsOf q, date, time, (getKw q d.dict).getD (.cells []), (rows.map (·.getD 1 [])).length, some (innerStep T), 0, m⟩ := ⟨_, rfl⟩
  have hdict : ∀ q ∈ qs, dictionary num m d q = .ok (sig q) := by
    intro q hqm
    obtain ⟨j, hj, hjq⟩ := List.getElem_of_mem hqm
    have hg := hdata j q (by rw [List.getElem?_eq_getElem hj, hjq])
    rw [dictionary_ok hg htimes hnum (by rw [List.length_map]; omega) hdate htime hscale, hsig]
    dsimp only
    rw [hg, Option.getD_some]
  have hlines : fileLines (linesText (joinWith [','] columns :: rowLines rows)) = [joinWith [','] columns ++ ['\n']] ++ rows.map fun r => joinWith [','] r ++ ['\n'] := by
    rw [fileLines_lines, List.map_cons, Verif.Props.Protochips.map_rows]
    · rfl
    · intro l hl
      rcases List.mem_cons.1 hl with rfl | hl
      · exact hline
      · unfold rowLines at hl
        obtain ⟨r, hr, rfl⟩ := List.mem_map.1 hl
        exact ⟨fun hm => (row_char (hrows r hr) _ hm).2.1 rfl, fun hm => (row_char (hrows r hr) _ hm).2.2 rfl⟩
  refine ⟨qs.map sig, ?_, by simp, ?_⟩
  · unfold Verif.Impulse.read
    dsimp only
    have e1 : ([joinWith [','] columns ++ ['\n']] ++ rows.map fun r => joinWith [','] r ++ ['\n']).headD [] = joinWith [','] columns ++ ['\n'] := rfl
    have e2 : columns.drop 2 = qs := by rw [hcons]; rfl
    rw [hlines, e1, hread, if_pos, hm1, e2]
    · simp only [bind, Except.bind]
      unfold readData
      rw [hfield, hg]
      simp only [bind, Except.bind]
      rw [hd1]
      dsimp only
      exact Verif.Props.Protochips.mapM_ok hdict
    · refine ⟨by rw [hcons]; exact List.mem_cons_self .., ?_⟩
      have : qs.length ≠ 0 := fun e => hq.some (List.length_eq_zero_iff.1 e)
      omega
  · intro j q hj
    refine ⟨sig q, by rw [List.getElem?_map, hj]; rfl, ?_⟩
    have hg := hdata j q hj
    rw [hsig]
    refine ⟨rfl, ⟨fun u hu => units_read hu, fun h => units_none h⟩, ?_, ?_, rfl, rfl, by simp, rfl, rfl, hm2, hm3⟩
    · intro hne
      dsimp only
      rw [hg]
      unfold valuesOf
      rw [if_neg hne]
      rfl
    · intro he
      have hmem : "MixValve".toList ∈ columns := by
        rw [hcons, ← he]
        exact List.mem_cons_of_mem _ (List.mem_cons_of_mem _ (List.mem_of_getElem? hj))
      obtain ⟨_, v2, v3⟩ := hvs hmem
      refine ⟨vs, ?_, v2, ?_⟩
      · dsimp only
        rw [hg]
        unfold valuesOf
        rw [if_pos he]
        rfl
      · intro i r hr a b c hp
        rw [← he, hidx j q hj] at v3
        exact v3 i r hr a b c hp

/-- **C94.** The number of the valve tells its positions from −2 to 7. -/
theorem C94_valve {t t' : Text} {a b c a' b' c' v : Int} (h : Positions t a b c) (h' : Positions t' a' b' c') (hb : -2 ≤ b ∧ b ≤ 7) (hc : -2 ≤ c ∧ c ≤ 7) (hb' : -2 ≤ b' ∧ b' ≤ 7) (hc' : -2 ≤ c' ∧ c' ≤ 7)
    (h1 : valve t = .ok v) (h2 : valve t' = .ok v) : a = a' ∧ b = b' ∧ c = c' := by
  rw [valve_read h] at h1
  rw [valve_read h'] at h2
  have e1 := Except.ok.inj h1
  have e2 := Except.ok.inj h2
  omega

/-- **C94.** The metadata file is the one with the same beginning of the name. -/
theorem C94_path {base suffix : Text} (hs : '_' ∉ suffix) (hb : '\\' ∉ base) : metaPath (base ++ '_' :: suffix) = base ++ "_Metadata.log".toList := by
  have hj : joinWith ['_'] (splitChar '_' base) = base := by
    clear hb
    induction base with
    | nil => rfl
    | cons c t ih =>
      rw [splitChar]
      have hne := splitChar_ne_nil '_' t
      cases e : splitChar '_' t with
      | nil => exact absurd e hne
      | cons p ps =>
        rw [e] at ih
        by_cases hc : c = '_'
        · rw [if_pos hc, joinWith, ih, hc]
          rfl
        · rw [if_neg hc]
          dsimp only
          cases ps with
          | nil =>
            rw [joinWith] at ih ⊢
            rw [ih]
          | cons q qs =>
            rw [joinWith] at ih ⊢
            rw [← ih]
            rfl
  unfold metaPath
  rw [Verif.Empad.splitChar_cat, splitChar_none hs, List.dropLast_concat, hj, List.map_append]
  congr 1
  conv_rhs => rw [← List.map_id base]
  apply List.map_congr_left
  intro c hc
  rw [if_neg]
  · rfl
  · rintro rfl
    exact hb hc

/-- **C94.** Equal time steps: the scale is the time step. -/
theorem C94_steps {entries : List (Text × Text)} {notes : List Text} {date time : Text} {rows : List (List Text)} {T : List Rat} {j : Nat} {q : Text} {s : Signal}
    (h : SignalOk entries notes date time rows T j q s) (h4 : 4 ≤ T.length) {t0 dt : Rat} (hT : T = (List.range T.length).map fun (k : Nat) => t0 + dt * (k : Rat)) : s.scale = some dt := by
  rw [h.scale]
  congr 1
  have hg : ∀ k, k < T.length → T.getD k 0 = t0 + dt * (k : Rat) := by
    intro k hk
    rw [hT, List.getD_eq_getElem?_getD, List.getElem?_map, List.getElem?_range hk]
    rfl
  unfold innerStep
  rw [hg _ (by omega), hg 1 (by omega)]
  obtain ⟨m, hm⟩ : ∃ m, T.length = m + 4 := ⟨T.length - 4, by omega⟩
  rw [hm]
  have e1 : m + 4 - 2 = m + 2 := by omega
  have e2 : m + 4 - 3 = m + 1 := by omega
  rw [e1, e2]
  have hne : ((m + 1 : Nat) : Rat) ≠ 0 := by exact_mod_cast Nat.succ_ne_zero m
  rw [div_eq_iff hne]
  push_cast
  ring

/-- **C94.** Files with other names, and tables without time stamps, are rejected. -/
theorem C94_rejects {filename file : Text} {rows : Option (List (List Text))}
    (h : ¬ "_Synchronized data".toList <:+: filename ∧ ¬ "raw".toList <:+: filename) : Verif.Impulse.read num filename file rows = .error .ioError := by
  unfold Verif.Impulse.read
  dsimp only
  split
  · have : readMeta filename rows = .error .ioError := by
      unfold readMeta
      rw [if_neg]
      rw [Bool.or_eq_true, contains_iff, contains_iff]
      rintro (e | e)
      · exact h.1 e
      · exact h.2 e
    rw [this]
    rfl
  · rfl

/-! ### Where the code falls short -/

/-- Without the metadata file, nothing is read, although the code only warns about it. -/
theorem C94_fails_nofile {filename file : Text} {sigs : List Signal} (h : Verif.Impulse.read num filename file none = .ok sigs) : False := by
  unfold Verif.Impulse.read at h
  dsimp only at h
  split at h
  · next hc =>
    unfold readMeta at h
    split at h
    · simp only [bind, Except.bind] at h
      split at h
      · exact absurd h (by simp)
      · next d hd =>
        have hno : ∀ q s, dictionary num ⟨[], []⟩ d q ≠ .ok s := by
          intro q s
          unfold dictionary
          have e : ∀ k : Text, getKw k ([] : List (Text × Text)) = none := fun _ => rfl
          simp only [e, bind, Except.bind, need]
          split
          · simp
          · split
            · simp
            · split
              · simp
              · split <;> simp
        obtain ⟨q, l, hl⟩ : ∃ q l, (splitChar ',' (stripBy isSpace ((fileLines file).headD []))).drop 2 = q :: l := by
          cases e : (splitChar ',' (stripBy isSpace ((fileLines file).headD []))).drop 2 with
          | nil =>
            have := congrArg List.length e
            rw [List.length_drop, List.length_nil] at this
            omega
          | cons q l => exact ⟨q, l, rfl⟩
        rw [hl, List.mapM_cons] at h
        cases e : dictionary num ⟨[], []⟩ d q with
        | ok s => exact hno q s e
        | error x =>
          rw [e] at h
          exact absurd h (by simp [bind, Except.bind])
    · exact absurd h (by simp [bind, Except.bind])
  · exact absurd h (by simp)

/-- The time of the first measurement is not used: the axis starts at 0. -/
theorem C94_fails_offset {entries : List (Text × Text)} {notes : List Text} {date time : Text} {rows : List (List Text)} {T : List Rat} {j : Nat} {q : Text} {s : Signal}
    (h : SignalOk entries notes date time rows T j q s) (h0 : T.getD 0 0 ≠ 0) : s.offset ≠ T.getD 0 0 := by
  rw [h.offset]
  exact fun e => h0 e.symm

/-- A value with a comma in the metadata file is cut at the comma. -/
theorem C94_fails_comma {kw : List (Text × Text)} {k v w : Text} {more : List Text} (hk : k ≠ "Live notes".toList) : metaRow (kw, none) (k :: v :: w :: more) = .ok (setKw (key k) (stripBy isSpace v) kw, none) := by
  unfold metaRow
  dsimp only
  rw [if_neg hk]
  rfl

/-- A blank line in the metadata file is an error. -/
theorem C94_fails_blank {st : List (Text × Text) × Option (List Text)} : metaRow st [] = .error .indexError := by
  obtain ⟨kw, notes⟩ := st
  cases notes <;> rfl

/-- Beyond 7, two positions of the valve have the same number. -/
theorem C94_fails_valve : valve "0;0;8".toList = valve "0;1;-2".toList := by decide +kernel

def exampleNum (t : Text) : Option Rat := if t = "1".toList then some 1 else if t = "2".toList then some 2 else if t = "3".toList then some 3 else if t = "4".toList then some 4 else none
def exampleMeta : List (Text × Text) := [("Experiment date".toList, " 2021-07-27".toList), ("Experiment time".toList, " 13:57:41".toList), ("Nano reactor".toList, "P.RA003".toList)]
def exampleRows : List (List Text) := ["1", "2", "3", "4"].map fun t => ["13:57".toList, t.toList, "20".toList, "30".toList]
def exampleFile (columns : String) (rows : List (List Text)) : Text := linesText (columns.toList :: rowLines rows)

/-- The data of the signals. -/
def dataOf (r : Py (List Signal)) : Option (List Values) := match r with
  | .ok l => some (l.map (·.data))
  | .error _ => none

/-- Two columns whose names differ in parentheses only: the second one has the values of the first one. -/
theorem C94_fails_names : dataOf (Verif.Impulse.read exampleNum "x_raw.csv".toList (exampleFile "TimeStamp,Experiment time,Flow 1,Flow (1)" exampleRows) (some (metaRows exampleMeta []))) =
    some [.cells ["20".toList, "20".toList, "20".toList, "20".toList], .cells ["20".toList, "20".toList, "20".toList, "20".toList]] := by decide +kernel

/-- A name of a column with another character, such as a minus sign, cannot be read, although the file is a valid table. -/
theorem C94_fails_char : Verif.Impulse.read exampleNum "x_raw.csv".toList (exampleFile "TimeStamp,Experiment time,Set-point,Flow" exampleRows) (some (metaRows exampleMeta [])) = .error .valueError := by rfl

/-- A log of one measurement cannot be read. -/
theorem C94_fails_single : Verif.Impulse.read exampleNum "x_raw.csv".toList (exampleFile "TimeStamp,Experiment time,Setpoint,Flow" (exampleRows.take 1)) (some (metaRows exampleMeta [])) = .error .indexError := by rfl

/-- Any path with `raw` in the name of a folder passes the check of the name. -/
theorem C94_fails_folder {p q : Text} : readMeta (p ++ "raw".toList ++ q) none = .ok ⟨[], []⟩ := by
  unfold readMeta
  rw [if_pos]
  rw [Bool.or_eq_true, contains_iff, contains_iff]
  exact Or.inr ⟨p, q, rfl⟩

/-! ### Examples -/

example : ColumnsOk ["Temperature (degC)".toList, "MixValve".toList, "%Flow #1".toList] := by
  refine ⟨by decide, ?_, by decide +kernel, by decide⟩
  intro q hq
  simp only [List.mem_cons, List.not_mem_nil, or_false] at hq
  rcases hq with rfl | rfl | rfl
  · exact ⟨by decide, by decide, by decide⟩
  · exact ⟨by decide, by decide, by decide⟩
  · exact ⟨by decide, by decide, by decide⟩
example : MetaOk exampleMeta "2021-07-27".toList "13:57:41".toList :=
  ⟨by decide +kernel, by decide +kernel, ⟨" 2021-07-27".toList, by decide +kernel, by decide +kernel⟩, ⟨" 13:57:41".toList, by decide +kernel, by decide +kernel⟩⟩
example : Positions "1;-2;0".toList 1 (-2) 0 := ⟨"1".toList, "-2".toList, "0".toList, rfl, by decide, by decide +kernel, by decide +kernel, by decide +kernel⟩
example : UnitsOf "Temperature (degC)".toList "degC".toList := ⟨"Temperature".toList, rfl, by decide, by decide, by decide⟩
example : ∀ r ∈ exampleRows, Row 4 r := by
  intro r hr
  simp only [exampleRows, List.mem_map, List.mem_cons, List.not_mem_nil, or_false] at hr
  obtain ⟨t, rfl | rfl | rfl | rfl, rfl⟩ := hr
  · exact ⟨by decide, by decide, by decide, by decide, by decide⟩
  · exact ⟨by decide, by decide, by decide, by decide, by decide⟩
  · exact ⟨by decide, by decide, by decide, by decide, by decide⟩
  · exact ⟨by decide, by decide, by decide, by decide, by decide⟩

end Verif.Props.Impulse
