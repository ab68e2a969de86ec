import Verif.Lemmas.Protochips
import Mathlib.Tactic.FieldSimp
/-! C93: log files of Protochips holders. -/
namespace Verif.Props.Protochips
open Verif.Genfromtxt Verif.Protochips Verif.Spec.Protochips Verif.Spec.Tables Verif.Lemmas.Genfromtxt Verif.Lemmas.Protochips

variable {num : Text → Option Rat} {dateOf : Text → Option (Text × Text)}

theorem name_time : Name "Time".toList := ⟨by decide, by decide, by decide, by decide⟩
theorem name_notes : Name "Notes".toList := ⟨by decide, by decide, by decide, by decide⟩

theorem columns_read {b : Bool} {cols : List (Bool × Text)} (hn : ∀ c ∈ cols, Name c.2) :
    columnNames ("Time".toList ++ spaced ((b, "Notes".toList) :: cols) ++ ['\n']) = "Time".toList :: "Notes".toList :: cols.map Prod.snd := by
  have hall : ∀ e ∈ (b, "Notes".toList) :: cols, Name e.2 := by
    intro e he
    rcases List.mem_cons.1 he with rfl | he
    · exact name_notes
    · exact hn e he
  have h1 : commaSpace ("Time".toList ++ spaced ((b, "Notes".toList) :: cols) ++ ['\n']) = joinWith [','] ("Time".toList :: ((b, "Notes".toList) :: cols).map Prod.snd) ++ ['\n'] := by
    rw [List.append_assoc, cs_skip (by decide), cs_spaced _ _ (by decide), ← List.append_assoc, flat_join]
    intro e he
    exact ⟨name_no (hall e he) (by decide) (by decide), (hall e he).ne, (hall e he).head⟩
  have hcells : ∀ p ∈ "Time".toList :: ((b, "Notes".toList) :: cols).map Prod.snd, Name p := by
    intro p hp
    rcases List.mem_cons.1 hp with rfl | hp
    · exact name_time
    · obtain ⟨e, he, rfl⟩ := List.mem_map.1 hp
      exact hall e he
  have h2 : (joinWith [','] ("Time".toList :: ((b, "Notes".toList) :: cols).map Prod.snd) ++ ['\n']).filter (· ≠ '\n') = joinWith [','] ("Time".toList :: ((b, "Notes".toList) :: cols).map Prod.snd) := by
    have e : (['\n'] : Text).filter (· ≠ '\n') = [] := rfl
    rw [List.filter_append, e, List.append_nil, List.filter_eq_self]
    intro c hc
    rcases mem_join hc with hc | ⟨p, hp, hc⟩
    · rw [List.mem_singleton.1 hc]
      decide
    · have := name_no (hcells p hp) (c := '\n') (by decide) (by decide)
      simp only [ne_eq, decide_not, Bool.not_eq_eq_eq_not, Bool.not_true, decide_eq_false_iff_not]
      rintro rfl
      exact this hc
  unfold columnNames
  rw [h1, h2, splitChar_join (by simp) fun p hp => name_no (hcells p hp) (by decide) (by decide)]
  rfl

/-- What is returned for a quantity. -/
structure SignalOk (ps : List Param) (date time units : Text) (user : Option Text) (un : Text → Text) (rows : List (List Text)) (T : List Rat) (j : Nat) (q : Text) (s : Signal) : Prop where
  data : s.data = rows.map (·.getD (j + 2) [])
  title : s.title = q ++ " (".toList ++ un q ++ ")".toList
  quantity : ∀ w, LastWord q w → s.quantity = w ++ " (".toList ++ un q ++ ")".toList
  date : s.date = date
  time : s.time = time
  size : s.size = rows.length
  scale : s.scale = if units = "Milliseconds".toList then innerStep T / 1000 else innerStep T
  offset : s.offset = 0
  user : s.user = user
  calibration : (∀ c, Says ps IsCalibration c → s.calibration = some c) ∧ ((∀ p ∈ ps, ¬ IsCalibration p.name) → s.calibration = none)
  notes : s.notes = (rows.map fun r => (r.getD 0 [], r.getD 1 [])).filter fun e => e.2 ≠ []

theorem get_dict {cols : List (Bool × Text)} {ps : List Param} {date time units : Text} (hd : HeadOk dateOf cols ps date time units) {rows : List (List Text)} {head : List Text}
    (hrows : ∀ r ∈ rows, Row (cols.length + 2) r) (hne : rows ≠ []) {skip : Nat} (hskip : head.length = skip) :
    ∃ d, readData (head ++ rows.map fun r => joinWith [','] r ++ ['\n']) skip ("Time".toList :: "Notes".toList :: cols.map Prod.snd) = .ok d ∧ d.times = some (rows.map (·.getD 0 [])) ∧
      d.notes = some (rows.map (·.getD 1 [])) ∧ ∀ j q, (cols.map Prod.snd)[j]? = some q → getKw q d.dict = some (rows.map (·.getD (j + 2) [])) := by
  obtain ⟨columns, hcolumns⟩ : ∃ columns, columns = "Time".toList :: "Notes".toList :: cols.map Prod.snd := ⟨_, rfl⟩
  rw [← hcolumns]
  have hnd : columns.Nodup := by rw [hcolumns]; exact hd.distinct
  have hnames : ∀ n ∈ columns, Name n := by
    intro n hn
    rw [hcolumns] at hn
    rcases List.mem_cons.1 hn with rfl | hn
    · exact name_time
    rcases List.mem_cons.1 hn with rfl | hn
    · exact name_notes
    · obtain ⟨e, he, rfl⟩ := List.mem_map.1 hn
      exact hd.names e he
  have hund : (columns.map under).Nodup := by
    refine List.Nodup.map_on ?_ hnd
    intro a ha b hb e
    exact under_inj (name_no (hnames a ha) (by decide) (by decide)) (name_no (hnames b hb) (by decide) (by decide)) e
  have hlen : columns.length = cols.length + 2 := by rw [hcolumns]; simp
  have hg : genfromtxt (head ++ rows.map fun r => joinWith [','] r ++ ['\n']) skip (columns.map under) = .ok ⟨columns.map under, rows⟩ := by
    apply genfromtxt_ok hskip _ hne _ hund
    · intro r hr
      rw [List.length_map, hlen]
      exact hrows r hr
    · intro n hn
      obtain ⟨m, hm, rfl⟩ := List.mem_map.1 hn
      exact under_kept (hnames m hm)
  have hcol : ∀ c ∈ columns, column ⟨columns.map under, rows⟩ (under c) = .ok (rows.map (·.getD (columns.idxOf c) [])) := by
    intro c hc
    have hi := List.idxOf_lt_length_iff.2 hc
    have := column_ok (rows := rows) hund (i := columns.idxOf c) (by rw [List.length_map]; exact hi)
    rw [List.getElem_map, List.getElem_idxOf hi] at this
    exact this
  obtain ⟨d, h1, h2, h3, h4⟩ := fold_columns (t := ⟨columns.map under, rows⟩) (col := fun c => rows.map (·.getD (columns.idxOf c) [])) columns ⟨[], none, none⟩ hnd hcol
  have i0 : columns.idxOf "Time".toList = 0 := by rw [hcolumns]; rfl
  have i1 : columns.idxOf "Notes".toList = 1 := by
    rw [hcolumns, List.idxOf_cons_ne _ (by decide), List.idxOf_cons_self]
  refine ⟨d, ?_, ?_, ?_, ?_⟩
  · unfold readData
    have e : (columns.map fun n => n.map fun c => if c = ' ' then '_' else c) = columns.map under := rfl
    rw [e, hg]
    exact h1
  · have := h3.1 (by rw [hcolumns]; simp)
    rw [this]
    simp only [i0]
  · have := h2.1 (by rw [hcolumns]; simp)
    rw [this]
    simp only [i1]
  · intro j q hq
    have hj : j < (cols.map Prod.snd).length := by
      by_contra hno
      rw [List.getElem?_eq_none (by omega)] at hq
      exact absurd hq (by simp)
    have hmem : q ∈ cols.map Prod.snd := List.mem_of_getElem? hq
    have hnd' := hnd
    rw [hcolumns, List.nodup_cons, List.nodup_cons] at hnd'
    have q1 : q ≠ "Notes".toList := by
      rintro rfl
      exact hnd'.2.1 hmem
    have q2 : q ≠ "Time".toList := by
      rintro rfl
      exact hnd'.1 (List.mem_cons_of_mem _ hmem)
    have := (h4 q q1 q2).1 (by rw [hcolumns]; simp only [List.mem_cons]; exact Or.inr (Or.inr hmem))
    rw [this]
    have hidx : columns.idxOf q = j + 2 := by
      have hlt : j + 2 < columns.length := by
        rw [hlen]
        simp only [List.length_map] at hj
        omega
      have e : columns[j + 2]'hlt = q := by
        have e1 : columns[j + 2]? = some q := by
          rw [hcolumns]
          exact hq
        rw [List.getElem?_eq_getElem hlt] at e1
        exact Option.some.inj e1
      rw [← e, hnd.idxOf_getElem]
    simp only [hidx]

theorem times_read {cells : List Text} {T : List Rat} (h : cells.map num = T.map some) : numbers num cells = .ok T := by
  unfold numbers
  have : ∀ {l : List Text} {T : List Rat}, l.map num = T.map some → (l.mapM fun c => match num c with
      | some r => (Except.ok r : Py Rat)
      | none => .error .typeError) = .ok T := by
    intro l
    induction l with
    | nil =>
      intro T h
      cases T with
      | nil => rfl
      | cons a T => simp at h
    | cons c l ih =>
      intro T h
      cases T with
      | nil => simp at h
      | cons a T =>
        simp only [List.map_cons, List.cons.injEq] at h
        rw [List.mapM_cons, h.1, ih h.2]
        rfl
  exact this h

theorem mapM_ok {α β : Type} {f : α → Py β} {g : α → β} : ∀ {l : List α}, (∀ x ∈ l, f x = .ok (g x)) → l.mapM f = .ok (l.map g)
  | [], _ => rfl
  | a :: l, h => by
    rw [List.mapM_cons, h a (List.mem_cons_self ..), mapM_ok fun x hx => h x (List.mem_cons_of_mem _ hx)]
    rfl

/-- A file whose header is read is read. -/
theorem read_table {b : Bool} {cols : List (Bool × Text)} {ps : List Param} {date time units : Text} (hd : HeadOk dateOf cols ps date time units) {un : Text → Text}
    (hun : ∀ c ∈ cols, Units ps c.2 (un c.2)) {body : List Text} {rows : List (List Text)} (hrows : ∀ r ∈ rows, Row (cols.length + 2) r) (h4 : 4 ≤ rows.length)
    {T : List Rat} (hT : (rows.map fun r => num (r.getD 0 [])) = T.map some) {user : Option Text} {file : Text} {head : List Text}
    (hfile : fileLines file = ("Time".toList ++ spaced ((b, "Notes".toList) :: cols) ++ ['\n']) :: body) (hbody : fileLines file = head ++ rows.map fun r => joinWith [','] r ++ ['\n'])
    (hlen : head.length = 2 + ps.length) (hhead : readHeader dateOf body = .ok ({ ps.foldl st ⟨none, none, none, [], none, 2⟩ with user := some user }, date, time)) :
    ∃ sigs, Verif.Protochips.read num dateOf file = .ok sigs ∧ sigs.length = cols.length ∧ ∀ j q, (cols.map Prod.snd)[j]? = some q → ∃ s, sigs[j]? = some s ∧
      SignalOk ps date time units user un rows T j q s := by
  obtain ⟨H, hH⟩ : ∃ H : Header, H = { ps.foldl st ⟨none, none, none, [], none, 2⟩ with user := some user } := ⟨_, rfl⟩
  rw [← hH] at hhead
  have hne : rows ≠ [] := by
    rintro rfl
    simp at h4
  have hlast : H.last = 2 + ps.length := by
    rw [hH]
    exact fold_last ps _
  obtain ⟨d, hd1, hd2, hd3, hd4⟩ := get_dict hd hrows hne (hlen.trans hlast.symm)
  rw [← hbody] at hd1
  have huser : H.user = some user := by rw [hH]
  have hattr : ∀ (k v : Text), Says ps (fun n => IsOther n ∧ key n = k) v → getKw k H.attrs = some v := by
    intro k v hs
    have := fold_says (kind := fun n => IsOther n ∧ key n = k) (f := fun h => getKw k h.attrs) (fun h p => store_attr h p k) ps ⟨none, none, none, [], none, 2⟩ hs.2 (Or.inl hs.1)
    rw [hH]
    exact this
  have hunits : ∀ c ∈ cols, unitsOf H c.2 = .ok (un c.2) := by
    intro c hc
    obtain ⟨w, hw, hs⟩ := hun c hc
    have := hattr _ _ hs
    have hkey : lower (lastWord c.2) = key w := by
      rw [lastWord_of hw]
      unfold lower key
      apply List.map_congr_left
      intro x hx
      rw [if_neg]
      rintro rfl
      exact hw.1 hx
    unfold unitsOf
    rw [hkey, this]
  have htu : getKw "time_units".toList H.attrs = some units := hattr _ _ hd.timeUnits
  have hTlen : T.length = rows.length := by
    have := congrArg List.length hT
    simpa using this.symm
  have hscale : scaleOf units T = .ok (if units = "Milliseconds".toList then innerStep T / 1000 else innerStep T) := by
    unfold scaleOf
    rw [meanStep_eq (by omega)]
    rfl
  have hnum : numbers num (rows.map (·.getD 0 [])) = .ok T := times_read (by rw [List.map_map]; exact hT)
  have hus : (cols.map Prod.snd).mapM (fun q => (unitsOf H q).map fun u => (q, u)) = .ok ((cols.map Prod.snd).map fun q => (q, un q)) := by
    apply mapM_ok
    intro q hq
    obtain ⟨c, hc, rfl⟩ := List.mem_map.1 hq
    rw [hunits c hc]
    rfl
  obtain ⟨sig, hsig⟩ : ∃ sig : Text → Signal, sig = fun q => ⟨q ++ " (".toList ++ un q ++ ")".toList, lastWord q ++ " (".toList ++ un q ++ ")".toList, date, time, (getKw q d.dict).getD [],
      rows.length, (if units = "Milliseconds".toList then innerStep T / 1000 else innerStep T), 0, user, H.calibration, (cols.map Prod.snd).map fun q => (q, un q),
      ((rows.map (·.getD 0 [])).zip (rows.map (·.getD 1 []))).filter fun e => e.2 ≠ []⟩ := ⟨_, rfl⟩
  have hdict : ∀ q ∈ cols.map Prod.snd, orIOError (dictionary num ("Time".toList :: "Notes".toList :: cols.map Prod.snd) H date time d q) = .ok (sig q) := by
    intro q hq
    obtain ⟨j, hj, hjq⟩ := List.getElem_of_mem hq
    have hg := hd4 j q (by rw [List.getElem?_eq_getElem hj, hjq])
    obtain ⟨c, hc, hcq⟩ := List.mem_map.1 hq
    have hu := hunits c hc
    rw [hcq] at hu
    have hdrop : ("Time".toList :: "Notes".toList :: cols.map Prod.snd).drop 2 = cols.map Prod.snd := rfl
    unfold dictionary
    rw [hg, hd2, hd3, htu, huser, hdrop, hus]
    simp only [bind, Except.bind, need, hnum, hscale, hu, orIOError]
    rw [hsig]
    dsimp only
    rw [hg, List.length_map, Option.getD_some]
  refine ⟨(cols.map Prod.snd).map sig, ?_, by simp, ?_⟩
  · unfold Verif.Protochips.read
    have hcn : columnNames ((fileLines file).headD []) = "Time".toList :: "Notes".toList :: cols.map Prod.snd := by
      rw [hfile]
      exact columns_read hd.names
    have htail : (fileLines file).tail = body := by rw [hfile]; rfl
    dsimp only
    rw [hcn, htail, hhead]
    rw [if_pos]
    · simp only [bind, Except.bind]
      rw [hlast] at hd1
      rw [hlast, hd1]
      dsimp only
      exact mapM_ok hdict
    · refine ⟨by simp, by simp, ?_⟩
      have : cols.length ≠ 0 := by
        intro e
        exact hd.some (List.length_eq_zero_iff.1 e)
      simp only [List.length_cons, List.length_map]
      omega
  · intro j q hq
    refine ⟨sig q, ?_, ?_⟩
    · rw [List.getElem?_map, hq]
      rfl
    · have hg := hd4 j q hq
      rw [hsig]
      refine ⟨by dsimp only; rw [hg]; rfl, rfl, ?_, rfl, rfl, rfl, rfl, rfl, rfl, ⟨?_, ?_⟩, ?_⟩
      · intro w hw
        dsimp only
        rw [lastWord_of hw]
      · intro c hc
        dsimp only
        rw [hH]
        exact fold_says (f := fun h => h.calibration) store_cal ps _ hc.2 (Or.inl hc.1)
      · intro hno
        dsimp only
        rw [hH]
        exact fold_silent (f := fun h => h.calibration) store_cal ps _ hno
      · dsimp only
        congr 1
        rw [List.zip_map']

theorem read_head {ps : List Param} {date time : Text} (hps : ∀ p ∈ ps, ParamOk p ∧ ¬ IsUser p.name) (hw : ∃ d t, Says ps IsDate d ∧ Says ps IsTime t ∧ dateOf (d ++ t) = some (date, time))
    {tail : List Text} {user : Option Text} (htail : ∀ (ps : List Param) (p : Param) (h : Header), (∀ q ∈ p :: ps, ParamOk q ∧ ¬ IsUser q.name) →
      loop h p.name p.value ((ps.map fun q => paramLine q ++ ['\n']) ++ tail) = { (p :: ps).foldl st h with user := some user }) :
    readHeader dateOf ((ps.map fun q => paramLine q ++ ['\n']) ++ tail) = .ok ({ ps.foldl st ⟨none, none, none, [], none, 2⟩ with user := some user }, date, time) := by
  obtain ⟨d, t, hd, ht, hdt⟩ := hw
  have e1 := fold_says (f := fun h => h.date) store_date ps ⟨none, none, none, [], none, 2⟩ hd.2 (Or.inl hd.1)
  have e2 := fold_says (f := fun h => h.time) store_time ps ⟨none, none, none, [], none, 2⟩ ht.2 (Or.inl ht.1)
  cases ps with
  | nil =>
    obtain ⟨⟨p, hp, _⟩, _⟩ := hd
    simp at hp
  | cons p ps =>
    unfold readHeader
    rw [List.map_cons, List.cons_append, List.headD_cons, parse_param (hps p (List.mem_cons_self ..)).1]
    dsimp only
    rw [List.tail_cons, htail ps p _ hps]
    dsimp only
    rw [e1, e2]
    dsimp only
    rw [hdt]

theorem lines_ok {b : Bool} {cols : List (Bool × Text)} {ps : List Param} {date time units : Text} (hd : HeadOk dateOf cols ps date time units) {extra : List Text} (hextra : ∀ l ∈ extra, Line l)
    {rows : List (List Text)} {k : Nat} (hrows : ∀ r ∈ rows, Row k r) : ∀ l ∈ headLines b cols ps ++ extra ++ rowLines rows, '\n' ∉ l ∧ '\r' ∉ l := by
  intro l hl
  rcases List.mem_append.1 hl with hl | hl
  · rcases List.mem_append.1 hl with hl | hl
    · unfold headLines at hl
      rcases List.mem_cons.1 hl with rfl | hl
      · have key : ∀ x : Char, x.isAlphanum = false → x ≠ ' ' → x ≠ ',' → x ∉ "Time".toList ++ spaced ((b, "Notes".toList) :: cols) := by
          intro x h1 h2 h3 hm
          rcases List.mem_append.1 hm with hm | hm
          · exact name_no name_time h1 h2 hm
          · unfold spaced at hm
            obtain ⟨e, he, hx⟩ := List.mem_flatMap.1 hm
            rcases List.mem_cons.1 hx with hx | hx
            · exact h3 hx
            · rcases List.mem_append.1 hx with hx | hx
              · split at hx
                · exact h2 (List.mem_singleton.1 hx)
                · simp at hx
              · rcases List.mem_cons.1 he with rfl | he
                · exact name_no name_notes h1 h2 hx
                · exact name_no (hd.names e he) h1 h2 hx
        exact ⟨key _ (by decide) (by decide) (by decide), key _ (by decide) (by decide) (by decide)⟩
      · obtain ⟨p, hp, rfl⟩ := List.mem_map.1 hl
        exact (hd.params p hp).1.line
    · exact hextra l hl
  · unfold rowLines at hl
    obtain ⟨r, hr, rfl⟩ := List.mem_map.1 hl
    exact ⟨fun hm => (row_char (hrows r hr) _ hm).2.1 rfl, fun hm => (row_char (hrows r hr) _ hm).2.2 rfl⟩

theorem map_rows (rows : List (List Text)) : (rowLines rows).map (· ++ ['\n']) = rows.map fun r => joinWith [','] r ++ ['\n'] := by
  unfold rowLines
  rw [List.map_map]
  rfl

/-- **C93.** A log whose header ends with the line of the user is read completely: one signal per column after the time and the notes, with all its cells in order, under its name and with the units of its
kind of quantity; date, time, user, calibration and notes are those of the file. -/
theorem C93_loads_partial {b : Bool} {cols : List (Bool × Text)} {ps : List Param} {date time units : Text} (hd : HeadOk dateOf cols ps date time units) {un : Text → Text}
    (hun : ∀ c ∈ cols, Units ps c.2 (un c.2)) {u : Param} (hu : ParamOk u) (huser : IsUser u.name) {rows : List (List Text)} (hrows : ∀ r ∈ rows, Row (cols.length + 2) r) (h4 : 4 ≤ rows.length)
    {T : List Rat} (hT : (rows.map fun r => num (r.getD 0 [])) = T.map some) :
    ∃ sigs, Verif.Protochips.read num dateOf (linesText (headLines b cols ps ++ [paramLine u] ++ rowLines rows)) = .ok sigs ∧ sigs.length = cols.length ∧
      ∀ j q, (cols.map Prod.snd)[j]? = some q → ∃ s, sigs[j]? = some s ∧ SignalOk ps date time units (some u.value) un rows T j q s := by
  have hlines := fileLines_lines (lines_ok (b := b) hd (extra := [paramLine u]) (by intro l hl; rw [List.mem_singleton.1 hl]; exact hu.line) hrows)
  refine read_table (b := b) (body := (ps.map fun q => paramLine q ++ ['\n']) ++ (paramLine u ++ ['\n']) :: rows.map fun r => joinWith [','] r ++ ['\n'])
    (head := ("Time".toList ++ spaced ((b, "Notes".toList) :: cols) ++ ['\n']) :: ((ps.map fun q => paramLine q ++ ['\n']) ++ [paramLine u ++ ['\n']])) hd hun hrows h4 hT ?_ ?_ ?_ ?_
  · rw [hlines, List.map_append, List.map_append, map_rows]
    simp [headLines, Function.comp_def]
  · rw [hlines, List.map_append, List.map_append, map_rows]
    simp [headLines, Function.comp_def]
  · simp
    omega
  · exact read_head hd.params hd.when_ fun ps p h hp => loop_user hu huser _ ps p h hp

/-- **C93.** Measurements at equal time steps (in milliseconds): the scale is the time step in seconds. -/
theorem C93_steps {ps : List Param} {date time : Text} {user : Option Text} {un : Text → Text} {rows : List (List Text)} {T : List Rat} {j : Nat} {q : Text} {s : Signal}
    (h : SignalOk ps date time "Milliseconds".toList user un rows T j q s) (h4 : 4 ≤ T.length) {t0 dt : Rat} (hT : T = (List.range T.length).map fun (k : Nat) => t0 + dt * (k : Rat)) : s.scale = dt / 1000 := by
  rw [h.scale, if_pos rfl]
  congr 1
  have hg : ∀ k, k < T.length → T.getD k 0 = t0 + dt * (k : Rat) := by
    intro k hk
    rw [hT, List.getD_eq_getElem?_getD, List.getElem?_map, List.getElem?_range hk]
    rfl
  unfold innerStep
  rw [hg _ (by omega), hg 1 (by omega)]
  obtain ⟨m, hm⟩ : ∃ m, T.length = m + 4 := ⟨T.length - 4, by omega⟩
  rw [hm]
  have e1 : m + 4 - 2 = m + 2 := by omega
  have e2 : m + 4 - 3 = m + 1 := by omega
  rw [e1, e2]
  have hne : ((m + 1 : Nat) : Rat) ≠ 0 := by exact_mod_cast Nat.succ_ne_zero m
  rw [div_eq_iff hne]
  push_cast
  ring

/-- **C93.** Other files are rejected. -/
theorem C93_rejects {file : Text} (h : "Time".toList ∉ columnNames ((fileLines file).headD []) ∨ "Notes".toList ∉ columnNames ((fileLines file).headD [])) :
    Verif.Protochips.read num dateOf file = .error .ioError := by
  unfold Verif.Protochips.read
  dsimp only
  rw [if_neg]
  rintro ⟨h1, h2, _⟩
  rcases h with h | h
  · exact h h1
  · exact h h2

/-! ### Where the code falls short -/

/-- Without the line of the user, the first measurement is lost: the signals hold the other rows only. -/
theorem C93_fails_user {b : Bool} {cols : List (Bool × Text)} {ps : List Param} {date time units : Text} (hd : HeadOk dateOf cols ps date time units) {un : Text → Text}
    (hun : ∀ c ∈ cols, Units ps c.2 (un c.2)) {t : Text} {others : List Text} {rows : List (List Text)} (hfirst : Row (cols.length + 2) (t :: [] :: others))
    (hrows : ∀ r ∈ rows, Row (cols.length + 2) r) (h4 : 4 ≤ rows.length) {T : List Rat} (hT : (rows.map fun r => num (r.getD 0 [])) = T.map some) :
    ∃ sigs, Verif.Protochips.read num dateOf (linesText (headLines b cols ps ++ [] ++ rowLines ((t :: [] :: others) :: rows))) = .ok sigs ∧ sigs.length = cols.length ∧
      ∀ j q, (cols.map Prod.snd)[j]? = some q → ∃ s, sigs[j]? = some s ∧ SignalOk ps date time units none un rows T j q s := by
  have hall : ∀ r ∈ (t :: [] :: others) :: rows, Row (cols.length + 2) r := by
    intro r hr
    rcases List.mem_cons.1 hr with rfl | hr
    · exact hfirst
    · exact hrows r hr
  have hlines := fileLines_lines (lines_ok (b := b) hd (extra := []) (by simp) hall)
  have hothers : others ≠ [] := by
    rintro rfl
    have := hfirst.length
    have hc : cols.length ≠ 0 := fun e => hd.some (List.length_eq_zero_iff.1 e)
    simp only [List.length_cons, List.length_nil] at this
    omega
  have hparse : parseLine (joinWith [','] (t :: [] :: others) ++ ['\n']) = .error .valueError := by
    have ht : ',' ∉ t := fun hm => (hfirst.char t (by simp) _ hm).1 rfl
    cases others with
    | nil => exact absurd rfl hothers
    | cons o os =>
      have e1 : joinWith [','] (t :: [] :: o :: os) ++ ['\n'] = t ++ (',' :: ',' :: (joinWith [','] (o :: os) ++ ['\n'])) := by simp [joinWith]
      obtain ⟨y, hy⟩ := cs_comma (joinWith [','] (o :: os) ++ ['\n'])
      unfold parseLine
      rw [e1, cs_skip ht, cs_cons (by decide), hy, splitChar_append ht]
      have e2 : splitChar ',' (',' :: y) = [] :: splitChar ',' y := by simp [splitChar]
      rw [e2]
      rfl
  refine read_table (b := b) (body := (ps.map fun q => paramLine q ++ ['\n']) ++ (joinWith [','] (t :: [] :: others) ++ ['\n']) :: rows.map fun r => joinWith [','] r ++ ['\n'])
    (head := ("Time".toList ++ spaced ((b, "Notes".toList) :: cols) ++ ['\n']) :: ((ps.map fun q => paramLine q ++ ['\n']) ++ [joinWith [','] (t :: [] :: others) ++ ['\n']])) hd hun hrows h4 hT ?_ ?_ ?_ ?_
  · rw [hlines, List.map_append, List.map_append, map_rows]
    simp [headLines, Function.comp_def]
  · rw [hlines, List.map_append, List.map_append, map_rows]
    simp [headLines, Function.comp_def]
  · simp
    omega
  · exact read_head hd.params hd.when_ fun ps p h hp => loop_none hparse _ ps p h hp

/-- A value with a comma, such as the name of a user, is cut at the comma. -/
theorem C93_fails_comma {first name a c : Text} (hf : ',' ∉ first) (hn : ',' ∉ name ∧ '=' ∉ name ∧ name ≠ [] ∧ name.head? ≠ some ' ') (ha : ',' ∉ a ∧ ¬ " = ".toList <:+: a) (rest : Text)
    (hl : Line (first ++ ',' :: (name ++ " = ".toList ++ (a ++ ", ".toList ++ c) ++ ',' :: rest))) :
    parseLine (first ++ ',' :: (name ++ " = ".toList ++ (a ++ ", ".toList ++ c) ++ ',' :: rest) ++ ['\n']) = .ok (name, a) := by
  have hp : ParamOk ⟨first, false, name, a, ' ' :: (c ++ ',' :: rest)⟩ := by
    refine ⟨?_, hf, hn, ha⟩
    unfold Line at hl ⊢
    simpa [paramLine] using hl
  have := parse_param hp
  simpa [paramLine] using this

/-- The time of the first measurement is not used: the axis starts at 0. -/
theorem C93_fails_offset {ps : List Param} {date time : Text} {user : Option Text} {un : Text → Text} {rows : List (List Text)} {T : List Rat} {j : Nat} {q : Text} {s : Signal}
    (h : SignalOk ps date time "Milliseconds".toList user un rows T j q s) (h0 : T.getD 0 0 ≠ 0) : s.offset + s.scale * 0 ≠ T.getD 0 0 / 1000 := by
  rw [h.offset]
  intro e
  apply h0
  have : T.getD 0 0 / 1000 = 0 := by rw [← e]; ring
  have h2 : T.getD 0 0 = T.getD 0 0 / 1000 * 1000 := by field_simp
  rw [h2, this]
  ring

/-! ### Examples -/

def exampleNum (t : Text) : Option Rat := if t = "100".toList then some 100 else if t = "200".toList then some 200 else if t = "300".toList then some 300 else if t = "400".toList then some 400 else none
def exampleDate (t : Text) : Option (Text × Text) := if t = "2016.10.1716:59:20.391".toList then some ("2016-10-17".toList, "16:59:20.391000".toList) else none
def exampleParam (n v : String) : Param := ⟨"0".toList, true, n.toList, v.toList, "25".toList⟩
def exampleParams : List Param := [exampleParam "Date (yyyy.mm.dd)" "2016.10.17", exampleParam "Time (hh:mm:ss.ms)" "16:59:20.391", exampleParam "Time units" "Milliseconds",
  exampleParam "Temperature units" "Degrees C"]
def exampleCols : List (Bool × Text) := [(false, "Holder Temperature".toList)]
def exampleRows : List (List Text) := [["100".toList, [], "25".toList], ["200".toList, "hot".toList, "26".toList], ["300".toList, [], "27".toList], ["400".toList, [], "28".toList]]

instance (l : Text) : Decidable (Line l) := by unfold Line; infer_instance
instance (n : Text) : Decidable (IsUser n) := by unfold IsUser; infer_instance
instance (n : Text) : Decidable (IsCalibration n) := by unfold IsCalibration; infer_instance
instance (n : Text) : Decidable (IsDate n) := by unfold IsDate; infer_instance
instance (n : Text) : Decidable (IsTime n) := by unfold IsTime; infer_instance
instance (n : Text) : Decidable (IsOther n) := by unfold IsOther; infer_instance

theorem example_param {n v : String} (h1 : Line (paramLine (exampleParam n v))) (h2 : ',' ∉ n.toList ∧ '=' ∉ n.toList ∧ n.toList ≠ [] ∧ n.toList.head? ≠ some ' ')
    (h3 : ',' ∉ v.toList ∧ ¬ " = ".toList <:+: v.toList) : ParamOk (exampleParam n v) := ⟨h1, by show ',' ∉ "0".toList; decide, h2, h3⟩

example : HeadOk exampleDate exampleCols exampleParams "2016-10-17".toList "16:59:20.391000".toList "Milliseconds".toList := by
  refine ⟨by decide, ?_, by decide, ?_, ⟨"2016.10.17".toList, "16:59:20.391".toList, ⟨by decide +kernel, by decide +kernel⟩, ⟨by decide +kernel, by decide +kernel⟩, by decide +kernel⟩,
    ⟨by decide +kernel, by decide +kernel⟩⟩
  · intro c hc
    rw [List.mem_singleton.1 hc]
    exact ⟨by decide, by decide, by decide, by decide⟩
  · intro p hp
    simp only [exampleParams, List.mem_cons, List.not_mem_nil, or_false] at hp
    rcases hp with rfl | rfl | rfl | rfl
    · exact ⟨example_param (by decide +kernel) (by decide +kernel) (by decide +kernel), by decide +kernel⟩
    · exact ⟨example_param (by decide +kernel) (by decide +kernel) (by decide +kernel), by decide +kernel⟩
    · exact ⟨example_param (by decide +kernel) (by decide +kernel) (by decide +kernel), by decide +kernel⟩
    · exact ⟨example_param (by decide +kernel) (by decide +kernel) (by decide +kernel), by decide +kernel⟩
example : ∀ c ∈ exampleCols, Units exampleParams c.2 "Degrees C".toList := by
  intro c hc
  rw [List.mem_singleton.1 hc]
  exact ⟨"Temperature".toList, ⟨by decide, Or.inr ⟨"Holder".toList, rfl⟩⟩, by decide +kernel, by decide +kernel⟩
example : ParamOk (exampleParam "User agreeing to terms" "eric") ∧ IsUser (exampleParam "User agreeing to terms" "eric").name :=
  ⟨example_param (by decide +kernel) (by decide +kernel) (by decide +kernel), by decide +kernel⟩
example : (∀ r ∈ exampleRows, Row 3 r) ∧ (exampleRows.map fun r => exampleNum (r.getD 0 [])) = [100, 200, 300, 400].map some := by
  refine ⟨?_, by decide +kernel⟩
  intro r hr
  simp only [exampleRows, List.mem_cons, List.not_mem_nil, or_false] at hr
  rcases hr with rfl | rfl | rfl | rfl
  · exact ⟨by decide, by decide, by decide, by decide, by decide⟩
  · exact ⟨by decide, by decide, by decide, by decide, by decide⟩
  · exact ⟨by decide, by decide, by decide, by decide, by decide⟩
  · exact ⟨by decide, by decide, by decide, by decide, by decide⟩

/-- The lines of the header of the examples below. -/
def exampleHead (columns : String) : List Text := columns.toList :: (exampleParams ++ [exampleParam "User" "eric"]).map paramLine

/-- A log of three measurements is rejected. -/
theorem C93_fails_short : Verif.Protochips.read exampleNum exampleDate (linesText (exampleHead "Time, Notes,Holder Temperature" ++ rowLines (exampleRows.take 3))) = .error .ioError := by
  rfl

/-- A name of a column with another character than letters, digits and spaces cannot be read, although the file is a valid table. -/
theorem C93_fails_name : Verif.Protochips.read exampleNum exampleDate (linesText (exampleHead "Time, Notes,Temperature (C)" ++ rowLines exampleRows)) = .error .valueError := by
  rfl

/-- Files with the notes in the last column pass the check of the names of the columns, but are rejected later. -/
theorem C93_fails_order : Verif.Protochips.read exampleNum exampleDate (linesText (exampleHead "Time,Holder Temperature,Notes" ++ rowLines exampleRows)) = .error .ioError := by
  rfl

end Verif.Props.Protochips
