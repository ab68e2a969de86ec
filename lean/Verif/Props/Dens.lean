import Verif.Lemmas.Dens
/-! C92: log files of the DENSsolutions DigiHeater. -/
namespace Verif.Props.Dens
open Verif.Dens Verif.Spec.Dens Verif.Lemmas.Dens
open Verif.Renishaw (fitAxis)
open Verif.Spec.Hamamatsu (deviation)

variable {num : Text → Option Rat} {dateOf : Text → Option (Text × Text)}

theorem digit_cell {c : Char} (h : isDigit c = true) : isSpace c = false ∧ c ≠ '#' := by
  refine ⟨not_space_of_digit h, ?_⟩
  rintro rfl
  exact absurd h (by decide)

theorem clock_cell {e : Entry} {v : Rat} (h : EntryOk num e v) : Cell (clockText e) := by
  have ht : ∀ n, n < 100 → ∀ c ∈ two n, isDigit c = true := by
    intro n hn c hc
    simp only [two, List.mem_cons, List.not_mem_nil, or_false] at hc
    rcases hc with rfl | rfl
    · exact isDigit_digitChar (by omega)
    · exact isDigit_digitChar (by omega)
  refine ⟨by simp [clockText, two], ?_⟩
  intro c hc
  have h1 := h.h
  have h2 := h.m
  have h3 := h.s
  simp only [clockText, List.mem_append, List.mem_cons] at hc
  rcases hc with ((hc | rfl | hc) | rfl | hc) | rfl | hc
  · exact digit_cell (ht _ (by omega) c hc)
  · decide
  · exact digit_cell (ht _ (by omega) c hc)
  · decide
  · exact digit_cell (ht _ (by omega) c hc)
  · decide
  · exact digit_cell (h.frac.2.2 c hc)

theorem cells_ok {e : Entry} {v : Rat} (h : EntryOk num e v) : ∀ t ∈ cells e, Cell t := by
  intro t ht
  unfold cells at ht
  rcases List.mem_cons.1 ht with rfl | ht
  · exact h.cell _ (by simp)
  rcases List.mem_cons.1 ht with rfl | ht
  · exact clock_cell h
  · exact h.cell t (List.mem_cons_of_mem _ ht)

theorem takeWhile_all {p : Char → Bool} : ∀ {s : Text}, (∀ c ∈ s, p c = true) → s.takeWhile p = s
  | [], _ => rfl
  | a :: s, h => by
    rw [List.takeWhile_cons_of_pos (h a (List.mem_cons_self ..)), takeWhile_all fun c hc => h c (List.mem_cons_of_mem _ hc)]

theorem entry_row {e : Entry} {v : Rat} (h : EntryOk num e v) : row num (words ((joinWith ['\t'] (cells e) ++ ['\n']).takeWhile (· ≠ '#'))) = .ok (clockValue e, v) ∧
    words ((joinWith ['\t'] (cells e) ++ ['\n']).takeWhile (· ≠ '#')) ≠ [] := by
  have hc := cells_ok h
  have e1 : (joinWith ['\t'] (cells e) ++ ['\n']).takeWhile (· ≠ '#') = joinWith ['\t'] (cells e) ++ ['\n'] := by
    apply takeWhile_all
    intro c hm
    rcases List.mem_append.1 hm with hm | hm
    · rcases mem_join hm with hm | ⟨p, hp, hm⟩
      · rw [List.mem_singleton.1 hm]
        decide
      · simpa using ((hc p hp).2 c hm).2
    · rw [List.mem_singleton.1 hm]
      decide
  have e2 : words (joinWith ['\t'] (cells e) ++ ['\n']) = cells e := words_join (by decide) (by simp; decide) fun p hp => ⟨(hc p hp).1, fun c hm => ((hc p hp).2 c hm).1⟩
  rw [e1, e2]
  refine ⟨?_, by simp [cells]⟩
  unfold row cells
  dsimp only
  unfold cnvTime
  rw [clock_text h]
  dsimp only
  rw [h.value]

theorem cell_line {t : Text} (h : Cell t) : Line t := by
  constructor
  · intro hm
    exact absurd (h.2 _ hm).1 (by decide)
  · intro hm
    exact absurd (h.2 _ hm).1 (by decide)

theorem entry_line {e : Entry} {v : Rat} (h : EntryOk num e v) : Line (joinWith ['\t'] (cells e)) := by
  constructor
  · intro hm
    rcases mem_join hm with hm | ⟨p, hp, hm⟩
    · exact absurd (List.mem_singleton.1 hm) (by decide)
    · exact (cell_line (cells_ok h p hp)).1 hm
  · intro hm
    rcases mem_join hm with hm | ⟨p, hp, hm⟩
    · exact absurd (List.mem_singleton.1 hm) (by decide)
    · exact (cell_line (cells_ok h p hp)).2 hm

theorem table_rows : ∀ {entries : List Entry} {vs : List Rat}, List.Forall₂ (EntryOk num) entries vs →
    table num ((entries.map fun e => joinWith ['\t'] (cells e)).map (· ++ ['\n'])) = .ok ((entries.map clockValue).zip vs)
  | _, _, .nil => rfl
  | _, _, .cons (a := e) (b := v) (l₁ := es) (l₂ := vs) h hs => by
    have ih := table_rows hs
    unfold table at ih ⊢
    rw [List.map_cons, List.map_cons, List.map_cons, List.filter_cons_of_pos (by simpa using (entry_row h).2), List.mapM_cons, (entry_row h).1, ih]
    rfl

theorem const_ok {blanks : List Text} {date : Text} {consts : List (Text × Text)} {delta d t : Text} {vs : List Rat} (h : HeadOk num dateOf blanks date consts delta d t vs) :
    calibration num (joinWith ['\t'] (consts.map fun c => c.1 ++ '=' :: c.2) ++ ['\n']) = .ok vs := by
  have key : ∀ (cs : List (Text × Text)) (ws : List Rat), cs ≠ [] → (∀ c ∈ cs, '\t' ∉ c.1 ∧ '=' ∉ c.1 ∧ '\t' ∉ c.2 ∧ '=' ∉ c.2) → cs.map (fun c => num c.2) = ws.map some →
      (splitChar '\t' (joinWith ['\t'] (cs.map fun c => c.1 ++ '=' :: c.2) ++ ['\n'])).map (calibValue num) = ws.map .ok := by
    intro cs
    have hval : ∀ (n x : Text) (v : Rat), '=' ∉ n → '=' ∉ x → num x = some v → calibValue num (n ++ '=' :: x) = .ok v := by
      intro n x v hn hx hv
      unfold calibValue
      rw [splitChar_append hn, splitChar_none hx]
      dsimp only
      rw [hv]
    induction cs with
    | nil => intro ws h0; exact absurd rfl h0
    | cons c cs ih =>
      intro ws _ hc hw
      obtain ⟨c1, c2, c3, c4⟩ := hc c (List.mem_cons_self ..)
      cases ws with
      | nil => simp at hw
      | cons w ws =>
        simp only [List.map_cons, List.cons.injEq] at hw
        cases cs with
        | nil =>
          have e : ws = [] := by
            cases ws with
            | nil => rfl
            | cons a b => simp at hw
          subst e
          have hno : '\t' ∉ c.1 ++ '=' :: c.2 ++ ['\n'] := by
            simp [c1, c3]
          rw [List.map_cons, List.map_nil, joinWith, splitChar_none hno, List.append_assoc, List.cons_append, List.map_cons, List.map_nil,
            hval c.1 (c.2 ++ ['\n']) w c2 (by simp [c4]) (by rw [h.space, hw.1])]
          rfl
        | cons c' cs =>
          have hno : '\t' ∉ c.1 ++ '=' :: c.2 := by
            simp [c1, c3]
          have := ih ws (by simp) (fun x hx => hc x (List.mem_cons_of_mem _ hx)) hw.2
          rw [List.map_cons, List.map_cons, joinWith, List.append_assoc, List.append_assoc, List.singleton_append, splitChar_append hno, List.map_cons, hval c.1 c.2 w c2 c4 hw.1]
          rw [List.map_cons] at this
          rw [this]
          rfl
  have h4 := h.four
  have hne : consts ≠ [] := by
    rintro rfl
    simp at h4
  have := key consts vs hne (fun c hc => ⟨(h.name c hc).2.1, (h.name c hc).2.2.1, (h.name c hc).2.2.2.2.1, (h.name c hc).2.2.2.2.2⟩) h.values
  unfold calibration
  rw [mapM_pair this]
  have hl : vs.length = 4 := by
    have := congrArg List.length h.values
    simpa [h4] using this.symm
  simp only [bind, Except.bind]
  rw [if_pos hl]

theorem head_lines {blanks : List Text} {date : Text} {consts : List (Text × Text)} {delta d t : Text} {vs : List Rat} (h : HeadOk num dateOf blanks date consts delta d t vs)
    {entries : List Entry} {temps : List Rat} (hes : List.Forall₂ (EntryOk num) entries temps) : ∀ l ∈ logLines blanks date consts delta entries, '\n' ∉ l ∧ '\r' ∉ l := by
  intro l hl
  unfold logLines at hl
  rcases List.mem_append.1 hl with hl | hl
  · exact (h.blank l hl).1
  rcases List.mem_cons.1 hl with rfl | hl
  · have := h.first.1
    constructor
    · intro hm
      rcases List.mem_append.1 hm with hm | hm
      · exact this.1 hm
      · exact absurd hm (by decide)
    · intro hm
      rcases List.mem_append.1 hm with hm | hm
      · exact this.2 hm
      · exact absurd hm (by decide)
  rcases List.mem_cons.1 hl with rfl | hl
  · have hc : ∀ x, (x = '\n' ∨ x = '\r') → x ∉ joinWith ['\t'] (consts.map fun c => c.1 ++ '=' :: c.2) := by
      intro x hx hm
      rcases mem_join hm with hm | ⟨p, hp, hm⟩
      · rcases hx with rfl | rfl <;> exact absurd (List.mem_singleton.1 hm) (by decide)
      · obtain ⟨c, hc, rfl⟩ := List.mem_map.1 hp
        obtain ⟨⟨a1, a2⟩, _, _, ⟨b1, b2⟩, _⟩ := h.name c hc
        rcases List.mem_append.1 hm with hm | hm
        · rcases hx with rfl | rfl
          · exact a1 hm
          · exact a2 hm
        · rcases List.mem_cons.1 hm with hm | hm
          · rcases hx with rfl | rfl <;> exact absurd hm (by decide)
          · rcases hx with rfl | rfl
            · exact b1 hm
            · exact b2 hm
    exact ⟨hc _ (Or.inl rfl), hc _ (Or.inr rfl)⟩
  rcases List.mem_cons.1 hl with rfl | hl
  · exact h.third
  rcases List.mem_cons.1 hl with rfl | hl
  · decide
  · obtain ⟨e, he, rfl⟩ := List.mem_map.1 hl
    have key : ∀ {es : List Entry} {ts : List Rat}, List.Forall₂ (EntryOk num) es ts → e ∈ es → ∃ v, EntryOk num e v := by
      intro es ts hf
      induction hf with
      | nil => intro he; simp at he
      | cons h1 _ ih =>
        intro he
        rcases List.mem_cons.1 he with rfl | he
        · exact ⟨_, h1⟩
        · exact ih he
    obtain ⟨v, hv⟩ := key hes he
    exact entry_line hv

theorem strip_version {date : Text} (hd : '\t' ∉ date) : splitChar '\t' (date ++ "\tDigiheater 3.1".toList ++ ['\n']) = [date, "Digiheater 3.1\n".toList] := by
  have e : date ++ "\tDigiheater 3.1".toList ++ ['\n'] = date ++ '\t' :: "Digiheater 3.1\n".toList := by simp
  rw [e, splitChar_append hd, splitChar_none (by decide)]

theorem parse_ok {first date version c dl hd d t : Text} {rest : List Text} {cs : List Rat} {rows : List (Rat × Rat)} (hs : splitChar '\t' first = [date, version])
    (hv : stripBy isSpace version = "Digiheater 3.1".toList) (hc : calibration num c = .ok cs) (hdate : dateOf date = some (d, t)) (hh : stripBy isSpace hd = header) (ht : table num rest = .ok rows) :
    parse num dateOf first (c :: dl :: hd :: rest) = logOf rows d t cs version := by
  unfold parse
  rw [hs]
  dsimp only [readline]
  rw [if_neg (by rw [hv]; exact fun e => e rfl), hc]
  simp only [bad]
  rw [hdate]
  dsimp only
  rw [if_neg (by rw [hh]; exact fun e => e rfl), ht]

/-- Reading a log of at least two lines. -/
theorem read_log {blanks : List Text} {date : Text} {consts : List (Text × Text)} {delta d t : Text} {vs : List Rat} (h : HeadOk num dateOf blanks date consts delta d t vs)
    {entries : List Entry} {temps : List Rat} (hes : List.Forall₂ (EntryOk num) entries temps) :
    read num dateOf (linesText (logLines blanks date consts delta entries)) = some (logOf ((entries.map clockValue).zip temps) d t vs "Digiheater 3.1\n".toList) := by
  have hfirst : stripBy isSpace (date ++ "\tDigiheater 3.1".toList ++ ['\n']) ≠ [] := by
    intro e
    have hall : ∀ c ∈ date ++ "\tDigiheater 3.1".toList ++ ['\n'], isSpace c = true := by
      intro c hc
      by_cases hs : isSpace c = true
      · exact hs
      · exfalso
        have : ∀ {s : Text}, c ∈ s → isSpace c ≠ true → stripBy isSpace s ≠ [] := by
          intro s hc hs
          unfold stripBy rstripBy lstripBy
          have h1 : ∀ {s : Text}, c ∈ s → c ∈ s.dropWhile isSpace := by
            intro s
            induction s with
            | nil => intro h; exact h
            | cons a s ih =>
              intro h
              by_cases ha : isSpace a = true
              · rw [List.dropWhile_cons_of_pos ha]
                rcases List.mem_cons.1 h with rfl | h
                · exact absurd ha hs
                · exact ih h
              · rw [List.dropWhile_cons_of_neg ha]
                exact h
          intro e0
          have := h1 (List.mem_reverse.2 (h1 hc))
          have e1 := congrArg List.reverse e0
          rw [List.reverse_reverse, List.reverse_nil] at e1
          rw [e1] at this
          simp at this
        exact this hc hs e
    exact absurd (hall 'D' (by simp)) (by decide)
  have e1 : fileLines (linesText (logLines blanks date consts delta entries)) = blanks.map (· ++ ['\n']) ++ (date ++ "\tDigiheater 3.1".toList ++ ['\n']) ::
      (joinWith ['\t'] (consts.map fun c => c.1 ++ '=' :: c.2) ++ ['\n']) :: (delta ++ ['\n']) ::
      ("sample\ttime\tTset[C]\tTmeas[C]\tRheat[ohm]\tVheat[V]\tIheat[mA]\tPheat [mW]\tc".toList ++ ['\n']) :: (entries.map fun e => joinWith ['\t'] (cells e)).map (· ++ ['\n']) := by
    rw [fileLines_lines (head_lines h hes)]
    unfold logLines
    simp only [List.map_append, List.map_cons]
  have e2 := skip_blanks hfirst ((joinWith ['\t'] (consts.map fun c => c.1 ++ '=' :: c.2) ++ ['\n']) :: (delta ++ ['\n']) ::
      ("sample\ttime\tTset[C]\tTmeas[C]\tRheat[ohm]\tVheat[V]\tIheat[mA]\tPheat [mW]\tc".toList ++ ['\n']) :: (entries.map fun e => joinWith ['\t'] (cells e)).map (· ++ ['\n']))
      (bs := blanks.map (· ++ ['\n'])) (by
        intro b hb c hc
        obtain ⟨x, hx, rfl⟩ := List.mem_map.1 hb
        rcases List.mem_append.1 hc with hc | hc
        · exact (h.blank x hx).2 c hc
        · rw [List.mem_singleton.1 hc]
          decide)
  unfold Dens.read
  rw [e1, e2]
  dsimp only
  congr 1
  exact parse_ok (strip_version h.first.2) (by decide +kernel) (const_ok h) h.parsed (by decide +kernel) (table_rows hes)

/-- **C92.** A log with at least two lines is read, with one temperature per line, in order; the time axis is the best straight line through the times at which the temperatures were really measured
(counted from the midnight before the first one), however often midnight passed in between. -/
theorem C92_loads_partial {blanks : List Text} {date : Text} {consts : List (Text × Text)} {delta d t : Text} {vs : List Rat} (h : HeadOk num dateOf blanks date consts delta d t vs)
    {entries : List Entry} {temps : List Rat} (hes : List.Forall₂ (EntryOk num) entries temps) (h2 : 2 ≤ entries.length)
    {T : List Rat} {day : List Nat} (hT : Happened T day (entries.map clockValue)) :
    ∃ log, read num dateOf (linesText (logLines blanks date consts delta entries)) = some (.ok log) ∧ log.data = temps ∧ log.size = entries.length ∧ log.date = d ∧ log.time = t ∧ log.constants = vs ∧
      ∀ a b, deviation (T.map (· - 86400 * (day.getD 0 0 : Rat))) log.offset log.scale ≤ deviation (T.map (· - 86400 * (day.getD 0 0 : Rat))) a b := by
  have hl : entries.length = temps.length := hes.length_eq
  have hu := unroll_eq hT
  have hz1 : ((entries.map clockValue).zip temps).map Prod.fst = entries.map clockValue := List.map_fst_zip (by simp [hl])
  have hz2 : ((entries.map clockValue).zip temps).map Prod.snd = temps := List.map_snd_zip (by simp [hl])
  have hlen : ((entries.map clockValue).zip temps).length = entries.length := by
    rw [List.length_zip, List.length_map, hl, Nat.min_self]
  have e : logOf ((entries.map clockValue).zip temps) d t vs "Digiheater 3.1\n".toList =
      .ok ⟨temps, (unroll (entries.map clockValue)).length, (fitAxis (unroll (entries.map clockValue))).1, (fitAxis (unroll (entries.map clockValue))).2, d, t, vs, "Digiheater 3.1\n".toList⟩ := by
    conv_rhs => rw [← hz1]
    conv_rhs => enter [1, 1]; rw [← hz2]
    generalize (entries.map clockValue).zip temps = rows at hlen
    match rows, hlen with
    | [], hlen => simp at hlen; omega
    | [_], hlen => simp at hlen; omega
    | _ :: _ :: _, _ => rfl
  refine ⟨⟨temps, (unroll (entries.map clockValue)).length, (fitAxis (unroll (entries.map clockValue))).1, (fitAxis (unroll (entries.map clockValue))).2, d, t, vs, "Digiheater 3.1\n".toList⟩,
    ?_, rfl, ?_, rfl, rfl, rfl, ?_⟩
  · rw [read_log h hes, e]
  · dsimp only
    rw [unroll_length, List.length_map]
  · intro a b
    dsimp only
    rw [hu]
    apply Verif.Lemmas.HamamatsuImage.fit_best
    rw [List.length_map, hT.length.1, List.length_map]
    exact h2

/-- **C92.** The times are those of the measurements: the day that the clock does not show is counted on. -/
theorem C92_days {T : List Rat} {day : List Nat} {clocks : List Rat} (h : Happened T day clocks) : unroll clocks = T.map (· - 86400 * (day.getD 0 0 : Rat)) := unroll_eq h

/-- **C92.** Measurements at equal time steps: the axis starts at the first clock and has the time step as its scale. -/
theorem C92_steps {blanks : List Text} {date : Text} {consts : List (Text × Text)} {delta d t : Text} {vs : List Rat} (h : HeadOk num dateOf blanks date consts delta d t vs)
    {entries : List Entry} {temps : List Rat} (hes : List.Forall₂ (EntryOk num) entries temps) (h2 : 2 ≤ entries.length)
    {T : List Rat} {day : List Nat} (hT : Happened T day (entries.map clockValue)) {t0 dt : Rat} (hsteps : T = (List.range entries.length).map fun (k : Nat) => t0 + dt * (k : Rat)) :
    ∃ log, read num dateOf (linesText (logLines blanks date consts delta entries)) = some (.ok log) ∧ log.offset = t0 - 86400 * (day.getD 0 0 : Rat) ∧ log.scale = dt := by
  have hu := unroll_eq hT
  have hfit : fitAxis (unroll (entries.map clockValue)) = (t0 - 86400 * (day.getD 0 0 : Rat), dt) := by
    rw [hu, hsteps, List.map_map]
    rw [← Verif.Lemmas.Renishaw.fit_line h2 (t0 - 86400 * (day.getD 0 0 : Rat)) dt]
    congr 1
    apply List.map_congr_left
    intro k _
    simp only [Function.comp]
    ring
  have hl : entries.length = temps.length := hes.length_eq
  have hz1 : ((entries.map clockValue).zip temps).map Prod.fst = entries.map clockValue := List.map_fst_zip (by simp [hl])
  have hlen : ((entries.map clockValue).zip temps).length = entries.length := by
    rw [List.length_zip, List.length_map, hl, Nat.min_self]
  have e : ∃ log, logOf ((entries.map clockValue).zip temps) d t vs "Digiheater 3.1\n".toList = .ok log ∧ log.offset = t0 - 86400 * (day.getD 0 0 : Rat) ∧ log.scale = dt := by
    rw [← hz1] at hfit
    generalize (entries.map clockValue).zip temps = rows at hlen hfit
    match rows, hlen, hfit with
    | [], hlen, _ => simp at hlen; omega
    | [_], hlen, _ => simp at hlen; omega
    | a :: b :: r, _, hfit => exact ⟨_, rfl, congrArg Prod.fst hfit, congrArg Prod.snd hfit⟩
  obtain ⟨log, e1, e2⟩ := e
  exact ⟨log, by rw [read_log h hes, e1], e2⟩

/-- **C92.** Only logs of this kind are read: the version and the names of the columns are checked. -/
theorem C92_checked {file : Text} {log : Log} (h : read num dateOf file = some (.ok log)) :
    ∃ blanks date version calib delta head rest, fileLines file = blanks ++ (date ++ '\t' :: version) :: calib :: delta :: head :: rest ∧ (∀ b ∈ blanks, stripBy isSpace b = []) ∧
      '\t' ∉ date ∧ '\t' ∉ version ∧ stripBy isSpace version = "Digiheater 3.1".toList ∧
      stripBy isSpace head = "sample\ttime\tTset[C]\tTmeas[C]\tRheat[ohm]\tVheat[V]\tIheat[mA]\tPheat [mW]\tc".toList := by
  unfold Dens.read at h
  have hskip : ∀ (ls : List Text) (first : Text) (rest : List Text), skipBlank ls = some (first, rest) → ∃ blanks, ls = blanks ++ first :: rest ∧ ∀ b ∈ blanks, stripBy isSpace b = [] := by
    intro ls
    induction ls with
    | nil => intro first rest h; simp [skipBlank] at h
    | cons l ls ih =>
      intro first rest h
      unfold skipBlank at h
      split at h
      · next hb =>
        obtain ⟨bs, h1, h2⟩ := ih first rest h
        refine ⟨l :: bs, by rw [h1]; rfl, ?_⟩
        intro b hm
        rcases List.mem_cons.1 hm with rfl | hm
        · exact hb
        · exact h2 b hm
      · simp only [Option.some.injEq, Prod.mk.injEq] at h
        exact ⟨[], by rw [h.1, h.2]; rfl, by simp⟩
  cases hs : skipBlank (fileLines file) with
  | none => rw [hs] at h; exact absurd h (by simp)
  | some fr =>
    obtain ⟨first, rest⟩ := fr
    rw [hs] at h
    simp only [Option.some.injEq] at h
    obtain ⟨blanks, hf, hb⟩ := hskip _ _ _ hs
    unfold parse at h
    split at h
    · next date version hsp =>
      have hsplit : first = date ++ '\t' :: version ∧ '\t' ∉ date ∧ '\t' ∉ version := by
        have key : ∀ (s : Text) (a b : Text), splitChar '\t' s = [a, b] → s = a ++ '\t' :: b ∧ '\t' ∉ a ∧ '\t' ∉ b := by
          have one : ∀ (s : Text) (a : Text), splitChar '\t' s = [a] → s = a ∧ '\t' ∉ a := by
            intro s
            induction s with
            | nil => intro a h; simp [splitChar] at h; subst h; simp
            | cons c s ih =>
              intro a h
              unfold splitChar at h
              split at h
              · simp only [List.cons.injEq] at h
                exact absurd h.2 (splitChar_ne_nil _ _)
              · next hc =>
                cases hq : splitChar '\t' s with
                | nil => exact absurd hq (splitChar_ne_nil _ _)
                | cons p ps =>
                  rw [hq] at h
                  simp only [List.cons.injEq] at h
                  obtain ⟨rfl, rfl⟩ := h
                  obtain ⟨e, hn⟩ := ih p hq
                  refine ⟨by rw [e], ?_⟩
                  intro hm
                  rcases List.mem_cons.1 hm with hm | hm
                  · exact hc hm.symm
                  · exact hn hm
          intro s
          induction s with
          | nil => intro a b h; simp [splitChar] at h
          | cons c s ih =>
            intro a b h
            unfold splitChar at h
            split at h
            · next hc =>
              simp only [List.cons.injEq] at h
              obtain ⟨rfl, h⟩ := h
              obtain ⟨e, hn⟩ := one s b h
              exact ⟨by rw [hc, e]; rfl, by simp, hn⟩
            · next hc =>
              cases hq : splitChar '\t' s with
              | nil => exact absurd hq (splitChar_ne_nil _ _)
              | cons p ps =>
                rw [hq] at h
                simp only [List.cons.injEq] at h
                obtain ⟨rfl, rfl⟩ := h
                obtain ⟨e, h1, h2⟩ := ih p b hq
                refine ⟨by rw [e]; rfl, ?_, h2⟩
                intro hm
                rcases List.mem_cons.1 hm with hm | hm
                · exact hc hm.symm
                · exact h1 hm
        exact key first date version hsp
      split at h
      · exact absurd h (by simp)
      · next hv =>
        simp only [ne_eq, Decidable.not_not] at hv
        have hhead : stripBy isSpace (readline (readline (readline rest).2).2).1 = header := by
          by_contra hno
          dsimp only at h
          split at h
          · exact absurd h (by simp)
          · split at h
            · exact absurd h (by simp)
            · rw [if_pos hno] at h
              exact absurd h (by simp)
        match rest, hhead with
        | [], hh => exact absurd hh (by simp [readline]; decide)
        | [_], hh => exact absurd hh (by simp [readline]; decide)
        | [_, _], hh => exact absurd hh (by simp [readline]; decide)
        | calib :: delta :: head :: rest, hh =>
          exact ⟨blanks, date, version, calib, delta, head, rest, by rw [hf, hsplit.1], hb, hsplit.2.1, hsplit.2.2, hv, hh⟩
    · exact absurd h (by simp)

/-! ### Where the code falls short -/

/-- A file without any text is neither read nor rejected: the reader never ends. -/
theorem C92_fails_blank (blanks : List Text) (h : ∀ b ∈ blanks, Line b ∧ ∀ c ∈ b, isSpace c = true) : read num dateOf (linesText blanks) = none := by
  unfold Dens.read
  rw [fileLines_lines fun b hb => (h b hb).1]
  have : ∀ bs : List Text, (∀ b ∈ bs, ∀ c ∈ b, isSpace c = true) → skipBlank (bs.map (· ++ ['\n'])) = none := by
    intro bs
    induction bs with
    | nil => intro _; rfl
    | cons b bs ih =>
      intro hb
      rw [List.map_cons, skipBlank, if_pos, ih fun x hx => hb x (List.mem_cons_of_mem _ hx)]
      apply strip_blank
      intro c hc
      rcases List.mem_append.1 hc with hc | hc
      · exact hb b (List.mem_cons_self ..) c hc
      · rw [List.mem_singleton.1 hc]
        decide
  rw [this blanks fun b hb => (h b hb).2]

/-- A log of a single measurement cannot be read. -/
theorem C92_fails_single {blanks : List Text} {date : Text} {consts : List (Text × Text)} {delta d t : Text} {vs : List Rat} (h : HeadOk num dateOf blanks date consts delta d t vs) {e : Entry} {v : Rat}
    (he : EntryOk num e v) : read num dateOf (linesText (logLines blanks date consts delta [e])) = some (.error .valueError) := by
  rw [read_log h (.cons he .nil)]
  rfl

/-- A pause of a day or more is lost: without the bound on the pauses the times are not those of the measurements. -/
theorem C92_fails_pause : ¬ ∀ (T : List Rat) (day : List Nat) (clocks : List Rat), T.length = clocks.length → day.length = clocks.length →
    (∀ i, i < clocks.length → T.getD i 0 = 86400 * (day.getD i 0 : Rat) + clocks.getD i 0) → (∀ i, i < clocks.length → 0 ≤ clocks.getD i 0 ∧ clocks.getD i 0 < 86400) →
    (∀ i, i + 1 < clocks.length → T.getD i 0 ≤ T.getD (i + 1) 0) → unroll clocks = T.map (· - 86400 * (day.getD 0 0 : Rat)) := by
  intro hall
  have := hall [10, 86420] [0, 1] [10, 20] rfl rfl (by
      intro i hi
      match i, hi with
      | 0, _ => decide +kernel
      | 1, _ => decide +kernel) (by
      intro i hi
      match i, hi with
      | 0, _ => decide +kernel
      | 1, _ => decide +kernel) (by
      intro i hi
      match i, hi with
      | 0, _ => decide +kernel)
  revert this
  decide +kernel

/-! ### Examples -/

/-- Half a second before, and half a second after midnight. -/
def example1 : Entry := ⟨23, 59, 59, "5".toList, "20.5".toList, "1".toList, "23.0".toList, ["281.6".toList, "norm".toList]⟩
def example2 : Entry := ⟨0, 0, 0, "50".toList, "20.7".toList, "2".toList, "23.0".toList, []⟩
def exampleNum (t : Text) : Option Rat := if stripBy isSpace t = "20.5".toList then some (41 / 2) else if stripBy isSpace t = "20.7".toList then some (207 / 10) else
  if stripBy isSpace t = "1".toList then some 1 else none
def exampleDate (_ : Text) : Option (Text × Text) := some ("2015-04-16".toList, "13:53:00".toList)
def exampleConsts : List (Text × Text) := [("R0 ".toList, " 1".toList), ("a ".toList, " 1".toList), ("b ".toList, " 1".toList), ("c ".toList, " 1".toList)]

example : HeadOk exampleNum exampleDate [[], [' ']] "16/04/'15 13:53".toList exampleConsts "Tsample = 330 [ms]".toList "2015-04-16".toList "13:53:00".toList [1, 1, 1, 1] := by
  refine ⟨?_, ?_, rfl, rfl, ?_, ?_, ?_, ?_⟩
  · unfold Line; decide
  · unfold Line; decide
  · unfold Line; decide
  · decide +kernel
  · intro x
    unfold exampleNum
    rw [stripBy_append (by simp; decide)]
  · unfold Line; decide
example : List.Forall₂ (EntryOk exampleNum) [example1, example2] [41 / 2, 207 / 10] := by
  refine .cons ⟨by decide, by decide, by decide, by decide, ?_, by decide +kernel⟩ (.cons ⟨by decide, by decide, by decide, by decide, ?_, by decide +kernel⟩ .nil)
  · unfold Cell; decide
  · unfold Cell; decide
example : Happened [172799 + 1 / 2, 172800 + 1 / 2] [1, 2] ([example1, example2].map clockValue) := by
  refine ⟨⟨rfl, rfl⟩, ?_, ?_, ?_, ?_⟩ <;> intro i hi
  · match i, hi with
    | 0, _ => decide +kernel
    | 1, _ => decide +kernel
  · match i, hi with
    | 0, _ => decide +kernel
    | 1, _ => decide +kernel
  · match i, hi with
    | 0, _ => decide +kernel
  · match i, hi with
    | 0, _ => decide +kernel

end Verif.Props.Dens
