import Verif.Lemmas.Quadstar
/-! C73-C76: Quadstar mass spectra (`.sac`, `.sbc`). -/
namespace Verif.Props.Quadstar
open Verif Verif.Quadstar Verif.Spec.Quadstar

/-- C73: each analog trace of a `.sac` file becomes a signal, in the order of the file. It holds all values of all cycles at the
right places; values above the full scale of the cycle, and only these, become NaN. -/
theorem C73 {f : Bytes} {n L : Nat} {chs : List Chan} (H : SacFile f n L chs) (hn : 0 < n) (ha : ∃ c ∈ chs, c.analog)
    (name : Text) (hname : ¬ ".sbc".toList <:+ name.map Char.toLower) (u : Bool) :
    ∃ sigs, fileReader name f false u = .ok sigs ∧ List.Forall₂ (Measured f n L) (chs.filter (·.analog)) sigs := by
  have hb : isSbc name = false := by
    unfold isSbc
    rw [Bool.eq_false_iff, Ne, List.isSuffixOf_iff_suffix]
    exact hname
  cases h0 : chs.filter (·.analog) with
  | nil =>
    obtain ⟨c, hc, hca⟩ := ha
    have : c ∈ chs.filter (·.analog) := List.mem_filter.2 ⟨hc, by simpa using hca⟩
    rw [h0] at this
    cases this
  | cons c0 cs =>
    refine ⟨_, fileReader_sac H h0 hn hb u, ?_⟩
    rw [List.forall₂_map_right_iff]
    have hmem : ∀ c ∈ c0 :: cs, c ∈ chs ∧ c.analog := by
      intro c hc
      rw [← h0, List.mem_filter] at hc
      simpa using hc
    rw [List.forall₂_same]
    intro c hc
    exact measured_chan H (hmem c hc).1 (hmem c hc).2 _ u _

/-- C74, what holds: the mass of each value, and the times of the cycles. A uniform time axis is right for the first and the last cycle;
the others are right when the option for axes that are not uniform is used. -/
theorem C74_partial {f : Bytes} {n L : Nat} {chs : List Chan} (H : SacFile f n L chs) (hn : 0 < n) {c0 : Chan} {cs : List Chan}
    (h0 : chs.filter (·.analog) = c0 :: cs) (name : Text) (hname : ¬ ".sbc".toList <:+ name.map Char.toLower) (u : Bool) :
    ∃ sigs, fileReader name f false u = .ok sigs ∧
      List.Forall₂ (fun c s => Axes u n (time f L c0.data) (MassAxis f c) s.axes) (c0 :: cs) sigs := by
  have hb : isSbc name = false := by
    unfold isSbc
    rw [Bool.eq_false_iff, Ne, List.isSuffixOf_iff_suffix]
    exact hname
  refine ⟨_, fileReader_sac H h0 hn hb u, ?_⟩
  rw [List.forall₂_map_right_iff, List.forall₂_same]
  intro c _
  exact axes_chan c _ u _

/-- C74: cycles at equal distances have the right times on a uniform axis, too. -/
theorem C74_equidistant {n : Nat} (hn : 1 < n) {t : Nat → Rat} {d : Rat} (hd : 0 < d) (ht : ∀ i, t i = t 0 + i * d) {a : Axis}
    (ha : TimeAxis true n t a) : ∀ i, at? a.cal i = some (t i - t 0) := by
  obtain ⟨_, _, _, _, _, _, h⟩ := ha
  simp only [if_true] at h
  obtain ⟨⟨s, hs⟩, h1, _⟩ := h
  have hpos : (0 : Rat) < ((n - 1 : Nat) : Rat) := by exact_mod_cast (by omega : 0 < n - 1)
  have h2 := h1 (by rw [ht (n - 1)]; have := mul_pos hpos hd; linarith)
  intro i
  rw [hs] at h2 ⊢
  dsimp only [at?] at h2 ⊢
  rw [Option.some_inj] at h2 ⊢
  rw [ht (n - 1)] at h2
  rw [ht i]
  have : s = d := by
    have h3 : s * ((n - 1 : Nat) : Rat) = d * ((n - 1 : Nat) : Rat) := by linarith
    exact mul_right_cancel₀ hpos.ne' h3
  rw [this]
  ring

/-- C75, what holds: the intensities of all cycles of an `.sbc` file at their places, the time axis, and a mass axis that begins at the
first and ends at the last label of the first cycle. -/
theorem C75_partial {f : Bytes} {n w start : Nat} (H : SbcFile f n w start) (name : Text)
    (hname : ".sbc".toList <:+ name.map Char.toLower) (u : Bool) :
    ∃ s, fileReader name f false u = .ok [s] ∧
      s.shape = (if 1 < n then [n, w + 1] else [w + 1]) ∧ s.data.length = n * (w + 1) ∧
      (∀ i < n, ∀ k ≤ w, s.data[i * (w + 1) + k]? = some (some (num f (cycle w start i + 13 + 8 * k + 4) 4))) ∧
      Axes u n (seconds f w start) (fun a => a.navigate = false ∧ a.size = w + 1 ∧ (∃ o d, a.cal = .uniform o d) ∧
        at? a.cal 0 = some (label f w start 0 0) ∧ at? a.cal w = some (label f w start 0 w)) s.axes := by
  have hb : isSbc name = true := by
    unfold isSbc
    rw [List.isSuffixOf_iff_suffix]
    exact hname
  have hax : ∀ i, (barAxis f w start i).navigate = false ∧ (barAxis f w start i).size = w + 1 ∧
      (∃ o d, (barAxis f w start i).cal = .uniform o d) ∧
      at? (barAxis f w start i).cal 0 = some (label f w start 0 0) ∧
      at? (barAxis f w start i).cal w = some (label f w start 0 w) := by
    intro i
    unfold barAxis
    refine ⟨rfl, rfl, ⟨_, _, rfl⟩, by dsimp only [at?]; simp, ?_⟩
    dsimp only [at?]
    by_cases h : 1 < w + 1
    · rw [if_pos h]
      have hw : (w : Rat) ≠ 0 := by exact_mod_cast (by omega : w ≠ 0)
      rw [div_mul_cancel₀ _ hw]
      congr 1
      ring
    · obtain rfl : w = 0 := by omega
      simp
  obtain ⟨h1, h2⟩ := assemble_axes u (n := n) (seconds f w start) (barAxis f w start)
    (fun a => a.navigate = false ∧ a.size = w + 1 ∧ (∃ o d, a.cal = .uniform o d) ∧
      at? a.cal 0 = some (label f w start 0 0) ∧ at? a.cal w = some (label f w start 0 w)) (w + 1) hax (fun _ => rfl)
  refine ⟨_, fileReader_sbc H hb u, h2, ?_, ?_, h1⟩
  · dsimp only
    rw [List.length_flatMap]
    simp only [length_barRow]
    simp
  · intro i hi k hk
    dsimp only
    rw [flatMap_range_getElem (w + 1) _ (fun i => length_barRow f w start i) n i k hi (by omega)]
    unfold barRow
    rw [List.getElem?_map, List.getElem?_range (by omega)]
    rfl

/-- C75: labels at equal distances are right on the mass axis. -/
theorem C75_equidistant {f : Bytes} {w start : Nat} {d : Rat}
    (hl : ∀ k ≤ w, label f w start 0 k = label f w start 0 0 + k * d) {a : Axis} (hc : ∃ o d, a.cal = .uniform o d)
    (h0 : at? a.cal 0 = some (label f w start 0 0)) (hw : at? a.cal w = some (label f w start 0 w)) :
    ∀ k ≤ w, at? a.cal k = some (label f w start 0 k) := by
  obtain ⟨o, s, hc⟩ := hc
  rw [hc] at h0 hw ⊢
  dsimp only [at?] at h0 hw ⊢
  simp only [Option.some_inj] at h0 hw ⊢
  intro k hk
  have hw' := hl w le_rfl
  rw [hl k hk]
  simp only [Nat.cast_zero, mul_zero, add_zero] at h0
  rcases Nat.eq_zero_or_pos w with rfl | hpos
  · obtain rfl : k = 0 := by omega
    simp [h0]
  · have hq : (w : Rat) ≠ 0 := by exact_mod_cast (by omega : w ≠ 0)
    have h3 : s * w = d * w := by rw [h0, hw'] at hw; linarith
    rw [mul_right_cancel₀ hq h3, h0]
    ring

/-- Files are not read lazily. -/
theorem C73_lazy (name : Text) (f : Bytes) (u : Bool) : fileReader name f true u = .error .notImplemented := rfl

/-! ### Texts and dates -/

/-- C76, what holds for texts: titles, units and comments without white space at their ends are read exactly; a name, a unit
and a quantity have defaults. -/
theorem C76_partial {f : Bytes} {n L : Nat} {chs : List Chan} (H : SacFile f n L chs) (hn : 0 < n) {c0 : Chan} {cs : List Chan}
    (h0 : chs.filter (·.analog) = c0 :: cs) (name : Text) (hname : ¬ ".sbc".toList <:+ name.map Char.toLower) (u : Bool) :
    ∃ sigs, fileReader name f false u = .ok sigs ∧
      List.Forall₂ (fun c s => ∀ xt xu yt yu co : Bytes, Field f (c.info + 29) 13 xt → Field f (c.info + 42) 13 xu →
        Field f (c.info + 2) 13 yt → Field f (c.info + 15) 13 yu → Field f (c.info + 55) 59 co →
        Tight (chars xt) → Tight (chars xu) → Tight (chars yt) → Tight (chars yu) → Tight (chars co) →
        (∃ a, s.axes.getLast? = some a ∧ a.name = (if xt = [] then "Mass-to-charge ratio".toList else chars xt) ∧
          a.units = (if xu = [] then "m/z".toList else chars xu)) ∧
        s.quantity = (if yt = [] then "Intensity".toList else chars yt ++ " (".toList ++ chars yu ++ ")".toList) ∧
        s.notes = (if co = [] then none else some (chars co))) (c0 :: cs) sigs := by
  have hb : isSbc name = false := by
    unfold isSbc
    rw [Bool.eq_false_iff, Ne, List.isSuffixOf_iff_suffix]
    exact hname
  refine ⟨_, fileReader_sac H h0 hn hb u, ?_⟩
  rw [List.forall₂_map_right_iff, List.forall₂_same]
  intro c _ xt xu yt yu co f1 f2 f3 f4 f5 t1 t2 t3 t4 t5
  have key : ∀ {o w : Nat} {t : Bytes}, Field f o w t → Tight (chars t) → decodeBytes (textAt f o w) = chars t := by
    intro o w t hf ht
    rw [textAt_field hf]
    exact decodeBytes_tight (by obtain ⟨_, _, h⟩ := hf; exact h) ht
  have hnil : ∀ {t : Bytes}, chars t = [] ↔ t = [] := by intro t; simp [chars]
  unfold chanSignal sacSignal infoOf
  dsimp only
  rw [key f1 t1, key f2 t2, key f3 t3, key f4 t4, key f5 t5]
  simp only [ne_eq, hnil, ite_not]
  refine ⟨?_, trivial, trivial⟩
  unfold assemble
  split <;> exact ⟨_, rfl, rfl, rfl⟩

/-- A number of two digits. -/
def Two (t : Text) (n : Nat) : Prop := t.length = 2 ∧ (∀ c ∈ t, isDigit c) ∧ decVal t = n

theorem two_pad {n : Nat} (h : n < 100) : Two (pad2 n) n := by
  have : ∀ m < 100, (pad2 m).length = 2 ∧ (pad2 m).all isDigit = true ∧ decVal (pad2 m) = m := by decide +kernel
  obtain ⟨h1, h2, h3⟩ := this n h
  exact ⟨h1, by simpa [List.all_eq_true] using h2, h3⟩

/-- C76: all signals of a file have the date and the time of the header, in ISO format; without a valid date they have none. -/
theorem C76_date (name : Text) (f : Bytes) (u : Bool) (sigs : List Signal) (h : fileReader name f false u = .ok sigs) :
    ∀ s ∈ sigs,
      (Valid (1900 + num f 13 1) (num f 12 1) (num f 11 1) (num f 10 1) (num f 9 1) (num f 8 1) →
        ∃ y m d hh mm ss : Text, s.date = some (y ++ '-' :: m ++ '-' :: d, hh ++ ':' :: mm ++ ':' :: ss) ∧
          decVal y = 1900 + num f 13 1 ∧ y.length = 4 ∧ Two m (num f 12 1) ∧ Two d (num f 11 1) ∧ Two hh (num f 10 1) ∧
          Two mm (num f 9 1) ∧ Two ss (num f 8 1)) ∧
      (¬ Valid (1900 + num f 13 1) (num f 12 1) (num f 11 1) (num f 10 1) (num f 9 1) (num f 8 1) → s.date = none) := by
  have hgen : ∃ g, readGeneral f = .ok g := by
    cases hg : readGeneral f with
    | ok g => exact ⟨g, rfl⟩
    | error e =>
      unfold fileReader at h
      rw [hg] at h
      exact absurd h (by intro h; cases h)
  obtain ⟨g, hg⟩ := hgen
  have hgh : g = headerOf f := by
    by_cases hl : 110 ≤ f.length
    · rw [readGeneral_ok hl] at hg
      cases hg
      rfl
    · unfold readGeneral frombuffer at hg
      rw [if_neg (by omega), if_neg (by omega), if_pos (by simp only [Int.toNat_one, Int.toNat_zero]; omega)] at hg
      cases hg
  have hdate : ∀ s ∈ sigs, s.date = buildDate g := by
    rw [fileReader_eq hg] at h
    split at h
    · unfold readSbc at h
      dsimp only [bind, Except.bind] at h
      split at h
      · cases h
      · split at h
        · cases h
        · cases h
          intro s hs
          rw [List.mem_singleton] at hs
          rw [hs]
    · unfold readSac at h
      dsimp only [bind, Except.bind] at h
      split at h
      · cases h
      · split at h
        · cases h
        · split at h
          · cases h
          · split at h
            · cases h
            · split at h
              · cases h
              · unfold gather at h
                split at h
                · cases h
                · cases h
                  intro s hs
                  rw [List.mem_map] at hs
                  obtain ⟨r, _, rfl⟩ := hs
                  rfl
  have hb : buildDate g = buildDate (headerOf f) := by rw [hgh]
  have hv : ∀ {y mo d hh mi se : Nat}, Valid y mo d hh mi se ↔ (1 ≤ mo ∧ mo ≤ 12 ∧ 1 ≤ d ∧ d ≤ daysIn y mo ∧ hh < 24 ∧ mi < 60 ∧ se < 60) := by
    intro y mo d hh mi se
    constructor
    · rintro ⟨⟨n, h1, h2, h3, h4⟩, h5, h6, h7⟩
      obtain ⟨e1, e2⟩ := daysIn_month h1 h2
      exact ⟨h1, e1, h3, by omega, h5, h6, h7⟩
    · rintro ⟨h1, h2, h3, h4, h5, h6, h7⟩
      exact ⟨⟨_, h1, daysIn_get h1 h2, h3, h4⟩, h5, h6, h7⟩
  intro s hs
  rw [hdate s hs, hb]
  unfold buildDate headerOf
  simp only [unsignedAt_eq]
  rw [hv]
  refine ⟨fun hval => ?_, fun hval => if_neg hval⟩
  rw [if_pos hval]
  obtain ⟨h1, h2, h3, h4, h5, h6, h7⟩ := hval
  have hy : num f 13 1 < 256 := num_lt
  have hd : daysIn (1900 + num f 13 1) (num f 12 1) ≤ 31 := by
    unfold daysIn
    split
    · split <;> omega
    · split <;> omega
  have hylen : ∀ k < 256, (decChars (1900 + k)).length = 4 := by decide +kernel
  exact ⟨_, _, _, _, _, _, rfl, decVal_decChars _, hylen _ hy, two_pad (by omega), two_pad (by omega), two_pad (by omega),
    two_pad (by omega), two_pad (by omega)⟩

/-! ### Examples and failures -/

/-- The header of a file. -/
def exHeader (n traces L : Nat) (base baseMs : Nat) : Bytes :=
  leBytes 8 0 ++ [5, 30, 10, 29, 2, 124] ++ List.replicate 86 0 ++ leBytes 4 n ++ leBytes 2 traces ++ leBytes 4 L ++
    List.replicate 84 0 ++ leBytes 4 base ++ leBytes 2 baseMs

/-- A description of a trace: title `title` (padded), first mass 1, `w` masses, `p` values for each. -/
def exInfo (title : Bytes) (w p : Nat) : Bytes :=
  leBytes 2 0 ++ List.replicate 27 0 ++ title ++ List.replicate (13 - title.length) 0 ++ List.replicate 80 0 ++
    leBytes 4 0x3F800000 ++ leBytes 2 w ++ leBytes 1 p ++ List.replicate 8 0

/-- A cycle: time, four bytes, exponent, values. -/
def exCycle (s ms e : Nat) (vals : List Nat) : Bytes :=
  leBytes 4 s ++ leBytes 2 ms ++ leBytes 4 0 ++ leBytes 2 e ++ vals.flatMap (leBytes 4)

/-- A file with two traces (the second one analog, with two values) and the given cycles. -/
def exSac (title : Bytes) (n : Nat) (cycles : List Bytes) : Bytes :=
  exHeader n 2 20 1000 0 ++ leBytes 1 1 ++ leBytes 4 0 ++ leBytes 4 0 ++ leBytes 1 0x11 ++ leBytes 4 218 ++ leBytes 4 361 ++
    exInfo title 2 1 ++ cycles.flatten

def exTable : List Chan := [⟨1, 0, 0⟩, ⟨0x11, 218, 361⟩]

theorem isInt_le {f : Bytes} {o : Nat} (h : o + 2 ≤ f.length) (m : Int) (hm : toSigned 2 (leVal (chunk f o 2)) ≤ m) (e : Int)
    (he : IsInt f o 2 e) : e ≤ m := by
  rw [← encodes_unique (isInt_toSigned h) he]
  exact hm

/-- Three cycles at 0, 1 and 10 seconds; the full scale is `10^-5`, a value of 1 is above it. -/
def exFile : Bytes := exSac [77, 97, 115, 115] 3
  [exCycle 0 0 0xFFFB [0, 0x3F800000], exCycle 1 0 40 [0x3F800000, 0x3F800000], exCycle 10 0 40 [1, 2]]

/-- The premise of C73, C74 and C76 for a file. -/
theorem exFile_sac : SacFile exFile 3 20 exTable where
  len := by decide +kernel
  steps := by decide +kernel
  stepsLt := by decide +kernel
  count := by decide +kernel
  countLt := by decide +kernel
  stride := by decide +kernel
  strideLt := by decide +kernel
  table := by decide +kernel
  infos := by decide +kernel
  rows := by decide +kernel
  ranges := by
    intro c hc ha i hi e he
    have h1 : ∀ c ∈ exTable, c.analog → ∀ i < 3, c.data + i * 20 + 4 + 2 ≤ exFile.length ∧
      toSigned 2 (leVal (chunk exFile (c.data + i * 20 + 4) 2)) ≤ 308 := by decide +kernel
    obtain ⟨h2, h3⟩ := h1 c hc ha i hi
    exact isInt_le h2 308 h3 e he

example : ∃ sigs, fileReader "a.sac".toList exFile false true = .ok sigs ∧ List.Forall₂ (Measured exFile 3 20) [⟨0x11, 218, 361⟩] sigs :=
  C73 exFile_sac (by decide) ⟨⟨0x11, 218, 361⟩, by decide, rfl⟩ _ (by decide +kernel) true

/-- A field of C76. -/
example : Field exFile (218 + 29) 13 [77, 97, 115, 115] ∧ Tight (chars [77, 97, 115, 115]) :=
  ⟨⟨9, by decide +kernel, by decide⟩, by decide +kernel, by decide +kernel⟩

/-- The date of the file. -/
example : Valid (1900 + num exFile 13 1) (num exFile 12 1) (num exFile 11 1) (num exFile 10 1) (num exFile 9 1) (num exFile 8 1) :=
  ⟨⟨29, by decide +kernel, by decide +kernel, by decide +kernel, by decide +kernel⟩, by decide +kernel, by decide +kernel, by decide +kernel⟩

/-- Cycles at 0, 1 and 10 seconds: on the uniform axis the second cycle is at 5 seconds, and nothing tells the user. -/
theorem C74_fails_uniform : ∃ s a, fileReader "a.sac".toList (exSac [] 3
      [exCycle 0 0 40 [0, 0], exCycle 1 0 40 [0, 0], exCycle 10 0 40 [0, 0]]) false true = .ok [s] ∧
    s.axes.head? = some a ∧ at? a.cal 1 = some 5 :=
  ⟨⟨[3, 2], List.replicate 6 (some 0), [⟨"Time".toList, "s".toList, .uniform 0 5, 3, true, 0⟩,
    ⟨"Mass-to-charge ratio".toList, "m/z".toList, .uniform 1 1, 2, false, 1⟩], "Intensity".toList, none,
    some ("2024-02-29".toList, "10:30:05".toList)⟩, _, by decide +kernel, rfl, by decide +kernel⟩

/-- When the clock is set back during the measurement, the uniform axis has a step of one second. -/
theorem C74_fails_backwards : ∃ s a, fileReader "a.sac".toList (exSac [] 2
      [exCycle 50 0 40 [0, 0], exCycle 20 0 40 [0, 0]]) false true = .ok [s] ∧
    s.axes.head? = some a ∧ at? a.cal 1 = some 1 :=
  ⟨⟨[2, 2], List.replicate 4 (some 0), [⟨"Time".toList, "s".toList, .uniform 0 1, 2, true, 0⟩,
    ⟨"Mass-to-charge ratio".toList, "m/z".toList, .uniform 1 1, 2, false, 1⟩], "Intensity".toList, none,
    some ("2024-02-29".toList, "10:30:05".toList)⟩, _, by decide +kernel, rfl, by decide +kernel⟩

/-- A full scale above `10^308` cannot be read. -/
theorem C73_fails_range : fileReader "a.sac".toList (exSac [] 1 [exCycle 0 0 309 [0, 0]]) false true = .error .overflowError := by
  decide +kernel

/-- Bytes after the null byte that ends a title are part of the name of the axis. -/
theorem C76_fails_null : ∃ s a, fileReader "a.sac".toList (exSac [77, 0, 88] 1 [exCycle 0 0 40 [0, 0]]) false true = .ok [s] ∧
    s.axes.head? = some a ∧ a.name = ['M', Char.ofNat 0, 'X'] :=
  ⟨⟨[2], [some 0, some 0], [⟨['M', Char.ofNat 0, 'X'], "m/z".toList, .uniform 1 1, 2, false, 0⟩], "Intensity".toList, none,
    some ("2024-02-29".toList, "10:30:05".toList)⟩, _, by decide +kernel, rfl, rfl⟩

/-- A cycle of an `.sbc` file. -/
def exBar (s : Nat) (vals : List (Nat × Nat)) : Bytes :=
  leBytes 4 s ++ List.replicate 9 0 ++ vals.flatMap fun v => leBytes 4 v.1 ++ leBytes 4 v.2

/-- An `.sbc` file with three masses. -/
def exSbc (n : Nat) (cycles : List Bytes) : Bytes :=
  exHeader n 0 0 0 0 ++ List.replicate 3 0 ++ leBytes 2 2 ++ List.replicate 51 0 ++ cycles.flatten

/-- Labels 1, 2, 9 in the first cycle and 1, 4, 9 in the second one. -/
def exBars : Bytes := exSbc 2
  [exBar 0 [(0x3F800000, 5), (0x40000000, 6), (0x41100000, 7)], exBar 3 [(0x3F800000, 8), (0x40800000, 9), (0x41100000, 10)]]

theorem exBars_sbc : SbcFile exBars 2 2 256 :=
  ⟨by decide +kernel, by decide, by decide, by decide +kernel, by decide +kernel, by decide⟩

/-- The labels of an `.sbc` file are masses of peaks; they are not equidistant, but the axis is uniform, with and without
`use_uniform_signal_axis`: mass 2 is at 5 on the axis (and in the second cycle mass 4). -/
theorem C75_fails_labels : label exBars 2 256 0 1 = 2 ∧ label exBars 2 256 1 1 = 4 ∧
    ∀ u, ∃ s a, fileReader "a.sbc".toList exBars false u = .ok [s] ∧ s.axes.getLast? = some a ∧ at? a.cal 1 = some 5 := by
  refine ⟨by decide +kernel, by decide +kernel, fun u => ?_⟩
  refine ⟨⟨[2, 3], [some 5, some 6, some 7, some 8, some 9, some 10],
    [⟨"Time".toList, "s".toList, if u then .uniform 0 3 else .points [0, 3], 2, true, 0⟩,
    ⟨"Mass-to-charge ratio".toList, "m/z".toList, .uniform 1 4, 3, false, 1⟩], "Intensity".toList, none,
    some ("2024-02-29".toList, "10:30:05".toList)⟩, _, ?_, rfl, by dsimp only [List.getLast_cons_cons, List.getLast_singleton]; decide +kernel⟩
  cases u <;> decide +kernel

/-- The data are counted from the end of the file: with further bytes at the end, all values are wrong, and nothing tells the user. -/
theorem C75_fails_trailing : ∃ s s', fileReader "a.sbc".toList exBars false true = .ok [s] ∧
    fileReader "a.sbc".toList (exBars ++ [0, 0, 0, 0]) false true = .ok [s'] ∧ s.data.head? = some (some 5) ∧
    s'.data.head? = some (some 0x40000000) := by
  have h1 : (fileReader "a.sbc".toList exBars false true).map (·.map fun s => s.data.head?) = .ok [some (some 5)] := by decide +kernel
  have h2 : (fileReader "a.sbc".toList (exBars ++ [0, 0, 0, 0]) false true).map (·.map fun s => s.data.head?) =
      .ok [some (some 0x40000000)] := by decide +kernel
  have key : ∀ {x : Py (List Signal)} {v : Option (Option Nat)}, x.map (·.map fun s => s.data.head?) = .ok [v] →
      ∃ s, x = .ok [s] ∧ s.data.head? = v := by
    intro x v h
    cases x with
    | error e => cases h
    | ok l =>
      have h' : l.map (fun s => s.data.head?) = [v] := by injection h
      cases l with
      | nil => cases h'
      | cons a l =>
        cases l with
        | nil =>
          rw [List.map_cons, List.map_nil] at h'
          injection h' with h1 h2
          exact ⟨a, rfl, h1⟩
        | cons b l => cases h'
  obtain ⟨s, a1, a2⟩ := key h1
  obtain ⟨s', b1, b2⟩ := key h2
  exact ⟨s, s', a1, b1, a2, b2⟩

end Verif.Props.Quadstar
