import Verif.Lemmas.Empad
/-!
C87: the frames of EMPAD files are found at the right place, without the two rows after each of them.
C88: names, lengths and calibrations of the axes of EMPAD files.
-/
namespace Verif.Props.Empad
open Verif.Empad Verif.Spec.Empad

variable {lib : Lib} {om : Om} {q : Option Rat}

/-- The parts of a file that was read. -/
theorem reader_parts {raw : List UInt8} {res : Result} {nav : List (String × Nat)} (hd : Described om nav) (h : fileReader lib om q raw = .ok res) :
    ∃ s rs, Names s nav ∧ rows lib om q s = .ok rs ∧ res.axes = axesFrom 0 rs ∧ res.shape = (nav.map Prod.snd ++ [128, 128]).filter (· ≠ 1) ∧
      readRaw raw (size (nav.map Prod.snd)) = .ok res.data ∧ (om "root.timestamp.isoformat" = none → res.date = none) ∧
      ∀ t, om "root.timestamp.isoformat" = some t → ∃ a b, splitChar 'T' t = [a, b] ∧ res.date = some (a, b) := by
  obtain ⟨s, hs, hn⟩ := parse_ok hd
  obtain ⟨h1, h2⟩ := shape_nat hn
  unfold fileReader at h
  simp only [hs, bind, Except.bind] at h
  cases hdate : dateOf (om "root.timestamp.isoformat") with
  | error e => rw [hdate] at h; exact absurd h (by simp)
  | ok date =>
    rw [hdate] at h
    dsimp only at h
    cases hrs : rows lib om q s with
    | error e => rw [hrs] at h; exact absurd h (by simp)
    | ok rs =>
      rw [hrs] at h
      dsimp only at h
      rw [h2, if_neg (by simp), h1] at h
      cases hr : readRaw raw (size (nav.map Prod.snd)) with
      | error e => rw [hr] at h; exact absurd h (by simp)
      | ok d =>
        rw [hr] at h
        simp only [Except.ok.injEq] at h
        subst h
        refine ⟨s, rs, hn, hrs, rfl, rfl, rfl, ?_, ?_⟩
        · intro hd
          rw [hd] at hdate
          simp only [dateOf, Except.ok.injEq] at hdate
          exact hdate.symm
        · intro t ht
          rw [ht] at hdate
          unfold dateOf at hdate
          dsimp only at hdate
          split at hdate
          · next a b hab =>
            simp only [Except.ok.injEq] at hdate
            exact ⟨a, b, hab, hdate.symm⟩
          · exact absurd hdate (by simp)

/-- The rows behind the axes. -/
theorem rows_parts {s : Scan} {nav : List (String × Nat)} (hn : Names s nav) {rs : List Row} (h : rows lib om q s = .ok rs) :
    ∃ p, patternScale lib om q = .ok p ∧ ∃ ns : List Row, rs = ns ++ [⟨"height", 128, p.1, p.2, -64, false⟩, ⟨"width", 128, p.1, p.2, -64, false⟩] ∧
      ns.map (fun r => (r.name, r.size, r.navigate)) = nav.map (fun e => (e.1, (e.2 : Int), true)) ∧ (∀ r ∈ ns, r.origin = 0 ∧ r.navigate = true) ∧
      (∀ n, nav = [("series_count", n)] → ∀ r ∈ ns, r.scale = 1 ∧ r.units = .text (some "ms")) ∧
      ∀ x y : Nat, nav = [("scan_y", y), ("scan_x", x)] → ∃ sy sx, ns = [⟨"scan_y", y, sy.1, sy.2, 0, true⟩, ⟨"scan_x", x, sx.1, sx.2, 0, true⟩] ∧ NavScale lib om y x sy sx := by
  unfold rows at h
  cases s with
  | unknown => exact hn.elim
  | series n =>
    obtain ⟨m, rfl, rfl⟩ := hn
    simp only [navRows, bind, Except.bind] at h
    cases hp : patternScale lib om q with
    | error e => rw [hp] at h; exact absurd h (by simp)
    | ok p =>
      rw [hp] at h
      simp only [Except.ok.injEq] at h
      refine ⟨p, rfl, _, h.symm, rfl, by simp, ?_, by simp⟩
      intro n _ r hr
      rw [List.mem_singleton] at hr
      subst hr
      exact ⟨rfl, rfl⟩
  | grid x y =>
    obtain ⟨a, b, rfl, rfl, rfl⟩ := hn
    simp only [navRows, bind, Except.bind] at h
    cases hs : navScales lib om b a with
    | error e => rw [hs] at h; exact absurd h (by simp [Except.map])
    | ok l =>
      rw [hs] at h
      simp only [Except.map] at h
      obtain ⟨sy, sx, rfl, hN⟩ := navScales_spec hs
      cases hp : patternScale lib om q with
      | error e => rw [hp] at h; exact absurd h (by simp)
      | ok p =>
        rw [hp] at h
        simp only [Except.ok.injEq] at h
        refine ⟨p, rfl, _, h.symm, rfl, ?_, by simp, ?_⟩
        · intro r hr
          simp only [List.zip_cons_cons, List.zip_nil_right, List.map_cons, List.map_nil, List.mem_cons, List.not_mem_nil, or_false] at hr
          rcases hr with rfl | rfl <;> exact ⟨rfl, rfl⟩
        · intro x y hxy
          simp only [List.cons.injEq, Prod.mk.injEq, true_and, and_true] at hxy
          obtain ⟨rfl, rfl⟩ := hxy
          exact ⟨sy, sx, rfl, hN⟩

/-- **C87.** Every pixel is found at its place in the scan: no frame is lost, moved or mixed with the two rows that follow each frame in the file. Axes of length one are left out; bytes after the last frame
do not matter. -/
theorem C87_places {nav : List (String × Nat)} (hd : Described om nav) {px : List Nat → List Nat → Nat} {footer : List Nat → List UInt8} {rest : List UInt8}
    (hf : ∀ i, InBounds (nav.map Prod.snd) i → (footer i).length = 4 * 2 * 128) (hpx : ∀ i rc, px i rc < 2 ^ 32) {res : Result}
    (h : fileReader lib om q (rawFile (nav.map Prod.snd) px footer rest) = .ok res) :
    res.shape = (nav.map Prod.snd ++ [128, 128]).filter (· ≠ 1) ∧ res.data.length = size res.shape ∧
    ∀ i r c, InBounds (nav.map Prod.snd) i → r < 128 → c < 128 →
      res.data[flatIndex res.shape (squeezeIdx (nav.map Prod.snd ++ [128, 128]) (i ++ [r, c]))]? = some (px i [r, c]) := by
  obtain ⟨s, rs, _, _, _, hsh, hr, _⟩ := reader_parts hd h
  obtain ⟨d, h1, h2, h3⟩ := data_read (rest := rest) hf hpx
  rw [h1] at hr
  simp only [Except.ok.injEq] at hr
  subst hr
  refine ⟨hsh, by rw [h2, hsh, size_squeeze], fun i r c hi hr hc => ?_⟩
  rw [hsh, flatIndex_squeeze, h3 i r c hi hr hc]
  exact List.rel_append hi (.cons hr (.cons hc .nil))

theorem kept_sizes : ∀ {nav : List (String × Nat)}, (∀ e ∈ nav, 0 < e.2) →
    ((nav.map (fun e => (e.1, (e.2 : Int), true)) ++ [("height", (128 : Int), false), ("width", 128, false)]).filter fun e => e.2.1 > 1).map (·.2.1) =
      ((nav.map Prod.snd ++ [128, 128]).filter (· ≠ 1)).map Int.ofNat
  | [], _ => rfl
  | e :: nav, hpos => by
    have ih := kept_sizes (nav := nav) fun x hx => hpos x (List.mem_cons_of_mem _ hx)
    have he := hpos e (List.mem_cons_self ..)
    rw [List.map_cons, List.map_cons (f := Prod.snd), List.cons_append, List.cons_append, List.filter_cons, List.filter_cons]
    by_cases h1 : e.2 = 1
    · rw [if_neg (by simp [h1]), if_neg (by simp [h1])]
      exact ih
    · rw [if_pos (by simp; omega), if_pos (by simpa using h1), List.map_cons, List.map_cons (f := Int.ofNat), ih]
      rfl

/-- **C87.** The axes fit the data. -/
theorem C87_shape {nav : List (String × Nat)} (hd : Described om nav) (hpos : ∀ e ∈ nav, 0 < e.2) {raw : List UInt8} {res : Result} (h : fileReader lib om q raw = .ok res) :
    res.axes.map Axis.size = res.shape.map (Int.ofNat) ∧ res.axes.map Axis.index = List.range res.shape.length := by
  obtain ⟨s, rs, hn, hrs, hax, hsh, _⟩ := reader_parts hd h
  obtain ⟨p, _, ns, rfl, hns, _⟩ := rows_parts hn hrs
  have h1 := axesFrom_rows 0 (ns ++ [⟨"height", 128, p.1, p.2, -64, false⟩, ⟨"width", 128, p.1, p.2, -64, false⟩])
  have h2 : res.axes.map Axis.size = res.shape.map Int.ofNat := by
    have e : res.axes.map Axis.size = (res.axes.map fun a => (a.name, a.size, a.navigate)).map (·.2.1) := by rw [List.map_map]; rfl
    rw [e, hax, h1, hsh, List.map_append, hns]
    exact kept_sizes hpos
  refine ⟨h2, ?_⟩
  have h3 : res.axes.length = res.shape.length := by
    have := congrArg List.length h2
    simpa using this
  rw [hax, axesFrom_index, ← hax, h3]
  simp

/-- **C87.** A raw file that is too short is never loaded. -/
theorem C87_short {nav : List (String × Nat)} (hd : Described om nav) {raw : List UInt8} (hs : raw.length < (nav.map Prod.snd).foldr (· * ·) 1 * (4 * 130 * 128)) (res : Result) :
    fileReader lib om q raw ≠ .ok res := by
  intro h
  obtain ⟨s, rs, _, _, _, _, hr, _⟩ := reader_parts hd h
  have e : ∀ l : List Nat, l.foldr (· * ·) 1 = size l := by
    intro l
    induction l with
    | nil => rfl
    | cons n l ih => rw [List.foldr_cons, ih, size]
  rw [e] at hs
  unfold readRaw at hr
  rw [if_pos (by rw [Nat.div_lt_iff_lt_mul (by decide)]; exact hs)] at hr
  exact absurd hr (by simp)

/-- **C87.** Complete files are loaded. -/
theorem C87_loads {nav : List (String × Nat)} (hd : Described om nav) (hpos : ∀ e ∈ nav, 0 < e.2) (hr : Readable lib om) {px : List Nat → List Nat → Nat} {footer : List Nat → List UInt8}
    {rest : List UInt8} (hf : ∀ i, InBounds (nav.map Prod.snd) i → (footer i).length = 4 * 2 * 128) (hpx : ∀ i rc, px i rc < 2 ^ 32) :
    ∃ res, fileReader lib om q (rawFile (nav.map Prod.snd) px footer rest) = .ok res := by
  obtain ⟨s, hs, hn⟩ := parse_ok hd
  obtain ⟨h1, h2⟩ := shape_nat hn
  obtain ⟨d, hdat, _⟩ := data_read (rest := rest) hf hpx
  have hp : ∃ p, patternScale lib om q = .ok p := by
    unfold patternScale
    cases q with
    | some v => exact ⟨_, rfl⟩
    | none =>
      dsimp only
      cases ht : om "root.iom_measurements.calibrated_pixelsize" with
      | none => exact ⟨_, rfl⟩
      | some t =>
        obtain ⟨v, hv⟩ := hr.pixel t ht
        dsimp only
        rw [hv]
        exact ⟨_, rfl⟩
  obtain ⟨p, hp⟩ := hp
  have hrows : ∃ rs, rows lib om q s = .ok rs := by
    unfold rows
    cases s with
    | unknown => exact hn.elim
    | series n =>
      simp only [navRows, hp, bind, Except.bind]
      exact ⟨_, rfl⟩
    | grid x y =>
      obtain ⟨a, b, rfl, rfl, rfl⟩ := hn
      have ha := hpos ("scan_x", a) (by simp)
      have hb := hpos ("scan_y", b) (by simp)
      dsimp only at ha hb
      obtain ⟨l, hl⟩ := navScales_loads hr (y := b) (x := a) (by omega) (by omega)
      simp only [navRows, hl, hp, Except.map, bind, Except.bind]
      exact ⟨_, rfl⟩
  obtain ⟨rs, hrs⟩ := hrows
  have hdt : ∃ x, dateOf (om "root.timestamp.isoformat") = .ok x := by
    cases ht : om "root.timestamp.isoformat" with
    | none => exact ⟨_, rfl⟩
    | some t =>
      obtain ⟨a, b, ha, hb, rfl⟩ := hr.date t ht
      unfold dateOf
      dsimp only
      rw [splitChar_append ha, splitChar_none hb]
      exact ⟨_, rfl⟩
  obtain ⟨dt, hdt⟩ := hdt
  unfold fileReader
  simp only [hs, hrs, hdt, bind, Except.bind]
  rw [h2, if_neg (by simp), h1, hdat]
  exact ⟨_, rfl⟩

/-- **C88.** Names and lengths of the axes, in the order of the array; the diffraction patterns are the signal. -/
theorem C88_axes {nav : List (String × Nat)} (hd : Described om nav) {raw : List UInt8} {res : Result} (h : fileReader lib om q raw = .ok res) :
    res.axes.map (fun a => (a.name, a.size, a.navigate)) =
      (nav.filter (·.2 > 1)).map (fun e => (e.1, (e.2 : Int), true)) ++ [("height", 128, false), ("width", 128, false)] ∧
    res.axes.map Axis.index = List.range res.axes.length := by
  obtain ⟨s, rs, hn, hrs, hax, hsh, _⟩ := reader_parts hd h
  obtain ⟨p, _, ns, rfl, hns, _⟩ := rows_parts hn hrs
  refine ⟨?_, by rw [hax, axesFrom_index]; simp⟩
  rw [hax, axesFrom_rows, List.map_append, List.filter_append, hns, List.filter_map]
  congr 2
  apply List.filter_congr
  intro e _
  simp

/-- **C88.** The pixels of the diffraction patterns: the number given by the user, or the one of the file (which is in inverse metres), and the middle of the detector is zero. -/
theorem C88_pattern {nav : List (String × Nat)} (hd : Described om nav) {raw : List UInt8} {res : Result} (h : fileReader lib om q raw = .ok res) {a : Axis} (ha : a ∈ res.axes)
    (hname : a.name = "height" ∨ a.name = "width") :
    a.offset + 64 * a.scale = 0 ∧ (∀ v, q = some v → a.scale = v ∧ a.units = .text (some "1/nm")) ∧
    (q = none → ∀ t v, om "root.iom_measurements.calibrated_pixelsize" = some t → lib.float t = .ok v → a.scale * 10 ^ (-9 : Int) = v ∧ a.units = .text (some "1/nm")) ∧
    (q = none → om "root.iom_measurements.calibrated_pixelsize" = none → a.scale = 1 ∧ a.units = .text none) := by
  obtain ⟨s, rs, hn, hrs, hax, hsh, _⟩ := reader_parts hd h
  obtain ⟨p, hp, ns, rfl, hns, _⟩ := rows_parts hn hrs
  rw [hax] at ha
  obtain ⟨r, hr, e1, _, e3, e4, e5, _⟩ := axesFrom_mem ha
  have hr' : r.scale = p.1 ∧ r.units = p.2 ∧ r.origin = -64 := by
    rcases List.mem_append.1 hr with hr | hr
    · exfalso
      have : (r.name, r.size, r.navigate) ∈ nav.map fun e => (e.1, (e.2 : Int), true) := by
        rw [← hns]
        exact List.mem_map_of_mem hr
      obtain ⟨e, he, hee⟩ := List.mem_map.1 this
      simp only [Prod.mk.injEq] at hee
      rw [e1, ← hee.1] at hname
      cases hd with
      | series n raw _ _ => rw [List.mem_singleton] at he; subst he; simp at hname
      | entries x y raw _ _ _ _ => simp only [List.mem_cons, List.not_mem_nil, or_false] at he; rcases he with rfl | rfl <;> simp at hname
      | name x y p' ext _ _ _ _ _ => simp only [List.mem_cons, List.not_mem_nil, or_false] at he; rcases he with rfl | rfl <;> simp at hname
    · simp only [List.mem_cons, List.not_mem_nil, or_false] at hr
      rcases hr with rfl | rfl <;> exact ⟨rfl, rfl, rfl⟩
  obtain ⟨f1, f2, f3⟩ := hr'
  rw [e3, e4, e5, f1, f2, f3]
  refine ⟨by push_cast; ring, ?_, ?_, ?_⟩
  · intro v hv
    subst hv
    simp only [patternScale, Except.ok.injEq] at hp
    rw [← hp]
    exact ⟨rfl, rfl⟩
  · intro hq t v ht hv
    subst hq
    unfold patternScale at hp
    rw [ht] at hp
    simp only [hv, Except.map, Except.ok.injEq] at hp
    rw [← hp]
    refine ⟨?_, rfl⟩
    dsimp only
    rw [mul_assoc]
    norm_num
  · intro hq ht
    subst hq
    unfold patternScale at hp
    rw [ht] at hp
    simp only [Except.ok.injEq] at hp
    rw [← hp]
    exact ⟨rfl, rfl⟩

/-- **C88.** The steps of a scan, whatever unit is chosen: all steps together are the field of view. The axes of a scan start at zero. -/
theorem C88_scan {x y : Nat} (hd : Described om [("scan_y", y), ("scan_x", x)]) {raw : List UInt8} {res : Result} (h : fileReader lib om q raw = .ok res) :
    ∃ sy sx, NavScale lib om y x sy sx ∧ (∀ a ∈ res.axes, a.name = "scan_y" → (a.scale, a.units) = sy ∧ a.offset = 0) ∧
      ∀ a ∈ res.axes, a.name = "scan_x" → (a.scale, a.units) = sx ∧ a.offset = 0 := by
  obtain ⟨s, rs, hn, hrs, hax, hsh, _⟩ := reader_parts hd h
  obtain ⟨p, hp, ns, rfl, hns, ho, _, hg⟩ := rows_parts hn hrs
  obtain ⟨sy, sx, rfl, hN⟩ := hg x y rfl
  refine ⟨sy, sx, hN, ?_, ?_⟩
  all_goals
    intro a ha hname
    rw [hax] at ha
    obtain ⟨r, hr, e1, _, e3, e4, e5, _⟩ := axesFrom_mem ha
    rw [e1] at hname
    simp only [List.cons_append, List.nil_append, List.mem_cons, List.not_mem_nil, or_false] at hr
    rcases hr with rfl | rfl | rfl | rfl
    all_goals first
      | (exfalso; simp at hname; done)
      | (rw [e3, e4, e5]; simp)

/-- **C88.** The axis of a stack counts the images. -/
theorem C88_series {n : Nat} (hd : Described om [("series_count", n)]) {raw : List UInt8} {res : Result} (h : fileReader lib om q raw = .ok res) {a : Axis} (ha : a ∈ res.axes)
    (hname : a.name = "series_count") : a.scale = 1 ∧ a.offset = 0 ∧ a.units = .text (some "ms") := by
  obtain ⟨s, rs, hn, hrs, hax, hsh, _⟩ := reader_parts hd h
  obtain ⟨p, hp, ns, rfl, hns, ho, hg, _⟩ := rows_parts hn hrs
  rw [hax] at ha
  obtain ⟨r, hr, e1, _, e3, e4, e5, _⟩ := axesFrom_mem ha
  rw [e1] at hname
  rcases List.mem_append.1 hr with hr | hr
  · obtain ⟨g1, g2⟩ := hg n rfl r hr
    rw [e3, e4, e5, g1, g2, (ho r hr).1]
    simp
  · simp only [List.mem_cons, List.not_mem_nil, or_false] at hr
    rcases hr with rfl | rfl <;> exact absurd hname (by simp)

/-- **C88.** Date and time of the file. -/
theorem C88_date {nav : List (String × Nat)} (hd : Described om nav) {raw : List UInt8} {res : Result} (h : fileReader lib om q raw = .ok res) :
    (om "root.timestamp.isoformat" = none → res.date = none) ∧
    ∀ a b : Text, 'T' ∉ a → 'T' ∉ b → om "root.timestamp.isoformat" = some (a ++ 'T' :: b) → res.date = some (a, b) := by
  obtain ⟨s, rs, hn, hrs, hax, hsh, _, h1, h2⟩ := reader_parts hd h
  refine ⟨h1, fun a b ha hb ht => ?_⟩
  obtain ⟨a', b', e, hd⟩ := h2 _ ht
  rw [splitChar_append ha, splitChar_none hb] at e
  simp only [List.cons.injEq, and_true] at e
  rw [hd, e.1, e.2]

/-- The texts of a file. -/
def texts (l : List (String × String)) : Om := fun k => (l.lookup k).map String.toList

/-- A library. -/
def someLib (u v : Rat) : Lib := ⟨fun _ => .ok (u, v), fun _ => .ok u, fun _ => .ok v, fun _ => -6⟩

/-- A raw file whose name does not begin with `scan_` passes the check of the scan parameters, and the reader stops with a `KeyError` instead of the message that the file is not supported. -/
theorem C88_fails_name : fileReader (someLib 1 1) (texts [("root.raw_file.filename", "acquisition_x256_y256.raw")]) none [] = .error .keyError := by rfl

/-- A dot anywhere in the name of the raw file cuts the scan off. -/
theorem C88_fails_dot : fileReader (someLib 1 1) (texts [("root.raw_file.filename", "scan_0.5um_x256_y256.raw")]) none [] = .error .ioError := by rfl

/-- A time stamp without a time makes the file unreadable. -/
theorem C88_fails_date : fileReader (someLib 1 1) (texts [("root.raw_file.filename", "a.raw"), ("root.scan_parameters.series_count", "1"), ("root.timestamp.isoformat", "2019-06-07")]) none [] =
    .error .valueError := by rfl

example : Described (texts [("root.raw_file.filename", "scan_x4_y12.raw")]) [("scan_y", 12), ("scan_x", 4)] :=
  .name 4 12 "scan".toList "raw".toList (by decide) (by decide) (by decide +kernel) (by decide) (.inl (by decide))
example : Described (texts [("root.raw_file.filename", "scan_a_x4_y12.raw")]) [("scan_y", 12), ("scan_x", 4)] :=
  .name 4 12 "scan_a".toList "raw".toList (by decide) (by decide) (by decide +kernel) (by decide) (.inl (by decide))
example : Described (texts [("root.raw_file.filename", "a.raw"), ("root.pix_x", "3"), ("root.pix_y", "2")]) [("scan_y", 2), ("scan_x", 3)] :=
  .entries 3 2 "a.raw".toList (by decide) (by decide) (by decide +kernel) (by decide +kernel)
example : Described (texts [("root.raw_file.filename", "a.raw"), ("root.scan_parameters.series_count", "30")]) [("series_count", 30)] :=
  .series 30 "a.raw".toList (by decide) (by decide +kernel)
example : Readable (someLib 1 1) (texts [("root.raw_file.filename", "a.raw"), ("root.timestamp.isoformat", "2019-06-07T16:12:21")]) := by
  refine ⟨fun t h => ⟨_, rfl⟩, fun t h => ⟨_, rfl⟩, fun t h => ⟨_, rfl, by decide⟩, fun t h => ⟨_, rfl⟩, fun t h => ?_⟩
  have : t = "2019-06-07T16:12:21".toList := by simpa [texts, List.lookup] using h.symm
  subst this
  exact ⟨"2019-06-07".toList, "16:12:21".toList, by decide, by decide, by decide⟩
/-- A whole file is loaded: two rows of three frames. -/
example : ∃ res, fileReader (someLib 6 4) (texts [("root.raw_file.filename", "a.raw"), ("root.pix_x", "3"), ("root.pix_y", "2"),
      ("root.iom_measurements.optics.get_full_scan_field_of_view", "(6.0, 4.0)")]) none
      (rawFile [2, 3] (fun i rc => (i.getD 0 0 * 3 + i.getD 1 0) % 7) (fun _ => List.replicate 1024 0) []) = .ok res := by
  refine C87_loads (nav := [("scan_y", 2), ("scan_x", 3)]) (.entries 3 2 "a.raw".toList (by decide) (by decide) (by decide +kernel) (by decide +kernel)) (by decide) ?_ ?_ ?_
  · refine ⟨fun t h => ⟨_, rfl⟩, fun t h => ⟨_, rfl⟩, fun t h => ⟨_, rfl, by decide⟩, fun t h => ⟨_, rfl⟩, fun t h => ?_⟩
    exact absurd h (by simp [texts, List.lookup])
  · intro i _; exact List.length_replicate
  · intro i rc; omega

end Verif.Props.Empad
