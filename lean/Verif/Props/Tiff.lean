import Verif.Lemmas.Tiff
import Verif.Props.Rgb
/-!
C118: reading TIFF files.
-/
namespace Verif.Props.Tiff
open Verif Verif.Tiff Verif.Spec.Tiff

/-! ### Axes -/

theorem mapM_forall₂ {α β : Type} {g : α → Py β} : ∀ {l : List α} {r : List β}, l.mapM g = .ok r → List.Forall₂ (fun a b => g a = .ok b) l r
  | [], r, h => by
    simp only [List.mapM_nil, pure, Except.pure] at h
    cases h
    exact .nil
  | a :: l, r, h => by
    simp only [List.mapM_cons, bind, Except.bind, pure, Except.pure] at h
    cases ha : g a with
    | error e => rw [ha] at h; cases h
    | ok b =>
      rw [ha] at h
      cases hl : l.mapM g with
      | error e => rw [hl] at h; cases h
      | ok bs =>
        rw [hl] at h
        cases h
        exact .cons ha (mapM_forall₂ hl)

theorem forall₂_get {α β : Type} {R : α → β → Prop} : ∀ {l : List α} {r : List β}, List.Forall₂ R l r →
    ∀ {i : Nat} {a : α}, l[i]? = some a → ∃ b, r[i]? = some b ∧ R a b
  | _, _, .nil, i, a, h => by simp at h
  | _, _, .cons hab ht, 0, a, h => by
    cases h
    exact ⟨_, rfl, hab⟩
  | _, _, .cons hab ht, i + 1, a, h => by
    simp only [List.getElem?_cons_succ] at h ⊢
    exact forall₂_get ht h

theorem navigates_get {n i : Nat} (h : i < n) : (navigates n)[i]? = some (decide (i + 2 < n)) := by
  unfold navigates
  by_cases hi : i < n - 2
  · rw [List.getElem?_append_left (by simpa using hi), List.getElem?_replicate, if_pos hi]
    congr 1
    exact (decide_eq_true (by omega)).symm
  · rw [List.getElem?_append_right (by simpa using hi), List.length_replicate]
    have h2 : i - (n - 2) = 0 ∨ i - (n - 2) = 1 := by omega
    have h3 : decide (i + 2 < n) = false := decide_eq_false (by omega)
    rw [h3]
    rcases h2 with h2 | h2 <;> rw [h2] <;> rfl

theorem build_get {shape : List Nat} {names : List (Option Text)} {values : List (T × T × T)} {i n : Nat} {name : Option Text} {v : T × T × T}
    (h1 : shape[i]? = some n) (h2 : names[i]? = some name) (h3 : values[i]? = some v) :
    (build shape names values)[i]? = some (.lin n (showName name) v.1 v.2.1 v.2.2 (some (decide (i + 2 < shape.length)))) := by
  have hi : i < shape.length := (List.getElem?_eq_some_iff.1 h1).1
  have h4 := navigates_get hi
  unfold build
  rw [List.getElem?_map]
  have : (shape.zip (names.zip (values.zip (navigates shape.length))))[i]? = some (n, name, v, decide (i + 2 < shape.length)) :=
    List.getElem?_zip_eq_some.2 ⟨h1, List.getElem?_zip_eq_some.2 ⟨h2, List.getElem?_zip_eq_some.2 ⟨h3, h4⟩⟩⟩
  rw [this]
  rfl

theorem build_length {shape : List Nat} {names : List (Option Text)} {values : List (T × T × T)} (h1 : names.length = shape.length)
    (h2 : values.length = shape.length) : (build shape names values).length = shape.length := by
  have : shape.length ≤ (navigates shape.length).length := by
    simp only [navigates, List.length_append, List.length_replicate, List.length_cons, List.length_nil]
    omega
  simp only [build, List.length_map, List.length_zip, h1, h2]
  omega

theorem labels_length {letters : Text} {names : List (Option Text)} (h : letters.mapM labelOf = .ok names) : names.length = letters.length :=
  (mapM_forall₂ h).length_eq.symm

/-- A letter gives its name, and the collected values of its axis. -/
theorem label_ok {c : Char} {name : Option Text} (h : labelOf c = .ok name) {k : Collected} {l : Cals} (hm : Matches k l) :
    (∀ t, letter c = some t → showName name = t) ∧ byName k name = ((calOf c l).scale, (calOf c l).offset, (calOf c l).units) := by
  obtain ⟨hw, hh, hd⟩ := hm
  unfold labelOf at h
  split at h
  all_goals first
    | (cases h
       refine ⟨fun t ht => ?_, ?_⟩
       · first | exact (Option.some.inj ht) | cases ht
       · first
         | (simp only [calOf, if_pos, hw]; rfl)
         | (simp only [calOf, if_pos, hh]; rfl)
         | (simp only [calOf, if_pos, hd]; rfl)
         | rfl)
    | cases h

theorem axesOf_shows {letters : Text} {names : List (Option Text)} (h : letters.mapM labelOf = .ok names) {shape : List Nat}
    (hs : letters.length = shape.length) {k : Collected} {l : Cals} (hm : Matches k l) : Shows letters shape l (axesOf k shape names) := by
  have hl := labels_length h
  refine ⟨build_length (by omega) (by simp; omega), fun i c n hc hn => ?_⟩
  obtain ⟨name, h1, h2⟩ := forall₂_get (mapM_forall₂ h) hc
  obtain ⟨h3, h4⟩ := label_ok h2 hm
  refine ⟨showName name, h3, ?_⟩
  have h5 : (names.map (byName k))[i]? = some (byName k name) := by rw [List.getElem?_map, h1]; rfl
  rw [h4] at h5
  exact build_get hn h1 h5

theorem plain_shows {letters : Text} {names : List (Option Text)} (h : letters.mapM labelOf = .ok names) {shape : List Nat}
    (hs : letters.length = shape.length) : Shows letters shape ⟨plain, plain, plain⟩ (axesOr shape names (.error .keyError)) := by
  have hl := labels_length h
  refine ⟨build_length (by omega) (by simp; omega), fun i c n hc hn => ?_⟩
  obtain ⟨name, h1, h2⟩ := forall₂_get (mapM_forall₂ h) hc
  obtain ⟨h3, _⟩ := label_ok h2 (k := defaults) (l := ⟨plain, plain, plain⟩) ⟨rfl, rfl, rfl⟩
  refine ⟨showName name, h3, ?_⟩
  have h5 : (names.map fun _ => ((.num 1, .num 0, .null) : T × T × T))[i]? = some (.num 1, .num 0, .null) := by rw [List.getElem?_map, h1]; rfl
  have hp : calOf c ⟨plain, plain, plain⟩ = plain := by
    unfold calOf
    split_ifs <;> rfl
  rw [hp]
  exact build_get hn h1 h5

/-! ### What reading does -/

/-- The parts of a signal that was read. -/
theorem read_parts {env : Env} {f : Tiff} {name : Text} {force : Bool} {ty : StreakType} {h : Handle} {s : Sig} (hr : readTiff env f name force ty h = .ok s) :
    ∃ names op r m m' op', ty ≠ .other ∧ (frame h).1.mapM labelOf = .ok names ∧
      parseScale env f h.page (opOf h.page.tags) (frame h).2 force names ty = (op, r) ∧
      dateOf env op ⟨baseName name, [], none, none, none, none, none, none⟩ = .ok m ∧
      loadData h.page.rgb h = .ok s.data ∧ addStreak env f op (intensity op m) = .ok (op', m') ∧
      mappingOf h.page op' = .ok s.mapping ∧ s.axes = axesOr (frame h).2 names r ∧ s.original = op' ∧
      s.meta' = { m' with title := getKw "SightX_Notes".toList op' } := by
  unfold readTiff at hr
  simp only [bind, Except.bind] at hr
  have hw : ∀ a sh, withoutColours h.page.rgb h = .ok (a, sh) → frame h = (a, sh) := by
    intro a sh e
    unfold withoutColours at e
    unfold frame
    cases hrgb : h.page.rgb with
    | false =>
      rw [hrgb] at e
      simp only [Bool.not_false, if_true] at e
      cases e
      rfl
    | true =>
      rw [hrgb] at e
      simp only [Bool.not_true, Bool.false_eq_true, if_false] at e
      split at e
      · cases e
      · split at e
        · cases e
        · cases e
          rfl
  cases h1 : withoutColours h.page.rgb h with
  | error e => rw [h1] at hr; cases hr
  | ok as =>
    obtain ⟨a, sh⟩ := as
    have hf := hw a sh h1
    rw [h1] at hr
    simp only at hr
    cases h2 : a.mapM labelOf with
    | error e => rw [h2] at hr; cases hr
    | ok names =>
      rw [h2] at hr
      simp only at hr
      by_cases ht : ty = .other
      · rw [if_pos ht] at hr; cases hr
      · rw [if_neg ht] at hr
        cases h3 : parseScale env f h.page (opOf h.page.tags) sh force names ty with
        | mk op r =>
          rw [h3] at hr
          simp only at hr
          cases h4 : dateOf env op ⟨baseName name, [], none, none, none, none, none, none⟩ with
          | error e => rw [h4] at hr; cases hr
          | ok m =>
            rw [h4] at hr
            simp only at hr
            cases h5 : loadData h.page.rgb h with
            | error e => rw [h5] at hr; cases hr
            | ok d =>
              rw [h5] at hr
              simp only at hr
              cases h6 : addStreak env f op (intensity op m) with
              | error e => rw [h6] at hr; cases hr
              | ok om =>
                obtain ⟨op', m'⟩ := om
                rw [h6] at hr
                simp only at hr
                cases h7 : mappingOf h.page op' with
                | error e => rw [h7] at hr; cases hr
                | ok mp =>
                  rw [h7] at hr
                  simp only [pure, Except.pure] at hr
                  cases hr
                  rw [hf]
                  exact ⟨names, op, r, m, m', op', ht, h2, h3, h4, rfl, h6, h7, rfl, rfl, rfl⟩

theorem read_axes {env : Env} {f : Tiff} {name : Text} {force : Bool} {ty : StreakType} {h : Handle} {s : Sig} (hr : readTiff env f name force ty h = .ok s)
    {l : Cals} (g : Gives env f h.page force l) (hl : h.axes.length = h.shape.length) : Shows (frame h).1 (frame h).2 l s.axes := by
  obtain ⟨names, op, r, m, m', op', _, h2, h3, _, _, _, _, h8, _⟩ := read_parts hr
  obtain ⟨op'', c, e, hm⟩ := gives_parse (shape := (frame h).2) (names := names) (ty := ty) g
  rw [h3] at e
  have er : r = .ok (axesOf c (frame h).2 names) := (Prod.mk.inj e).2
  rw [h8, er]
  refine axesOf_shows h2 ?_ hm
  unfold frame
  split
  · simp [hl]
  · exact hl

/-- The handles that are read: series, or pages if asked for. -/
theorem file_forall {env : Env} {name : Text} {force asList : Bool} {ty : StreakType} {pages : List Handle} {f : Tiff} {sigs : List Sig}
    (h : fileReader env name force asList ty pages f = .ok sigs) :
    List.Forall₂ (fun h s => readTiff env f name force ty h = .ok s) (if asList then pages else f.series) sigs :=
  mapM_forall₂ h

/-- **C118, partial.** There is one signal for every series of the file, or for every page if asked for. Its axes have the
lengths of the data and the names of the letters, all but the last two are for navigation, and scale, offset and units are those
that the program which wrote the file gives (`Gives`): the horizontal ones for the width, the vertical ones for the height.
Missing: pixels that are not square in files of FEI, TVIPS and Olympus; there the two are exchanged (`C118_fails_exchanged`). -/
theorem C118_axes_partial {env : Env} {name : Text} {force asList : Bool} {ty : StreakType} {pages : List Handle} {f : Tiff} {sigs : List Sig}
    (h : fileReader env name force asList ty pages f = .ok sigs) :
    List.Forall₂ (fun h s => h.axes.length = h.shape.length → ∀ l, Gives env f h.page force l → Shows (frame h).1 (frame h).2 l s.axes)
      (if asList then pages else f.series) sigs := by
  refine (file_forall h).imp fun h s hr hl l g => ?_
  exact read_axes hr g hl

theorem forced_bad {p : Page} {v : T} (hu : Tag p.tags "ResolutionUnit" v) (n : v ≠ .num 1) (hn : NoPixels p.tags) :
    ∃ e, forced (opOf p.tags) = .error e := by
  have e1 : v.isNum 1 = false := by
    rw [← Bool.not_eq_true, isNum_iff]
    exact n
  have hb : ∃ e, resolutions 1 (opOf p.tags) = .error e := by
    unfold resolutions
    simp only [bind, Except.bind]
    cases hy : resolution "YResolution" 1 (opOf p.tags) with
    | error e => exact ⟨e, rfl⟩
    | ok y =>
      simp only
      cases hx : resolution "XResolution" 1 (opOf p.tags) with
      | error e => exact ⟨e, rfl⟩
      | ok x =>
        exfalso
        rcases hn with h | h | ⟨d, h | h⟩
        · obtain ⟨e, he⟩ := resolution_bad (factor := 1) (.inl h)
          rw [he] at hy; cases hy
        · obtain ⟨e, he⟩ := resolution_bad (factor := 1) (.inl h)
          rw [he] at hx; cases hx
        · obtain ⟨e, he⟩ := resolution_bad (factor := 1) (.inr ⟨d, h⟩)
          rw [he] at hy; cases hy
        · obtain ⟨e, he⟩ := resolution_bad (factor := 1) (.inr ⟨d, h⟩)
          rw [he] at hx; cases hx
  obtain ⟨e, he⟩ := hb
  exact ⟨e, by simp only [forced, tag_sub hu, bind, Except.bind, e1, Bool.false_eq_true, if_false, he]⟩

/-- **C118, no resolution.** If the resolution was asked for and cannot be used, the axes have names and lengths, scale 1, offset 0
and no units. -/
theorem C118_unreadable {env : Env} {f : Tiff} {name : Text} {ty : StreakType} {h : Handle} {s : Sig} (hr : readTiff env f name true ty h = .ok s)
    (hl : h.axes.length = h.shape.length) (k : Forced h.page true) {v : T} (hu : Tag h.page.tags "ResolutionUnit" v) (n : v ≠ .num 1)
    (hn : NoPixels h.page.tags) : Shows (frame h).1 (frame h).2 ⟨plain, plain, plain⟩ s.axes := by
  obtain ⟨names, op, r, m, m', op', _, h2, h3, _, _, _, _, h8, _⟩ := read_parts hr
  obtain ⟨e, he⟩ := forced_bad hu n hn
  have e1 : parseScale env f h.page (opOf h.page.tags) (frame h).2 true names ty = (opOf h.page.tags, .error e) := by
    unfold parseScale
    rw [if_pos (forced_iff.2 k), he]
    rfl
  rw [h3] at e1
  rw [h8, (Prod.mk.inj e1).2]
  have := plain_shows (shape := (frame h).2) h2 (by unfold frame; split; · simp [hl]
                                                    · exact hl)
  exact this

/-! ### Data -/

theorem groups_length {k n : Nat} {flat : List Nat} (h : flat.length = n * k) : ∀ q ∈ Rgb.groups k n flat, q.length = k := by
  intro q hq
  unfold Rgb.groups at hq
  obtain ⟨i, hi, rfl⟩ := List.mem_map.1 hq
  rw [List.length_take, List.length_drop, h]
  have h1 : (i + 1) * k ≤ n * k := Nat.mul_le_mul_right k (List.mem_range.1 hi)
  rw [Nat.succ_mul] at h1
  omega

/-- Arrays of colours that are made of a regular array. -/
theorem coloured {r : Rgb.Reg} (hr : r.flat.length = r.shape.prod) {a : Rgb.RgbArr} (h : Rgb.regular2rgbx false r = .ok a) :
    a.px.flatten = r.flat ∧ r.shape = a.shape ++ [if a.alpha then 4 else 3] ∧ (a.wide = true ↔ r.dt = .u2) ∧
      a.px.length = a.shape.prod ∧ ∀ q ∈ a.px, q.length = if a.alpha then 4 else 3 := by
  obtain ⟨dt, shape, flat⟩ := r
  simp only at hr
  unfold Rgb.regular2rgbx at h
  simp only [Bool.false_eq_true, if_false] at h
  cases hl : shape.getLast? with
  | none => rw [hl] at h; cases h
  | some k =>
    rw [hl] at h
    simp only at h
    by_cases hk : k ≠ 3 ∧ k ≠ 4
    · rw [if_pos hk] at h; cases h
    · rw [if_neg hk] at h
      have hs : shape = shape.dropLast ++ [k] := by
        have := List.dropLast_append_getLast? k (by rw [hl]; rfl)
        exact this.symm
      have hf : flat.length = shape.dropLast.foldr (· * ·) 1 * k := by
        rw [hr]
        conv_lhs => rw [hs]
        rw [List.prod_append, List.prod_singleton]
        rfl
      have hk' : (if decide (k = 4) = true then 4 else 3) = k := by
        by_cases h4 : k = 4
        · simp [h4]
        · have : k = 3 := by omega
          simp [this]
      cases dt with
      | other => cases h
      | u1 =>
        cases h
        exact ⟨Rgb.flatten_groups k _ _ hf, by simp only [hk']; exact hs, ⟨(fun e => by cases e), (fun e => by cases e)⟩,
          by simp [Rgb.groups]; rfl, fun q hq => by simp only [hk']; exact groups_length hf q hq⟩
      | u2 =>
        cases h
        exact ⟨Rgb.flatten_groups k _ _ hf, by simp only [hk']; exact hs, ⟨fun _ => rfl, fun _ => rfl⟩,
          by simp [Rgb.groups]; rfl, fun q hq => by simp only [hk']; exact groups_length hf q hq⟩

/-- **C118, data.** The numbers are those of the file; with colours, three or four of them for every pixel, in order. -/
theorem C118_data {env : Env} {f : Tiff} {name : Text} {force : Bool} {ty : StreakType} {h : Handle} {s : Sig} (hr : readTiff env f name force ty h = .ok s) :
    (h.page.rgb = false → s.data = .reg h.data) ∧
    (h.page.rgb = true → h.data.flat.length = h.data.shape.prod → ∃ a, s.data = .rgb a ∧ a.px.flatten = h.data.flat ∧
      h.data.shape = a.shape ++ [if a.alpha then 4 else 3] ∧ (a.wide = true ↔ h.data.dt = .u2) ∧ a.px.length = a.shape.prod ∧
      ∀ q ∈ a.px, q.length = if a.alpha then 4 else 3) := by
  obtain ⟨names, op, r, m, m', op', _, _, _, _, h5, _⟩ := read_parts hr
  refine ⟨fun hn => ?_, fun hy hd => ?_⟩
  · rw [hn] at h5
    exact (Except.ok.inj h5).symm
  · rw [hy] at h5
    simp only [loadData, if_true, bind, Except.bind, pure, Except.pure] at h5
    cases ha : Rgb.regular2rgbx false h.data with
    | error e => rw [ha] at h5; cases h5
    | ok a =>
      rw [ha] at h5
      exact ⟨a, (Except.ok.inj h5).symm, coloured hd ha⟩

/-! ### Success and failure -/

/-- Keys that reading the calibration may change. -/
def ownKeys : List String := ["fei_metadata", "FEI_HELIOS", "FEI_SFEG", "Olympus_SIS_metadata", "ImageDescription", "SightX_Notes"]

theorem get_set_other {k k' : String} {v : T} {op : Op} (h : k ≠ k') : getKw k.toList (setKw k'.toList v op) = getKw k.toList op := by
  rw [getKw_setKw, if_neg (fun e => h (String.toList_inj.1 e))]

theorem get_del_other {k k' : String} {op : Op} (h : k ≠ k') : getKw k.toList (delKw k'.toList op) = getKw k.toList op := by
  induction op with
  | nil => rfl
  | cons p op ih =>
    obtain ⟨n, v⟩ := p
    unfold delKw at ih ⊢
    by_cases hn : n = k'.toList
    · rw [List.filter_cons_of_neg (by simp [hn]), ih]
      have : n ≠ k.toList := fun e => h (String.toList_inj.1 (e.symm.trans hn))
      simp only [getKw, if_neg this]
    · rw [List.filter_cons_of_pos (by simp [hn])]
      simp only [getKw]
      split
      · rfl
      · exact ih

theorem fei_keeps {env : Env} {f : Tiff} {op : Op} {k : String} (h : k ∉ ownKeys) : getKw k.toList (fei env f op).1 = getKw k.toList op := by
  simp only [ownKeys, List.mem_cons, List.not_mem_nil, or_false, not_or] at h
  unfold fei
  simp only
  unfold feiDelete
  split_ifs
  · simp only
    rw [get_del_other h.2.1, get_set_other h.1]
  · simp only
    rw [get_del_other h.2.2.1, get_set_other h.1]
  · simp only
    rw [get_set_other h.1]

theorem jeol_keeps {env : Env} {op : Op} {k : String} (h : k ∉ ownKeys) : getKw k.toList (jeol env op).1 = getKw k.toList op := by
  simp only [ownKeys, List.mem_cons, List.not_mem_nil, or_false, not_or] at h
  unfold jeol
  split
  · rfl
  · simp only
    split
    · simp only
      rw [get_set_other h.2.2.2.2.1]
    · simp only
      rw [get_set_other h.2.2.2.2.2, get_set_other h.2.2.2.2.1]

theorem parse_keeps {env : Env} {f : Tiff} {p : Page} {op : Op} {shape : List Nat} {force : Bool} {names : List (Option Text)} {ty : StreakType}
    {k : String} (h : k ∉ ownKeys) : getKw k.toList (parseScale env f p op shape force names ty).1 = getKw k.toList op := by
  unfold parseScale
  split_ifs
  · rfl
  · exact fei_keeps h
  · rfl
  · rfl
  · simp only [sis]
    rw [get_set_other]
    intro e
    exact h (by rw [e]; simp [ownKeys])
  · exact jeol_keeps h
  · split <;> rfl

theorem isStreak_congr {op op' : Op} (h1 : getKw "Artist".toList op = getKw "Artist".toList op')
    (h2 : getKw "Software".toList op = getKw "Software".toList op') : isStreak op = isStreak op' := by
  unfold isStreak
  rw [h1, h2]

/-- Letters with a meaning, or without a name. -/
def Known (c : Char) : Prop := (letter c).isSome = true ∨ c = 'Q' ∨ c = '_'

theorem known_ok {c : Char} (h : Known c) : ∃ n, labelOf c = .ok n := by
  rcases h with h | rfl | rfl
  · unfold letter at h
    split at h
    all_goals first | exact ⟨_, rfl⟩ | cases h
  · exact ⟨_, rfl⟩
  · exact ⟨_, rfl⟩

theorem mapM_known : ∀ {l : Text}, (∀ c ∈ l, Known c) → ∃ n, l.mapM labelOf = .ok n
  | [], _ => ⟨[], rfl⟩
  | c :: l, h => by
    obtain ⟨n, hn⟩ := known_ok (h c (List.mem_cons_self ..))
    obtain ⟨ns, hl⟩ := mapM_known fun d hd => h d (List.mem_cons_of_mem _ hd)
    exact ⟨n :: ns, by simp only [List.mapM_cons, hn, hl, bind, Except.bind, pure, Except.pure]⟩

/-- The data can be loaded: anything without colours, and three or four colours of one or two bytes, last. -/
def Loads (h : Handle) : Prop :=
  h.page.rgb = false ∨ (h.data.shape = h.shape ∧ (h.shape.getLast? = some 3 ∨ h.shape.getLast? = some 4) ∧ h.data.dt ≠ .other)

theorem loads_ok {h : Handle} (hl : Loads h) : (∃ d, loadData h.page.rgb h = .ok d) ∧ withoutColours h.page.rgb h = .ok (frame h) := by
  unfold loadData withoutColours frame
  rcases hl with hn | ⟨h1, h2, h3⟩
  · rw [hn]
    exact ⟨⟨_, rfl⟩, rfl⟩
  · cases hc : h.page.rgb with
    | false => exact ⟨⟨_, rfl⟩, rfl⟩
    | true =>
      refine ⟨?_, ?_⟩
      · simp only [if_true, Rgb.regular2rgbx, Bool.false_eq_true, if_false, h1]
        cases hd : h.data.dt with
        | other => exact absurd hd h3
        | u1 => rcases h2 with h2 | h2 <;> rw [h2] <;> exact ⟨_, rfl⟩
        | u2 => rcases h2 with h2 | h2 <;> rw [h2] <;> exact ⟨_, rfl⟩
      · simp only [Bool.not_true, Bool.false_eq_true, if_false, if_true]
        rcases h2 with h2 | h2 <;> rw [h2] <;> rfl

theorem date_ok {env : Env} {op : Op} {m : Meta} (h : getKw "DateTime".toList op = none ∨ ∃ t, getKw "DateTime".toList op = some (.str t)) :
    ∃ m', dateOf env op m = .ok m' := by
  unfold dateOf
  rcases h with h | ⟨t, h⟩
  · rw [h]
    exact ⟨_, rfl⟩
  · rw [h]
    simp only
    cases env.strptime t with
    | some d => exact ⟨_, rfl⟩
    | none =>
      simp only
      cases otherDate env op (.str t) m <;> exact ⟨_, rfl⟩

theorem mapping_ok {p : Page} {op : Op} (hj : (tagOr "Make" op .null).isText "JEOL Ltd." = false)
    (ht : p.isTvips = true → ∃ d, getKw "TVIPS".toList op = some (.dict d)) : ∃ m, mappingOf p op = .ok m := by
  unfold mappingOf
  rw [hj]
  split_ifs
  · exact ⟨_, rfl⟩
  · exact ⟨_, rfl⟩
  · rename_i h
    obtain ⟨d, hd⟩ := ht h
    have : ∃ b, tvipsMode op = .ok b := by
      simp only [tvipsMode, sub, hd, bind, Except.bind, T.get]
      cases getKw "TemMode".toList d <;> exact ⟨_, rfl⟩
    obtain ⟨b, hb⟩ := this
    exact ⟨.tvips b, by simp only [hb, bind, Except.bind, pure, Except.pure]⟩
  · exact ⟨_, rfl⟩
  · rename_i h
    exact h.elim
  · exact ⟨_, rfl⟩

/-- **C118, success.** A page or series can be read, whatever the calibration, if its letters are known, colours are three or four
numbers of one or two bytes, the date is a text, and it is not made by JEOL or Hamamatsu. -/
theorem C118_reads (env : Env) (f : Tiff) (name : Text) (force : Bool) {ty : StreakType} {h : Handle} (ht : ty ≠ .other) (hl : Loads h)
    (hk : ∀ c ∈ (frame h).1, Known c) (hd : NoTag h.page.tags "DateTime" ∨ ∃ t, Tag h.page.tags "DateTime" (.str t))
    (hj : ¬ Jeol h.page) (hs : NotStreak h.page) (hv : h.page.isTvips = true → ∃ d, Tag h.page.tags "TVIPS" (.dict d)) :
    ∃ s, readTiff env f name force ty h = .ok s := by
  obtain ⟨⟨d, l1⟩, l2⟩ := loads_ok hl
  obtain ⟨names, l3⟩ := mapM_known hk
  unfold readTiff
  simp only [bind, Except.bind, l2, l3, if_neg ht]
  cases h3 : parseScale env f h.page (opOf h.page.tags) (frame h).2 force names ty with
  | mk op r =>
    have hkeep : ∀ k : String, k ∉ ownKeys → getKw k.toList op = getKw k.toList (opOf h.page.tags) := by
      intro k hk
      have := parse_keeps (env := env) (f := f) (p := h.page) (op := opOf h.page.tags) (shape := (frame h).2) (force := force) (names := names) (ty := ty) hk
      rw [h3] at this
      exact this
    have g1 : ∃ m, dateOf env op ⟨baseName name, [], none, none, none, none, none, none⟩ = .ok m := by
      refine date_ok ?_
      rw [hkeep "DateTime" (by decide)]
      rcases hd with hd | ⟨t, hd⟩
      · exact .inl (noTag_get hd)
      · exact .inr ⟨t, tag_get hd⟩
    obtain ⟨m, g1⟩ := g1
    have g2 : isStreak op = .ok false := by
      rw [isStreak_congr (hkeep "Artist" (by decide)) (hkeep "Software" (by decide)), isStreak_false hs]
    have g3 : addStreak env f op (intensity op m) = .ok (op, intensity op m) := by
      simp only [addStreak, g2, bind, Except.bind, Bool.false_eq_true, if_false, pure, Except.pure]
    have g4 : (tagOr "Make" op .null).isText "JEOL Ltd." = false := by
      have : tagOr "Make" op .null = tagOr "Make" (opOf h.page.tags) .null := by
        unfold tagOr
        rw [hkeep "Make" (by decide)]
      rw [this]
      exact notJeol hj
    obtain ⟨mp, g5⟩ := mapping_ok (p := h.page) g4 fun e => by
      obtain ⟨d, hd⟩ := hv e
      exact ⟨d, by rw [hkeep "TVIPS" (by decide)]; exact tag_get hd⟩
    simp only [g1, l1, g3, g5, pure, Except.pure]
    exact ⟨_, rfl⟩

/-- **C118, rejected.** Letters without a meaning are rejected, and unknown kinds of axes. -/
theorem C118_rejects (env : Env) (f : Tiff) (name : Text) (force : Bool) (ty : StreakType) (h : Handle) :
    ((∃ c ∈ (frame h).1, ¬ Known c) → ∃ e, readTiff env f name force ty h = .error e) ∧
    (ty = .other → ∃ e, readTiff env f name force ty h = .error e) := by
  have key : ∀ s, readTiff env f name force ty h = .ok s → (∀ c ∈ (frame h).1, Known c) ∧ ty ≠ .other := by
    intro s hs
    obtain ⟨names, op, r, m, m', op', h1, h2, _⟩ := read_parts hs
    refine ⟨fun c hc => ?_, h1⟩
    obtain ⟨i, hi⟩ := List.getElem?_of_mem hc
    obtain ⟨n, _, hn⟩ := forall₂_get (mapM_forall₂ h2) hi
    unfold labelOf at hn
    unfold Known letter
    split at hn
    all_goals first | exact .inl rfl | exact .inr (.inl rfl) | exact .inr (.inr rfl) | cases hn
  refine ⟨fun ⟨c, hc, hn⟩ => ?_, fun ht => ?_⟩
  · cases hs : readTiff env f name force ty h with
    | error e => exact ⟨e, rfl⟩
    | ok s => exact absurd ((key s hs).1 c hc) hn
  · cases hs : readTiff env f name force ty h with
    | error e => exact ⟨e, rfl⟩
    | ok s => exact absurd ht (key s hs).2

end Verif.Props.Tiff
