import Verif.Props.Tiff
/-!
C120: metadata of TIFF files.
-/
namespace Verif.Props.Tiff
open Verif Verif.Tiff Verif.Spec.Tiff

/-- The description of Hamamatsu is one more entry. -/
theorem addStreak_parts {env : Env} {f : Tiff} {op op' : Op} {m m' : Meta} (h : addStreak env f op m = .ok (op', m')) :
    (∀ k : String, k ≠ "ImageDescriptionParsed" → getKw k.toList op' = getKw k.toList op) ∧
    m'.date = m.date ∧ m'.time = m.time ∧ m'.timeZone = m.timeZone ∧ m'.quantity = m.quantity ∧ m'.gain = m.gain ∧ m'.filename = m.filename := by
  unfold addStreak at h
  simp only [bind, Except.bind] at h
  cases hs : isStreak op with
  | error e => rw [hs] at h; cases h
  | ok b =>
    rw [hs] at h
    cases b with
    | false =>
      simp only [Bool.false_eq_true, if_false, pure, Except.pure] at h
      cases h
      exact ⟨fun _ _ => rfl, rfl, rfl, rfl, rfl, rfl, rfl⟩
    | true =>
      simp only [if_true] at h
      cases hd : streakDescription f op with
      | error e => rw [hd] at h; cases h
      | ok r =>
        obtain ⟨d, x, y⟩ := r
        rw [hd] at h
        simp only at h
        cases hq : sub "Scaling" d with
        | error e => rw [hq] at h; cases h
        | ok t =>
          rw [hq] at h
          simp only at h
          cases t with
          | dict sc =>
            simp only [pure, Except.pure] at h
            cases h
            refine ⟨fun k hk => get_set_other hk, ?_⟩
            cases env.lumispy <;> exact ⟨rfl, rfl, rfl, rfl, rfl, rfl⟩
          | _ => cases h

/-- What the metadata are made of. -/
theorem meta_parts {env : Env} {f : Tiff} {name : Text} {force : Bool} {ty : StreakType} {h : Handle} {s : Sig} (hr : readTiff env f name force ty h = .ok s) :
    ∃ names op m, parseScale env f h.page (opOf h.page.tags) (frame h).2 force names ty = (op, (parseScale env f h.page (opOf h.page.tags) (frame h).2 force names ty).2) ∧
      dateOf env op ⟨baseName name, [], none, none, none, none, none, none⟩ = .ok m ∧
      (∀ k : String, k ∉ ownKeys → getKw k.toList op = getKw k.toList (opOf h.page.tags)) ∧
      (∀ k : String, k ≠ "ImageDescriptionParsed" → getKw k.toList s.original = getKw k.toList op) ∧
      s.meta'.date = m.date ∧ s.meta'.time = m.time ∧ s.meta'.timeZone = m.timeZone ∧
      s.meta'.quantity = (intensity op m).quantity ∧ s.meta'.gain = (intensity op m).gain ∧ s.meta'.title = getKw "SightX_Notes".toList op ∧
      mappingOf h.page s.original = .ok s.mapping := by
  obtain ⟨names, op, r, m, m', op', _, h2, h3, h4, h5, h6, h7, h8, h9, h10⟩ := read_parts hr
  obtain ⟨g1, g2, g3, g4, g5, g6, g7⟩ := addStreak_parts h6
  have hi : (intensity op m).date = m.date ∧ (intensity op m).time = m.time ∧ (intensity op m).timeZone = m.timeZone := by
    unfold intensity
    split <;> exact ⟨rfl, rfl, rfl⟩
  refine ⟨names, op, m, by rw [h3], h4, fun k hk => ?_, fun k hk => ?_, ?_, ?_, ?_, ?_, ?_, ?_, ?_⟩
  · have := parse_keeps (env := env) (f := f) (p := h.page) (op := opOf h.page.tags) (shape := (frame h).2) (force := force) (names := names) (ty := ty) hk
    rw [h3] at this
    exact this
  · rw [h9, g1 k hk]
  · rw [h10, ← hi.1, ← g2]
  · rw [h10, ← hi.2.1, ← g3]
  · rw [h10, ← hi.2.2, ← g4]
  · rw [h10, ← g5]
  · rw [h10, ← g6]
  · rw [h10]
    exact g1 "SightX_Notes" (by decide)
  · rw [h9]
    exact h7

section
variable {env : Env} {f : Tiff} {name : Text} {force : Bool} {ty : StreakType} {h : Handle} {s : Sig}

/-- **C120, tags.** All tags are in the original metadata, apart from a few that are replaced. -/
theorem C120_original (hr : readTiff env f name force ty h = .ok s) {k : String} {v : T} (ht : Tag h.page.tags k v) (hk : k ∉ changed) :
    getKw k.toList s.original = some v := by
  obtain ⟨names, op, m, _, _, h1, h2, _⟩ := meta_parts hr
  have e1 : k ≠ "ImageDescriptionParsed" := fun e => hk (by rw [e]; simp [changed])
  have e2 : k ∉ ownKeys := fun e => hk (by
    simp only [ownKeys, changed, List.mem_cons, List.not_mem_nil, or_false] at e ⊢
    tauto)
  rw [h2 k e1, h1 k e2, tag_get ht]

/-- **C120, date and time, partial.** The date and the time are those of the tag in the first format. Missing: the second format if
there is a description, see `C120_fails_date`. -/
theorem C120_date_partial (hr : readTiff env f name force ty h = .ok s) {t d c : Text} (ht : Tag h.page.tags "DateTime" (.str t))
    (hd : env.strptime t = some (d, c)) : s.meta'.date = some d ∧ s.meta'.time = some c ∧ s.meta'.timeZone = none := by
  obtain ⟨names, op, m, _, h4, h1, _, g1, g2, g3, _⟩ := meta_parts hr
  have : getKw "DateTime".toList op = some (.str t) := by rw [h1 _ (by decide), tag_get ht]
  simp only [dateOf, this, hd] at h4
  cases h4
  exact ⟨g1, g2, g3⟩

theorem parse_description {p : Page} (hj : ¬ Jeol p) {shape : List Nat} {names : List (Option Text)} :
    getKw "ImageDescription".toList (parseScale env f p (opOf p.tags) shape force names ty).1 = getKw "ImageDescription".toList (opOf p.tags) := by
  unfold parseScale
  rw [notJeol hj]
  split_ifs
  · rfl
  · simp only [fei, feiDelete]
    split_ifs
    · simp only
      rw [get_del_other (by decide), get_set_other (by decide)]
    · simp only
      rw [get_del_other (by decide), get_set_other (by decide)]
    · simp only
      rw [get_set_other (by decide)]
  · rfl
  · rfl
  · simp only [sis]
    rw [get_set_other (by decide)]
  · rename_i h
    exact h.elim
  · split <;> rfl

/-- **C120, other format.** Without a description the second format is read too. -/
theorem C120_other_date (hr : readTiff env f name force ty h = .ok s) {t d c : Text} (ht : Tag h.page.tags "DateTime" (.str t))
    (hd : env.strptime t = none) (hd' : env.strptime' t = some (d, c)) (hn : NoTag h.page.tags "ImageDescription") (hj : ¬ Jeol h.page) :
    s.meta'.date = some d ∧ s.meta'.time = some c ∧ s.meta'.timeZone = none := by
  obtain ⟨names, op, m, h3, h4, h1, _, g1, g2, g3, _⟩ := meta_parts hr
  have e1 : getKw "DateTime".toList op = some (.str t) := by rw [h1 _ (by decide), tag_get ht]
  have e2 : getKw "ImageDescription".toList op = none := by
    have := parse_description (env := env) (f := f) (force := force) (ty := ty) hj (shape := (frame h).2) (names := names)
    rw [h3, noTag_get hn] at this
    exact this
  simp only [dateOf, e1, hd, otherDate, has, e2, Option.isSome_none, Bool.false_eq_true, if_false, hd', orKeep] at h4
  cases h4
  exact ⟨g1, g2, g3⟩

/-- **C120, no date.** Without the tag there is no date. -/
theorem C120_no_date (hr : readTiff env f name force ty h = .ok s) (ht : NoTag h.page.tags "DateTime") :
    s.meta'.date = none ∧ s.meta'.time = none ∧ s.meta'.timeZone = none := by
  obtain ⟨names, op, m, _, h4, h1, _, g1, g2, g3, _⟩ := meta_parts hr
  have : getKw "DateTime".toList op = none := by rw [h1 _ (by decide), noTag_get ht]
  simp only [dateOf, this] at h4
  cases h4
  exact ⟨g1, g2, g3⟩

theorem dm_of_tag {op : Op} {k : String} (hk : k ∈ dmTags) {v : T} (h : getKw k.toList op = some v) : isDm op = true := by
  unfold isDm
  rw [List.any_eq_true]
  exact ⟨k, hk, by simp only [has, h, Option.isSome_some]⟩

theorem jeolDate_keeps {op : Op} {m m' : Meta} (h : jeolDate op m = .ok m') : m'.quantity = m.quantity ∧ m'.gain = m.gain ∧ m'.filename = m.filename := by
  unfold jeolDate at h
  simp only [bind, Except.bind, pure, Except.pure] at h
  split at h
  · cases h
  · split at h
    · cases h
    · rename_i v _
      cases hv : v.text with
      | error e => rw [hv] at h; cases h
      | ok t => rw [hv] at h; cases h; exact ⟨rfl, rfl, rfl⟩

theorem otherDate_keeps {op : Op} {v : T} {m m' : Meta} (h : otherDate env op v m = .ok m') : m'.quantity = m.quantity ∧ m'.gain = m.gain ∧ m'.filename = m.filename := by
  unfold otherDate at h
  split at h
  · exact jeolDate_keeps h
  · cases v with
    | str t =>
      simp only at h
      cases hs : env.strptime' t with
      | none => rw [hs] at h; cases h
      | some d => rw [hs] at h; cases h; exact ⟨rfl, rfl, rfl⟩
    | _ => cases h

theorem orKeep_keeps {v : T} {m m' : Meta} {r : Py Meta} (hr : ∀ m', r = .ok m' → m'.quantity = m.quantity ∧ m'.gain = m.gain ∧ m'.filename = m.filename) (h : orKeep v m r = .ok m') :
    m'.quantity = m.quantity ∧ m'.gain = m.gain ∧ m'.filename = m.filename := by
  cases r with
  | ok x =>
    cases h
    exact hr _ rfl
  | error e => cases v <;> cases h <;> exact ⟨rfl, rfl, rfl⟩

theorem date_keeps {op : Op} {m m' : Meta} (h : dateOf env op m = .ok m') : m'.quantity = m.quantity ∧ m'.gain = m.gain ∧ m'.filename = m.filename := by
  unfold dateOf at h
  split at h
  · cases h
    exact ⟨rfl, rfl, rfl⟩
  · rename_i t _
    cases hs : env.strptime t with
    | some d => rw [hs] at h; cases h; exact ⟨rfl, rfl, rfl⟩
    | none =>
      rw [hs] at h
      exact orKeep_keeps (fun _ h => otherDate_keeps h) h
  · exact orKeep_keeps (fun _ h => otherDate_keeps h) h

/-- **C120, intensity.** The quantity and the linear model of the noise are those of the tags of Digital Micrograph. -/
theorem C120_intensity (hr : readTiff env f name force ty h = .ok s) :
    (∀ v, Tag h.page.tags "65022" v → s.meta'.quantity = some v) ∧ (NoTag h.page.tags "65022" → s.meta'.quantity = none) ∧
    (∀ o g, Tag h.page.tags "65024" o → Tag h.page.tags "65025" g → s.meta'.gain = some (g, o)) ∧
    (NoTag h.page.tags "65024" ∨ NoTag h.page.tags "65025" → s.meta'.gain = none) := by
  obtain ⟨names, op, m, _, h4, h1, _, _, _, _, g4, g5, _⟩ := meta_parts hr
  have hm : m.quantity = none ∧ m.gain = none := by
    have := date_keeps h4
    exact ⟨this.1, this.2.1⟩
  have q1 := h1 "65022" (by decide)
  have q2 := h1 "65024" (by decide)
  have q3 := h1 "65025" (by decide)
  refine ⟨fun v hv => ?_, fun hv => ?_, fun o g ho hg => ?_, fun hv => ?_⟩
  · rw [tag_get hv] at q1
    rw [g4]
    simp only [intensity, dm_of_tag (by decide) q1, if_true, q1]
  · rw [noTag_get hv] at q1
    rw [g4]
    unfold intensity
    split
    · exact q1
    · exact hm.1
  · rw [tag_get ho] at q2
    rw [tag_get hg] at q3
    rw [g5]
    simp only [intensity, dm_of_tag (by decide) q2, if_true, q2, q3]
  · rw [g5]
    unfold intensity
    split
    · simp only
      rcases hv with hv | hv
      · rw [q2, noTag_get hv]
        split
        · rename_i h6; cases h6
        · rfl
      · rw [q3, noTag_get hv]
    · exact hm.2

/-- **C120, title, partial.** The title of an image of JEOL tells the mode and the magnification. Missing: scanned images, which
are not recognised, see `C120_fails_scanned`. -/
theorem C120_title_partial (hr : readTiff env f name force ty h = .ok s) (k : IsKind f h.page force .jeol) (r : Report env h.page) :
    s.meta'.title = some (.str ("TEM, ".toList ++ r.field.drop 4 ++ ", ".toList ++ r.forming.drop 4 ++ ", ".toList ++ r.selector)) := by
  obtain ⟨names, op, m, h3, _, _, _, _, _, _, _, _, g6, _⟩ := meta_parts hr
  obtain ⟨op', notes, e, eo, en⟩ := jeol_report r
  have : (parseScale env f h.page (opOf h.page.tags) (frame h).2 force names ty).1 = op' := by
    unfold parseScale
    rw [notForced k.1, k.2.1, k.2.2.1, k.2.2.2.1, k.2.2.2.2.1, jeol_iff.2 k.2.2.2.2.2, e]
    rfl
  rw [h3] at this
  simp only at this
  rw [g6, this, eo, getKw_setKw, if_pos rfl, en]

/-- **C120, title and date of JEOL.** The report gives the date and the time with six digits and the zone, if the tag is no date. -/
theorem C120_jeol_date (hr : readTiff env f name force ty h = .ok s) (k : IsKind f h.page force .jeol) (r : Report env h.page) {t u d c z : Text}
    (ht : Tag h.page.tags "DateTime" (.str t)) (hd : env.strptime t = none) (hu : TextEntry r.report "DateTime" u) (hj : JeolDate u d c z) :
    s.meta'.date = some d ∧ s.meta'.time = some c ∧ s.meta'.timeZone = some z := by
  obtain ⟨names, op, m, h3, h4, h1, _, g1, g2, g3, _⟩ := meta_parts hr
  obtain ⟨op', notes, e, eo, en⟩ := jeol_report r
  have ho : op = op' := by
    have : (parseScale env f h.page (opOf h.page.tags) (frame h).2 force names ty).1 = op' := by
      unfold parseScale
      rw [notForced k.1, k.2.1, k.2.2.1, k.2.2.2.1, k.2.2.2.2.1, jeol_iff.2 k.2.2.2.2.2, e]
      rfl
    rw [h3] at this
    exact this
  have e1 : getKw "DateTime".toList op = some (.str t) := by rw [h1 _ (by decide), tag_get ht]
  have e2 : getKw "ImageDescription".toList op = some r.report := by
    rw [ho, eo, get_set_other (by decide), getKw_setKw, if_pos rfl]
  obtain ⟨a, b, rfl, l1, l2, l3⟩ := hj
  have x1 : (d ++ a :: c ++ b :: z).take 10 = d := by
    rw [List.append_assoc, List.take_left' l1]
  have x2 : ((d ++ a :: c ++ b :: z).drop 11).take 15 = c := by
    have : (d ++ a :: c ++ b :: z) = (d ++ [a]) ++ (c ++ b :: z) := by simp
    rw [this, List.drop_left' (by simp [l1]), List.take_left' l2]
  have x3 : (d ++ a :: c ++ b :: z).drop ((d ++ a :: c ++ b :: z).length - 6) = z := by
    have : (d ++ a :: c ++ b :: z) = (d ++ a :: c ++ [b]) ++ z := by simp
    rw [this, List.drop_left' (by simp only [List.length_append, List.length_cons, List.length_nil, l3]; omega)]
  simp only [dateOf, e1, hd, otherDate, has, e2, Option.isSome_some, if_true, jeolDate, sub, bind, Except.bind, entry_get hu, T.text,
    pure, Except.pure, orKeep, x1, x2, x3] at h4
  cases h4
  exact ⟨g1, g2, g3⟩

/-- **C120, mapping.** The table of the mapping is that of the program; with a diffraction pattern of TVIPS the magnification is a
camera length. -/
theorem C120_mapping (hr : readTiff env f name force ty h = .ok s) {m : Mapping} (hm : TableFor h.page m) : s.mapping = m := by
  obtain ⟨names, op, m', _, _, h1, h2, _, _, _, _, _, _, g7⟩ := meta_parts hr
  have ht : getKw "TVIPS".toList s.original = getKw "TVIPS".toList (opOf h.page.tags) := by rw [h2 _ (by decide), h1 _ (by decide)]
  have hk : getKw "Make".toList s.original = getKw "Make".toList (opOf h.page.tags) := by rw [h2 _ (by decide), h1 _ (by decide)]
  have e : mappingOf h.page s.original = .ok m := by
    unfold mappingOf
    cases hm with
    | fei h => rw [h]; rfl
    | zeiss h1 h => rw [h1, h]; rfl
    | tvips h1 h2 h t v hv =>
      rw [h1, h2, h]
      have : tvipsMode s.original = .ok false := by
        simp only [tvipsMode, sub, ht, tag_get t, bind, Except.bind, entry_get v]
        congr 1
        rw [← Bool.not_eq_true, isNum_iff]
        exact hv
      simp only [Bool.false_eq_true, if_false, if_true, this, bind, Except.bind, pure, Except.pure]
    | tvipsDiffraction h1 h2 h t v =>
      rw [h1, h2, h]
      have : tvipsMode s.original = .ok true := by
        simp only [tvipsMode, sub, ht, tag_get t, bind, Except.bind, entry_get v]
        rfl
      simp only [Bool.false_eq_true, if_false, if_true, this, bind, Except.bind, pure, Except.pure]
    | tvipsNoMode h1 h2 h t v =>
      rw [h1, h2, h]
      have : tvipsMode s.original = .ok false := by
        simp only [tvipsMode, sub, ht, tag_get t, bind, Except.bind, noEntry_get v]
      simp only [Bool.false_eq_true, if_false, if_true, this, bind, Except.bind, pure, Except.pure]
    | sis h1 h2 h3 h => rw [h1, h2, h3, h]; rfl
    | nothing h1 h2 h3 h hj =>
      have : (tagOr "Make" s.original .null).isText "JEOL Ltd." = false := by
        have := notJeol hj
        unfold tagOr at this ⊢
        rw [hk]
        exact this
      rw [h1, h2, h3, h, this]
      rfl
  rw [g7] at e
  exact Except.ok.inj e

/-- **C120, mapping of JEOL.** The magnification of a diffraction pattern of JEOL is a camera length. -/
theorem C120_mapping_jeol (hr : readTiff env f name force ty h = .ok s) (k : IsKind f h.page force .jeol) (r : Report env h.page)
    (h1 : h.page.isFei = false) (h2 : h.page.isSem = false) (h3 : h.page.isTvips = false) {v : T} (hv : Entry r.imaging "ModeString" v) :
    (v = .str "DIFF".toList → s.mapping = .jeol true) ∧ (v ≠ .str "DIFF".toList → s.mapping = .jeol false) := by
  obtain ⟨names, op, m', h5, _, h6, h7, _, _, _, _, _, _, g7⟩ := meta_parts hr
  obtain ⟨op', notes, e, eo, en⟩ := jeol_report r
  have ho : op = op' := by
    have : (parseScale env f h.page (opOf h.page.tags) (frame h).2 force names ty).1 = op' := by
      unfold parseScale
      rw [notForced k.1, k.2.1, k.2.2.1, k.2.2.2.1, k.2.2.2.2.1, jeol_iff.2 k.2.2.2.2.2, e]
      rfl
    rw [h5] at this
    exact this
  have e1 : getKw "ImageDescription".toList s.original = some r.report := by
    rw [h7 _ (by decide), ho, eo, get_set_other (by decide), getKw_setKw, if_pos rfl]
  have e2 : getKw "Make".toList s.original = some (.str "JEOL Ltd.".toList) := by rw [h7 _ (by decide), h6 _ (by decide), tag_get k.2.2.2.2.2]
  have e3 : (tagOr "Make" s.original .null).isText "JEOL Ltd." = true := by
    unfold tagOr
    rw [e2]
    exact isText_iff.2 rfl
  unfold mappingOf at g7
  rw [h1, h2, h3, k.2.2.2.2.1, e3] at g7
  simp only [Bool.false_eq_true, if_false, if_true, sub, e1, bind, Except.bind, entry_get r.isImaging, entry_get hv, pure, Except.pure] at g7
  have g8 := (Except.ok.inj g7).symm
  refine ⟨fun q => ?_, fun q => ?_⟩
  · rw [g8, isText_iff.2 q]
  · rw [g8, Bool.not_eq_true _ |>.mp (fun e => q (isText_iff.1 e))]

theorem splitSlash {c : Char} {b : Text} (hb : c ∉ b) : ∀ a : Text, ∃ l, l ≠ [] ∧ splitChar c (a ++ c :: b) = l ++ [b]
  | [] => ⟨[[]], by simp, by simp [splitChar, splitChar_none hb]⟩
  | x :: a => by
    obtain ⟨l, h1, h2⟩ := splitSlash hb a
    rw [List.cons_append, splitChar, h2]
    split
    · exact ⟨[] :: l, by simp, rfl⟩
    · cases l with
      | nil => exact absurd rfl h1
      | cons p l => exact ⟨(x :: p) :: l, by simp, rfl⟩

/-- **C120, name.** The original filename is what follows the last slash. -/
theorem C120_filename {dir base : Text} (hb : '/' ∉ base) (hn : name = base ∨ name = dir ++ '/' :: base)
    (hr : readTiff env f name force ty h = .ok s) : s.meta'.filename = base := by
  obtain ⟨names, op, r, m, m', op', _, _, _, h4, _, h6, _, _, _, h10⟩ := read_parts hr
  obtain ⟨_, _, _, _, _, _, g7⟩ := addStreak_parts h6
  have e1 : s.meta'.filename = baseName name := by
    have hi : (intensity op m).filename = m.filename := by
      unfold intensity
      split <;> rfl
    rw [h10]
    exact g7.trans (hi.trans (date_keeps h4).2.2)
  rw [e1]
  unfold baseName
  rcases hn with rfl | rfl
  · simp [splitChar_none hb]
  · obtain ⟨l, _, hl⟩ := splitSlash hb dir
    rw [hl]
    simp

end

end Verif.Props.Tiff
