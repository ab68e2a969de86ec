import Verif.Spec.Tiff
import Mathlib.Tactic.FieldSimp
import Mathlib.Tactic.Ring
/-!
Lemmas about `Model/Tiff.lean`: tags, dictionaries, and the calibrations of the programs.
-/
namespace Verif.Tiff
open Verif Verif.Spec.Tiff

/-! ### Tags -/

theorem fold_other {k : Text} : ∀ (l acc : List (Text × T)), (∀ p ∈ l, p.1 ≠ k) →
    getKw k (l.foldl (fun d p => setKw p.1 p.2 d) acc) = getKw k acc
  | [], _, _ => rfl
  | (n, v) :: l, acc, h => by
    rw [List.foldl_cons, fold_other l _ fun p hp => h p (List.mem_cons_of_mem _ hp), getKw_setKw,
      if_neg (fun e => h (n, v) (List.mem_cons_self ..) e.symm)]

theorem tag_get {tags : List (Text × T)} {k : String} {v : T} (h : Tag tags k v) : getKw k.toList (opOf tags) = some v := by
  obtain ⟨a, b, rfl, hb⟩ := h
  unfold opOf
  rw [List.foldl_append, List.foldl_cons, fold_other _ _ hb, getKw_setKw, if_pos rfl]

theorem noTag_get {tags : List (Text × T)} {k : String} (h : NoTag tags k) : getKw k.toList (opOf tags) = none := by
  unfold opOf
  rw [fold_other _ _ h]
  rfl

theorem tag_or_not (tags : List (Text × T)) (k : String) : (∃ v, Tag tags k v) ∨ NoTag tags k := by
  induction tags with
  | nil => exact .inr fun q hq => by cases hq
  | cons a l ih =>
    rcases ih with ⟨v, x, y, e, hy⟩ | h
    · exact .inl ⟨v, a :: x, y, by rw [e]; rfl, hy⟩
    · by_cases ha : a.1 = k.toList
      · exact .inl ⟨a.2, [], l, by rw [← ha]; rfl, h⟩
      · refine .inr fun q hq => ?_
        rcases List.mem_cons.1 hq with rfl | hq
        · exact ha
        · exact h q hq

theorem tag_of_get {tags : List (Text × T)} {k : String} {v : T} (h : getKw k.toList (opOf tags) = some v) : Tag tags k v := by
  rcases tag_or_not tags k with ⟨w, hw⟩ | hn
  · have := tag_get hw
    rw [h] at this
    exact Option.some.inj this ▸ hw
  · rw [noTag_get hn] at h
    cases h

theorem tag_unique {tags : List (Text × T)} {k : String} {v w : T} (h : Tag tags k v) (h' : Tag tags k w) : v = w := by
  have := tag_get h
  rw [tag_get h'] at this
  exact (Option.some.inj this).symm

theorem tag_sub {tags : List (Text × T)} {k : String} {v : T} (h : Tag tags k v) : sub k (opOf tags) = .ok v := by
  simp only [sub, tag_get h]

theorem tag_has {tags : List (Text × T)} {k : String} {v : T} (h : Tag tags k v) : has k (opOf tags) = true := by
  simp only [has, tag_get h, Option.isSome_some]

theorem noTag_has {tags : List (Text × T)} {k : String} (h : NoTag tags k) : has k (opOf tags) = false := by
  simp only [has, noTag_get h, Option.isSome_none]

theorem noTag_sub {tags : List (Text × T)} {k : String} (h : NoTag tags k) : sub k (opOf tags) = .error .keyError := by
  simp only [sub, noTag_get h]

theorem has_iff {tags : List (Text × T)} {k : String} : has k (opOf tags) = true ↔ ∃ v, Tag tags k v := by
  refine ⟨fun h => ?_, fun ⟨v, h⟩ => tag_has h⟩
  rcases tag_or_not tags k with h' | hn
  · exact h'
  · rw [noTag_has hn] at h
    cases h

theorem tagOr_ok {tags : List (Text × T)} {k : String} {d v : T} (h : TagOr tags k d v) : tagOr k (opOf tags) d = v := by
  rcases h with h | ⟨h, rfl⟩
  · simp only [tagOr, tag_get h, Option.getD_some]
  · simp only [tagOr, noTag_get h, Option.getD_none]

/-- Other entries do not change what a tag says. -/
theorem sub_set {k k' : String} {v : T} {op : Op} (h : k.toList ≠ k'.toList) : sub k (setKw k'.toList v op) = sub k op := by
  simp only [sub, getKw_setKw, if_neg h]

/-! ### Dictionaries -/

theorem getKw_nodup {k : Text} {v : T} : ∀ {d : List (Text × T)}, (k, v) ∈ d → (d.map Prod.fst).Nodup → getKw k d = some v
  | (n, w) :: d, h, hd => by
    rw [List.map_cons, List.nodup_cons] at hd
    rcases List.mem_cons.1 h with h | h
    · cases h
      simp [getKw]
    · have : n ≠ k := fun e => hd.1 (List.mem_map.2 ⟨(k, v), h, e.symm⟩)
      simp only [getKw, if_neg this]
      exact getKw_nodup h hd.2

theorem entry_get {t v : T} {k : String} (h : Entry t k v) : t.get k.toList = .ok v := by
  obtain ⟨d, rfl, h1, h2⟩ := h
  simp only [T.get, getKw_nodup h1 h2]

theorem entry_has {t v : T} {k : String} (h : Entry t k v) : t.has k.toList = .ok true := by
  obtain ⟨d, rfl, h1, h2⟩ := h
  simp only [T.has, getKw_nodup h1 h2, Option.isSome_some]

theorem getKw_absent {k : Text} {d : List (Text × T)} (h : ∀ q ∈ d, q.1 ≠ k) : getKw k d = none :=
  getKw_none fun e => by
    obtain ⟨q, hq, e⟩ := List.mem_map.1 e
    exact h q hq e

theorem noEntry_get {t : T} {k : String} (h : NoEntry t k) : t.get k.toList = .error .keyError := by
  obtain ⟨d, rfl, h⟩ := h
  simp only [T.get, getKw_absent h]

theorem noEntry_has {t : T} {k : String} (h : NoEntry t k) : t.has k.toList = .ok false := by
  obtain ⟨d, rfl, h⟩ := h
  simp only [T.has, getKw_absent h, Option.isSome_none]

theorem number_ok {env : Env} {v : T} {q : ℚ} (h : Number env.float v q) : env.toFloat v = .ok q := by
  cases h with
  | num => rfl
  | text h => exact h

theorem deep_ok {env : Env} {t : T} {a b : String} {q : ℚ} (h : Deep env.float t a b q) : floatAt env a b t = .ok q := by
  obtain ⟨u, v, h1, h2, h3⟩ := h
  simp only [floatAt, entry_get h1, entry_get h2, number_ok h3, bind, Except.bind]

/-! ### Resolutions -/

theorem resolution_ok {tags : List (Text × T)} {k : String} {s : ℚ} (h : Pixel tags k s) (factor : ℚ) {op : Op}
    (hop : sub k op = sub k (opOf tags)) : resolution k factor op = .ok (s * factor) := by
  obtain ⟨n, d, h1, h2, h3⟩ := h
  simp only [resolution, hop, tag_sub h1, bind, Except.bind, T.at, T.rat, divide, if_neg h2, pure, Except.pure, List.getElem?_cons_succ, List.getElem?_cons_zero]
  rw [← h3, mul_div_assoc, div_self h2, mul_one]

theorem resolutions_ok {tags : List (Text × T)} {x y : ℚ} (h : Pixels tags x y) (factor : ℚ) {op : Op}
    (h1 : sub "XResolution" op = sub "XResolution" (opOf tags)) (h2 : sub "YResolution" op = sub "YResolution" (opOf tags)) :
    resolutions factor op = .ok (y * factor, x * factor) := by
  simp only [resolutions, resolution_ok h.2 factor h2, resolution_ok h.1 factor h1, bind, Except.bind, pure, Except.pure]

theorem resolution_bad {tags : List (Text × T)} {k : String} {factor : ℚ} (h : NoTag tags k ∨ ∃ d : T, Tag tags k (.list [.num 0, d])) :
    ∃ e, resolution k factor (opOf tags) = .error e := by
  rcases h with h | ⟨d, h⟩
  · exact ⟨.keyError, by simp only [resolution, noTag_sub h, bind, Except.bind]⟩
  · cases hd : d.rat with
    | error e => exact ⟨e, by simp only [resolution, tag_sub h, bind, Except.bind, T.at, List.getElem?_cons_succ, List.getElem?_cons_zero, hd]⟩
    | ok q =>
      refine ⟨.zeroDivision, ?_⟩
      simp only [resolution, tag_sub h, bind, Except.bind, T.at, List.getElem?_cons_succ, List.getElem?_cons_zero, hd]
      simp only [T.rat, divide, if_pos trivial]

/-! ### Kinds -/

theorem isText_iff {t : T} {s : String} : t.isText s = true ↔ t = .str s.toList := by
  cases t <;> simp [T.isText]

theorem isNum_iff {t : T} {q : ℚ} : t.isNum q = true ↔ t = .num q := by
  cases t <;> simp [T.isNum]

theorem forced_iff {p : Page} {force : Bool} :
    (force && has "ResolutionUnit" (opOf p.tags) && has "XResolution" (opOf p.tags)) = true ↔ Forced p force := by
  simp only [Bool.and_eq_true, has_iff, Forced, and_assoc]

theorem notForced {p : Page} {force : Bool} (h : ¬ Forced p force) :
    (force && has "ResolutionUnit" (opOf p.tags) && has "XResolution" (opOf p.tags)) = false := by
  rw [← Bool.not_eq_true, forced_iff]
  exact h

theorem jeol_iff {p : Page} : (tagOr "Make" (opOf p.tags) .null).isText "JEOL Ltd." = true ↔ Jeol p := by
  rw [isText_iff]
  rcases tag_or_not p.tags "Make" with ⟨v, hv⟩ | hn
  · rw [tagOr_ok (.inl hv)]
    exact ⟨fun e => by rw [e] at hv; exact hv, fun h => tag_unique hv h⟩
  · rw [tagOr_ok (.inr ⟨hn, rfl⟩)]
    refine ⟨(fun e => by cases e), fun h => ?_⟩
    have := tag_get h
    rw [noTag_get hn] at this
    cases this

theorem notJeol {p : Page} (h : ¬ Jeol p) : (tagOr "Make" (opOf p.tags) .null).isText "JEOL Ltd." = false := by
  rw [← Bool.not_eq_true, jeol_iff]
  exact h

theorem starts_iff {s : String} {t : Text} : starts s t = true ↔ ∃ r, t = s.toList ++ r := by
  unfold starts
  rw [List.isPrefixOf_iff_prefix]
  exact ⟨fun ⟨r, h⟩ => ⟨r, h.symm⟩, fun ⟨r, h⟩ => ⟨r, h.symm⟩⟩

theorem isStreak_true {p : Page} (h : Streak p) : isStreak (opOf p.tags) = .ok true := by
  obtain ⟨a, s, h1, h2⟩ := h
  have e1 : starts "Copyright Hamamatsu" ("Copyright Hamamatsu".toList ++ a) = true := starts_iff.2 ⟨a, rfl⟩
  have e2 : starts "HPD-TA" ("HPD-TA".toList ++ s) = true := starts_iff.2 ⟨s, rfl⟩
  simp only [isStreak, tag_get h1, tag_get h2, T.text, bind, Except.bind, e1, e2, Bool.not_true, Bool.false_eq_true, if_false, pure, Except.pure]

theorem isStreak_false {p : Page} (h : NotStreak p) : isStreak (opOf p.tags) = .ok false := by
  rcases h with h | ⟨a, h1, h2⟩
  · simp only [isStreak, noTag_get h]
  · simp only [isStreak, tag_get h1, T.text, bind, Except.bind, pure, Except.pure]
    cases e : starts "Copyright Hamamatsu" a with
    | false => rfl
    | true =>
      simp only [Bool.not_true, Bool.false_eq_true, if_false]
      rcases h2 with h2 | h2 | ⟨s, h2, h3⟩
      · exact absurd (starts_iff.1 e) h2
      · simp only [noTag_get h2]
      · simp only [tag_get h2, T.text]
        congr 1
        rw [← Bool.not_eq_true, starts_iff]
        exact h3

/-! ### Calibrations -/

/-- Collected values that are those of a calibration. -/
def Matches (c : Collected) (l : Cals) : Prop :=
  l.width = ⟨c.sy, c.oy, c.uy⟩ ∧ l.height = ⟨c.sx, c.ox, c.ux⟩ ∧ l.depth = ⟨c.sz, c.oz, c.uz⟩

theorem feiDelete_ok {p : Page} {m : T} (h : FeiTag p) : ∃ op, feiDelete (setKw "fei_metadata".toList m (opOf p.tags)) = .ok op := by
  have e1 : has "FEI_HELIOS" (setKw "fei_metadata".toList m (opOf p.tags)) = has "FEI_HELIOS" (opOf p.tags) := by
    simp only [has, getKw_setKw]
    rw [if_neg (by decide)]
  have e2 : has "FEI_SFEG" (setKw "fei_metadata".toList m (opOf p.tags)) = has "FEI_SFEG" (opOf p.tags) := by
    simp only [has, getKw_setKw]
    rw [if_neg (by decide)]
  unfold feiDelete
  rw [e1, e2]
  rcases h with ⟨v, h⟩ | ⟨v, h⟩
  · rw [tag_has h]
    exact ⟨_, rfl⟩
  · rw [tag_has h]
    cases has "FEI_HELIOS" (opOf p.tags) <;> exact ⟨_, rfl⟩

theorem floatAt_absent {env : Env} {t : T} {a b : String} (h : NoEntry t a) : floatAt env a b t = .error .keyError := by
  simp only [floatAt, noEntry_get h, bind, Except.bind]

theorem quotient {a b q : ℚ} (h : b ≠ 0) (e : q * b = a) : divide a b = .ok q := by
  simp only [divide, if_neg h, ← e, mul_div_assoc, div_self h, mul_one]

theorem metres_ok {p : Page} {m : ℚ} (h : Metres p m) : ∃ v, Tag p.tags "ResolutionUnit" v ∧
    (if v.isNum 2 then (254 / 10000 : ℚ) else 1 / 100) = m := by
  rcases h with ⟨h, rfl⟩ | ⟨v, h, hv, rfl⟩
  · exact ⟨_, h, by rw [if_pos (isNum_iff.2 rfl)]⟩
  · exact ⟨v, h, by rw [if_neg (fun e => hv (isNum_iff.1 e))]⟩

theorem camera_ok {u : Text} {s l : ℚ} (h : CameraLength u s l) : cameraLength (.str u) s = l := by
  cases h with
  | mm =>
    unfold cameraLength
    rw [if_pos (isText_iff.2 rfl)]
    field_simp
  | cm =>
    unfold cameraLength
    rw [if_neg (by rw [isText_iff]; intro e; cases e), if_pos (isText_iff.2 rfl)]
    field_simp
  | m _ h =>
    unfold cameraLength
    rw [if_neg (by rw [isText_iff]; intro e; exact h.1 (T.str.inj e)), if_neg (by rw [isText_iff]; intro e; exact h.2 (T.str.inj e))]

/-- The report is read, and the notes. -/
theorem jeol_report {env : Env} {p : Page} (r : Report env p) :
    ∃ op notes, jeol env (opOf p.tags) = (op, jeolScales env op r.report (.str r.mode) r.imaging) ∧
      op = setKw "SightX_Notes".toList (.str notes) (setKw "ImageDescription".toList r.report (opOf p.tags)) ∧
      notes = "TEM, ".toList ++ r.field.drop 4 ++ ", ".toList ++ r.forming.drop 4 ++ ", ".toList ++ r.selector := by
  have e1 : (T.str r.mode).isText "modeASID" = false := by
    rw [← Bool.not_eq_true, isText_iff]
    intro e
    exact r.notScanning (T.str.inj e)
  refine ⟨_, _, ?_, rfl, rfl⟩
  simp only [jeol, tag_sub r.tag, r.parsed, entry_get r.isReport, bind, Except.bind, entry_get r.isEos, entry_get r.isMode,
    entry_get r.isIllumination, entry_get r.isImaging, jeolNotes, e1, afterFour, entry_get r.isField, entry_get r.isForming,
    entry_get r.isSelector, T.text, pure, Except.pure, Bool.false_eq_true, if_false, joinWith]
  simp only [List.append_assoc]
  rfl

theorem report_sub {env : Env} {p : Page} (r : Report env p) {n : T} {k : String} (h1 : k.toList ≠ "SightX_Notes".toList)
    (h2 : k.toList ≠ "ImageDescription".toList) :
    sub k (setKw "SightX_Notes".toList n (setKw "ImageDescription".toList r.report (opOf p.tags))) = sub k (opOf p.tags) := by
  rw [sub_set h1, sub_set h2]

theorem jeol_mag {env : Env} {p : Page} (r : Report env p) {m x y mag : ℚ} {v : T} (tem : r.mode = "eosTEM".toList)
    (mode : TextEntry r.imaging "ModeString" "MAG".toList) (hm : Metres p m) (h : Pixels p.tags x y)
    (sel : Entry r.imaging "SelectorValue" v) (num : Number env.float v mag) (m0 : mag ≠ 0) :
    ∃ op c, jeol env (opOf p.tags) = (op, .ok c) ∧
      Matches c ⟨at0 (x * m / mag * 1000000000) "nm", at0 (y * m / mag * 1000000000) "nm", ⟨.num 1, .num 0, .str "nm".toList⟩⟩ := by
  obtain ⟨op, n, e, eo, _⟩ := jeol_report r
  obtain ⟨w, hw, em⟩ := metres_ok hm
  refine ⟨op, { defaults with sx := .num (y * (m / mag * 1000000000)), sy := .num (x * (m / mag * 1000000000)), ux := .str "nm".toList, uy := .str "nm".toList, uz := .str "nm".toList }, ?_, ?_⟩
  · rw [e]
    have s1 : sub "ResolutionUnit" op = .ok w := by rw [eo, report_sub r (by decide) (by decide), tag_sub hw]
    have s2 : sub "XResolution" op = sub "XResolution" (opOf p.tags) := by rw [eo, report_sub r (by decide) (by decide)]
    have s3 : sub "YResolution" op = sub "YResolution" (opOf p.tags) := by rw [eo, report_sub r (by decide) (by decide)]
    have e1 : (T.str r.mode).isText "eosTEM" = true := isText_iff.2 (by rw [tem])
    have e2 : (T.str "MAG".toList).isText "MAG" = true := isText_iff.2 rfl
    simp only [jeolScales, s1, bind, Except.bind, em, e1, Bool.not_true, Bool.false_eq_true, if_false, entry_get mode, e2, if_true,
      entry_get sel, number_ok num, divide, if_neg m0, resolutions_ok h _ s2 s3, pure, Except.pure]
  · refine ⟨?_, ?_, rfl⟩ <;> simp only [at0, defaults, Cal.mk.injEq, T.num.injEq, and_true] <;> ring

theorem jeol_diff {env : Env} {p : Page} (r : Report env p) {m x y s l ht : ℚ} {v : T} {u : Text} (tem : r.mode = "eosTEM".toList)
    (mode : TextEntry r.imaging "ModeString" "DIFF".toList) (hm : Metres p m) (h : Pixels p.tags x y)
    (sel : Entry r.imaging "SelectorValue" v) (num : Number env.float v s) (unit : TextEntry r.imaging "SelectorUnitString" u)
    (len : CameraLength u s l) (volt : Deep env.float r.report "ElectronGun" "AccelerationVoltage" ht)
    (n0 : l * env.wave ht * 1000000000 ≠ 0) :
    ∃ op c, jeol env (opOf p.tags) = (op, .ok c) ∧
      Matches c ⟨at0 (x * (m / (l * env.wave ht * 1000000000))) "1 / nm", at0 (y * (m / (l * env.wave ht * 1000000000))) "1 / nm", plain⟩ := by
  obtain ⟨op, n, e, eo, _⟩ := jeol_report r
  obtain ⟨w, hw, em⟩ := metres_ok hm
  refine ⟨op, { defaults with sx := .num (y * (m / (l * env.wave ht * 1000000000))), sy := .num (x * (m / (l * env.wave ht * 1000000000))), ux := .str "1 / nm".toList, uy := .str "1 / nm".toList }, ?_, rfl, rfl, rfl⟩
  rw [e]
  have s1 : sub "ResolutionUnit" op = .ok w := by rw [eo, report_sub r (by decide) (by decide), tag_sub hw]
  have s2 : sub "XResolution" op = sub "XResolution" (opOf p.tags) := by rw [eo, report_sub r (by decide) (by decide)]
  have s3 : sub "YResolution" op = sub "YResolution" (opOf p.tags) := by rw [eo, report_sub r (by decide) (by decide)]
  have e1 : (T.str r.mode).isText "eosTEM" = true := isText_iff.2 (by rw [tem])
  have e2 : (T.str "DIFF".toList).isText "MAG" = false := rfl
  have e3 : (T.str "DIFF".toList).isText "DIFF" = true := rfl
  simp only [jeolScales, s1, bind, Except.bind, em, e1, Bool.not_true, Bool.false_eq_true, if_false, entry_get mode, e2, e3, if_true,
    entry_get sel, number_ok num, deep_ok volt, entry_get unit, camera_ok len, divide, if_neg n0, resolutions_ok h _ s2 s3, pure, Except.pure]

theorem addDm_absent {p : Page} {c : Collected} (h : isDm (opOf p.tags) = false) : addDm (opOf p.tags) c = c := by
  have hk : ∀ k ∈ dmTags, ∀ d, tagOr k (opOf p.tags) d = d := by
    intro k hk d
    have : has k (opOf p.tags) = false := by
      unfold isDm at h
      rw [List.any_eq_false] at h
      simpa using h k hk
    rcases tag_or_not p.tags k with ⟨v, hv⟩ | hn
    · rw [tag_has hv] at this
      cases this
    · exact tagOr_ok (.inr ⟨hn, rfl⟩)
  simp only [addDm, hk "65003" (by decide), hk "65004" (by decide), hk "65005" (by decide), hk "65006" (by decide), hk "65007" (by decide),
    hk "65008" (by decide), hk "65009" (by decide), hk "65010" (by decide), hk "65011" (by decide)]

theorem usual_dm {f : Tiff} {p : Page} : usual f (opOf p.tags) =
    if f.imagej then addImagej f.imagejMetadata (opOf p.tags) (addDm (opOf p.tags) defaults) else .ok (addDm (opOf p.tags) defaults) := by
  unfold usual
  cases h : isDm (opOf p.tags) with
  | true => rfl
  | false =>
    simp only [Bool.false_eq_true, if_false]
    rw [addDm_absent h]

theorem entry_kw {d : Op} {k : String} {v : T} (h : Entry (.dict d) k v) : getKw k.toList d = some v := by
  obtain ⟨d', e, h1, h2⟩ := h
  cases e
  exact getKw_nodup h1 h2

theorem noEntry_kw {d : Op} {k : String} (h : NoEntry (.dict d) k) : getKw k.toList d = none := by
  obtain ⟨d', e, h⟩ := h
  cases e
  exact getKw_absent h

/-! ### Which program -/

section
variable {env : Env} {f : Tiff} {p : Page} {force : Bool} {shape : List Nat} {names : List (Option Text)} {ty : StreakType}

theorem parse_forced (h : Forced p force) {c : Collected} (hc : forced (opOf p.tags) = .ok c) :
    parseScale env f p (opOf p.tags) shape force names ty = (opOf p.tags, .ok (axesOf c shape names)) := by
  unfold parseScale
  rw [if_pos (forced_iff.2 h), hc]
  rfl

theorem parse_fei (k : IsKind f p force .fei) {op : Op} {c : Collected} (h : fei env f (opOf p.tags) = (op, .ok c)) :
    parseScale env f p (opOf p.tags) shape force names ty = (op, .ok (axesOf c shape names)) := by
  unfold parseScale
  rw [notForced k.1, k.2, h]
  rfl

theorem parse_zeiss (k : IsKind f p force .zeiss) {c : Collected} (h : zeiss f (opOf p.tags) = .ok c) :
    parseScale env f p (opOf p.tags) shape force names ty = (opOf p.tags, .ok (axesOf c shape names)) := by
  unfold parseScale
  rw [notForced k.1, k.2.1, k.2.2, h]
  rfl

theorem parse_tvips (k : IsKind f p force .tvips) {c : Collected} (h : tvips (opOf p.tags) = .ok c) :
    parseScale env f p (opOf p.tags) shape force names ty = (opOf p.tags, .ok (axesOf c shape names)) := by
  unfold parseScale
  rw [notForced k.1, k.2.1, k.2.2.1, k.2.2.2, h]
  rfl

theorem parse_sis (k : IsKind f p force .sis) {op : Op} {c : Collected} (h : sis env p (opOf p.tags) = (op, .ok c)) :
    parseScale env f p (opOf p.tags) shape force names ty = (op, .ok (axesOf c shape names)) := by
  unfold parseScale
  rw [notForced k.1, k.2.1, k.2.2.1, k.2.2.2.1, k.2.2.2.2, h]
  rfl

theorem parse_jeol (k : IsKind f p force .jeol) {op : Op} {c : Collected} (h : jeol env (opOf p.tags) = (op, .ok c)) :
    parseScale env f p (opOf p.tags) shape force names ty = (op, .ok (axesOf c shape names)) := by
  unfold parseScale
  rw [notForced k.1, k.2.1, k.2.2.1, k.2.2.2.1, k.2.2.2.2.1, jeol_iff.2 k.2.2.2.2.2, h]
  rfl

theorem parse_streak (k : IsKind f p force .streak) :
    parseScale env f p (opOf p.tags) shape force names ty = (opOf p.tags, streak env f (opOf p.tags) shape names ty) := by
  unfold parseScale
  rw [notForced k.1, k.2.1, k.2.2.1, k.2.2.2.1, k.2.2.2.2.1, notJeol k.2.2.2.2.2.1, isStreak_true k.2.2.2.2.2.2]
  rfl

theorem parse_usual (k : IsKind f p force .usual) {c : Collected} (h : usual f (opOf p.tags) = .ok c) :
    parseScale env f p (opOf p.tags) shape force names ty = (opOf p.tags, .ok (axesOf c shape names)) := by
  unfold parseScale
  rw [notForced k.1, k.2.1, k.2.2.1, k.2.2.2.1, k.2.2.2.2.1, notJeol k.2.2.2.2.2.1, isStreak_false k.2.2.2.2.2.2, h]
  rfl

theorem forced_ok {x y u : ℚ} (h : Pixels p.tags x y) (hu : Tag p.tags "ResolutionUnit" (.num u)) (n : u ≠ 1) :
    forced (opOf p.tags) = .ok (forcedUnits (.num u) defaults y x) := by
  have e1 : (T.num u).isNum 1 = false := by
    rw [← Bool.not_eq_true, isNum_iff]
    simpa using n
  simp only [forced, tag_sub hu, bind, Except.bind, e1, Bool.false_eq_true, if_false, resolutions_ok h 1 rfl rfl, pure, Except.pure, mul_one]

theorem pixels_forced {x y : ℚ} {v : T} (h : Pixels p.tags x y) (hu : Tag p.tags "ResolutionUnit" v) : Forced p true := by
  obtain ⟨n, d, h1, _⟩ := h.1
  exact ⟨rfl, ⟨_, hu⟩, _, h1⟩

theorem fei_ok (t : FeiTag p) {c : Collected} (h : feiPixels env f.feiMetadata = .ok c) : ∃ op, fei env f (opOf p.tags) = (op, .ok c) := by
  obtain ⟨op, e⟩ := feiDelete_ok (m := f.feiMetadata) t
  exact ⟨op, by simp only [fei, e, h]⟩

theorem tvipsRes_ok {t : T} {x y : ℚ} (ht : Tag p.tags "TVIPS" t) (n : NoEntry t "PixelSizeX" ∨ NoEntry t "PixelSizeY") (h : Pixels p.tags x y) :
    tvips (opOf p.tags) = .ok { defaults with sx := .num (y * (1 / 100)), sy := .num (x * (1 / 100)), ux := .str ['m'], uy := .str ['m'] } := by
  have hd : ∃ d, t = .dict d := by
    rcases n with ⟨d, e, _⟩ | ⟨d, e, _⟩ <;> exact ⟨d, e⟩
  obtain ⟨d, rfl⟩ := hd
  have hb : ((getKw "PixelSizeX".toList d).isSome && (getKw "PixelSizeY".toList d).isSome) = false := by
    rcases n with n | n
    · rw [noEntry_kw n]
      rfl
    · rw [noEntry_kw n, Bool.and_comm]
      rfl
  simp only [tvips, tag_sub ht, bind, Except.bind, T.has, hb, Bool.false_eq_true, if_false, resolutions_ok h (1 / 100) rfl rfl, pure, Except.pure]

theorem sis_ok {t x y : T} {r q : ℚ} (ht : p.sis = [(33560, t)] ∨ p.sis = [(33471, t)])
    (hx : Entry t "pixelsizex" x) (hy : Entry t "pixelsizey" y) (nx : Number env.float x r) (ny : Number env.float y r) (e : env.round15 r = q)
    {op : Op} : ∃ op', sis env p op = (op', .ok { defaults with sx := .num q, sy := .num q, ux := .str ['m'], uy := .str ['m'] }) := by
  have hs : sisMetadata p = t := by
    rcases ht with h | h <;> simp [sisMetadata, h]
  refine ⟨setKw "Olympus_SIS_metadata".toList t op, ?_⟩
  simp only [sis, hs, entry_get hx, entry_get hy, bind, Except.bind, number_ok nx, number_ok ny, pure, Except.pure, e]

theorem imagej_ok {version unit : T} {x y : ℚ} {c : Collected} (vers : Entry (.dict f.imagejMetadata) "ImageJ" version)
    (hu : Entry (.dict f.imagejMetadata) "unit" unit) (px : Pixels p.tags x y) :
    addImagej f.imagejMetadata (opOf p.tags) c = .ok
      { c with
        sx := .num y
        sy := .num x
        ux := if unit.isText "micron" then .str "µm".toList else c.ux
        uy := if unit.isText "micron" then .str "µm".toList else c.uy
        sz := tagOr "spacing" f.imagejMetadata c.sz } := by
  have e1 : has "ImageJ" f.imagejMetadata = true := by simp only [has, entry_kw vers, Option.isSome_some]
  unfold addImagej addPlane
  rw [if_pos e1, entry_kw hu]
  simp only [bind, Except.bind, resolutions_ok px 1 rfl rfl, pure, Except.pure, mul_one]
  cases unit.isText "micron" <;> rfl

theorem imagejNoUnit_ok {version : T} {c : Collected} (vers : Entry (.dict f.imagejMetadata) "ImageJ" version)
    (hu : NoEntry (.dict f.imagejMetadata) "unit") :
    addImagej f.imagejMetadata (opOf p.tags) c = .ok { c with sz := tagOr "spacing" f.imagejMetadata c.sz } := by
  have e1 : has "ImageJ" f.imagejMetadata = true := by simp only [has, entry_kw vers, Option.isSome_some]
  unfold addImagej addPlane
  rw [if_pos e1, noEntry_kw hu]
  rfl

theorem gives_parse {l : Cals} (h : Gives env f p force l) :
    ∃ op c, parseScale env f p (opOf p.tags) shape force names ty = (op, .ok (axesOf c shape names)) ∧ Matches c l := by
  cases h with
  | inch h u =>
    refine ⟨_, _, parse_forced (pixels_forced h u) (forced_ok h u (by decide)), ?_⟩
    have e2 : (T.num 2).isNum 2 = true := isNum_iff.2 rfl
    simp only [forcedUnits, e2, if_true]
    exact ⟨rfl, rfl, rfl⟩
  | centimetre h u =>
    refine ⟨_, _, parse_forced (pixels_forced h u) (forced_ok h u (by decide)), ?_⟩
    have e2 : (T.num 3).isNum 2 = false := by
      rw [← Bool.not_eq_true, isNum_iff]
      intro e
      exact absurd (T.num.inj e) (by decide)
    have e3 : (T.num 3).isNum 3 = true := isNum_iff.2 rfl
    simp only [forcedUnits, e2, e3, if_true, Bool.false_eq_true, if_false]
    exact ⟨rfl, rfl, rfl⟩
  | noUnit h u =>
    refine ⟨_, defaults, parse_forced ⟨rfl, ⟨_, u⟩, _, h⟩ ?_, rfl, rfl, rfl⟩
    have e2 : (T.num 1).isNum 1 = true := isNum_iff.2 rfl
    simp only [forced, tag_sub u, bind, Except.bind, e2, if_true, pure, Except.pure]
  | @otherUnit x y v h u o =>
    have en : ∀ n ∈ [1, 2, 3], v.isNum n = false := fun n hn => by
      rw [← Bool.not_eq_true, isNum_iff]
      exact o n hn
    refine ⟨_, _, parse_forced (pixels_forced h u) (c := forcedUnits v defaults y x) ?_, ?_⟩
    · simp only [forced, tag_sub u, bind, Except.bind, en 1 (by decide), Bool.false_eq_true, if_false, resolutions_ok h 1 rfl rfl, pure, Except.pure, mul_one]
    · simp only [forcedUnits, en 2 (by decide), en 3 (by decide), Bool.false_eq_true, if_false]
      exact ⟨rfl, rfl, rfl⟩
  | @feiScan force q k t hx hy =>
    have : feiPixels env f.feiMetadata = .ok { defaults with sx := .num q, sy := .num q, ux := .str ['m'], uy := .str ['m'] } := by
      simp only [feiPixels, deep_ok hx, deep_ok hy]
    obtain ⟨op, e⟩ := fei_ok t this
    exact ⟨op, _, parse_fei k e, rfl, rfl, rfl⟩
  | @feiBeam force w h x y q k t n hw hh hx hy nx ny ex ey =>
    have : feiPixels env f.feiMetadata = .ok { defaults with sx := .num q, sy := .num q, ux := .str ['m'], uy := .str ['m'] } := by
      simp only [feiPixels, floatAt_absent n, feiBeam, deep_ok hw, deep_ok hh, deep_ok hx, deep_ok hy, bind, Except.bind, quotient nx ex, quotient ny ey]
    obtain ⟨op, e⟩ := fei_ok t this
    exact ⟨op, _, parse_fei k e, rfl, rfl, rfl⟩
  | @zeiss force t l v q first rest n k ht hl hv hp hn n0 e =>
    have : zeiss f (opOf p.tags) = .ok { defaults with sx := .num q, sy := .num q, ux := .str ['m'], uy := .str ['m'] } := by
      have hg : t.get [] = .ok (.list l) := entry_get hl
      simp only [zeiss, tag_sub ht, hg, bind, Except.bind, T.at, hv, T.rat, hp, hn, pure, Except.pure]
      rw [quotient (by exact_mod_cast n0) e]
    exact ⟨_, _, parse_zeiss k this, rfl, rfl, rfl⟩
  | @tvipsSize force t v k ht hx hy =>
    have : tvips (opOf p.tags) = .ok { defaults with sx := v, sy := v, ux := .str "nm".toList, uy := .str "nm".toList } := by
      simp only [tvips, tag_sub ht, bind, Except.bind, entry_has hx, entry_has hy, Bool.and_self, if_true, entry_get hx, entry_get hy, pure, Except.pure]
    exact ⟨_, _, parse_tvips k this, rfl, rfl, rfl⟩
  | tvipsResolution k ht n h =>
    refine ⟨_, _, parse_tvips k (tvipsRes_ok ht n h), ?_, ?_, rfl⟩ <;> simp only [at0, defaults, Cal.mk.injEq, T.num.injEq] <;> exact ⟨div_eq_mul_one_div _ _, trivial, rfl⟩
  | sis k ht hx hy nx ny e =>
    obtain ⟨op, e'⟩ := sis_ok ht hx hy nx ny e (op := opOf p.tags)
    exact ⟨op, _, parse_sis k e', rfl, rfl, rfl⟩
  | jeolImage k r tem mode hm h sel num m0 =>
    obtain ⟨op, c, e, hc⟩ := jeol_mag r tem mode hm h sel num m0
    exact ⟨op, c, parse_jeol k e, hc⟩
  | jeolDiffraction k r tem mode hm h sel num unit len volt n0 =>
    obtain ⟨op, c, e, hc⟩ := jeol_diff r tem mode hm h sel num unit len volt n0
    exact ⟨op, c, parse_jeol k e, hc⟩
  | jeolScanning k r stem u =>
    obtain ⟨op, n, e, eo, _⟩ := jeol_report r
    have s1 := report_sub r (n := .str n) (k := "ResolutionUnit") (by decide) (by decide)
    rw [← eo, tag_sub u] at s1
    have e1 : (T.str r.mode).isText "eosTEM" = false := by
      rw [← Bool.not_eq_true, isText_iff]
      exact fun e => stem (T.str.inj e)
    refine ⟨op, defaults, parse_jeol k ?_, rfl, rfl, rfl⟩
    rw [e]
    simp only [jeolScales, s1, bind, Except.bind, e1, Bool.not_false, if_true, pure, Except.pure]
  | @micrograph force w h d k n uw uh ud ow oh od sw sh sd =>
    refine ⟨_, addDm (opOf p.tags) defaults, parse_usual k ?_, ?_⟩
    · rw [usual_dm, n]
      rfl
    · simp only [Matches, addDm, defaults, tagOr_ok uw, tagOr_ok uh, tagOr_ok ud, tagOr_ok ow, tagOr_ok oh, tagOr_ok od, tagOr_ok sw, tagOr_ok sh, tagOr_ok sd, and_self]
  | @imagej force w h d version unit x y k i vers hu px uw uh ud ow oh od sw sh sd =>
    have hc := imagej_ok (c := addDm (opOf p.tags) defaults) vers hu px
    have hq : usual f (opOf p.tags) = addImagej f.imagejMetadata (opOf p.tags) (addDm (opOf p.tags) defaults) := by
      rw [usual_dm, i, if_pos rfl]
    refine ⟨_, _, parse_usual k (hq.trans hc), ?_⟩
    · obtain ⟨w1, w2, w3⟩ := w
      obtain ⟨h1, h2, h3⟩ := h
      obtain ⟨d1, d2, d3⟩ := d
      simp only at uw uh ud ow oh od sw sh sd
      subst sw sh
      refine ⟨?_, ?_, ?_⟩
      · simp only [addDm, defaults, tagOr_ok ow, Cal.mk.injEq, true_and]
        rcases uw with ⟨rfl, rfl⟩ | ⟨hn, uw⟩
        · rw [if_pos (isText_iff.2 rfl)]
        · rw [if_neg (fun e => hn (isText_iff.1 e)), tagOr_ok uw]
      · simp only [addDm, defaults, tagOr_ok oh, Cal.mk.injEq, true_and]
        rcases uh with ⟨rfl, rfl⟩ | ⟨hn, uh⟩
        · rw [if_pos (isText_iff.2 rfl)]
        · rw [if_neg (fun e => hn (isText_iff.1 e)), tagOr_ok uh]
      · simp only [addDm, defaults, tagOr_ok od, tagOr_ok ud, Cal.mk.injEq, and_true]
        rcases sd with sd | ⟨sn, sd⟩
        · simp only [tagOr, entry_kw sd, Option.getD_some]
        · simp only [tagOr, noEntry_kw sn, Option.getD_none]
          exact (tagOr_ok sd).symm
  | @imagejNoUnit force w h d version k i vers hu uw uh ud ow oh od sw sh sd =>
    have hc := imagejNoUnit_ok (p := p) (c := addDm (opOf p.tags) defaults) vers hu
    have hq : usual f (opOf p.tags) = addImagej f.imagejMetadata (opOf p.tags) (addDm (opOf p.tags) defaults) := by
      rw [usual_dm, i, if_pos rfl]
    refine ⟨_, _, parse_usual k (hq.trans hc), ?_⟩
    · refine ⟨?_, ?_, ?_⟩
      · simp only [addDm, defaults, tagOr_ok uw, tagOr_ok ow, tagOr_ok sw]
      · simp only [addDm, defaults, tagOr_ok uh, tagOr_ok oh, tagOr_ok sh]
      · obtain ⟨d1, d2, d3⟩ := d
        simp only at ud od sd
        simp only [addDm, defaults, tagOr_ok od, tagOr_ok ud, Cal.mk.injEq, and_true]
        rcases sd with sd | ⟨sn, sd⟩
        · simp only [tagOr, entry_kw sd, Option.getD_some]
        · simp only [tagOr, noEntry_kw sn, Option.getD_none]
          exact (tagOr_ok sd).symm

end

end Verif.Tiff
