import Verif.Props.TiffMeta
import Mathlib.Tactic.Linarith
/-!
C119: writing TIFF files and reading them.
-/
namespace Verif.Props.Tiff
open Verif Verif.Tiff Verif.Spec.Tiff

/-! ### Tags of a written file -/

theorem tag_of_nodup {tags : List (Text × T)} {k : String} {v : T} (h : (k.toList, v) ∈ tags) (hn : (tags.map Prod.fst).Nodup) : Tag tags k v := by
  obtain ⟨a, b, rfl⟩ := List.append_of_mem h
  refine ⟨a, b, rfl, fun q hq e => ?_⟩
  rw [List.map_append, List.map_cons] at hn
  have := (List.nodup_append.1 hn).2.1
  rw [List.nodup_cons] at this
  exact this.1 (List.mem_map.2 ⟨q, hq, e⟩)

theorem noTag_of {tags : List (Text × T)} {k : String} (h : k.toList ∉ tags.map Prod.fst) : NoTag tags k :=
  fun q hq e => h (List.mem_map.2 ⟨q, hq, e⟩)

/-! ### The description -/

theorem line_strip {t : Text} (h : Line t) : stripBy isSpace t = t := stripBy_id (fun c hc => h.2.2.1 c hc) fun c hc => h.2.2.2 c hc

/-- The text in the description for units. -/
theorem described {lib : Lib} {show_ : ℚ → Text} (hf : Faithful lib show_) {u : Text} (h : Described lib u) :
    Line (imagejUnit u) ∧ ascii (imagejUnit u) = true ∧
      ((u = "µm".toList ∧ lib.literal (imagejUnit u) = .str "micron".toList) ∨
       (u ≠ "µm".toList ∧ ∃ t, lib.literal (imagejUnit u) = .str t ∧ t ≠ "micron".toList)) := by
  have l1 : Line "micron".toList := ⟨by decide, by decide, fun c hc => by cases hc; rfl, fun c hc => by cases hc; rfl⟩
  have l2 : Line "angstrom".toList := ⟨by decide, by decide, fun c hc => by cases hc; rfl, fun c hc => by cases hc; rfl⟩
  rcases h with rfl | rfl | ⟨h1, h2, h3, h4⟩
  · have e : imagejUnit "µm".toList = "micron".toList := by decide
    rw [e]
    exact ⟨l1, by decide, .inl ⟨rfl, hf.micron⟩⟩
  · have e : imagejUnit ['Å'] = "angstrom".toList := by decide
    rw [e]
    exact ⟨l2, by decide, .inr ⟨by decide, _, hf.angstrom, by decide⟩⟩
  · have n1 : u ≠ "µm".toList := by
      rintro rfl
      exact absurd (h2 'µ' (by decide)) (by decide)
    have n2 : u ≠ ['Å'] := by
      rintro rfl
      exact absurd (h2 'Å' (by decide)) (by decide)
    have e : imagejUnit u = u := by
      unfold imagejUnit
      rw [if_neg n1, if_neg n2]
    rw [e]
    exact ⟨h1, by simpa [ascii] using h2, .inr ⟨n1, u, h3, h4⟩⟩

theorem shown {lib : Lib} {show_ : ℚ → Text} (hf : Faithful lib show_) (q : ℚ) : imagejUnit (show_ q) = show_ q := by
  obtain ⟨_, h2, _⟩ := hf.number q
  unfold imagejUnit
  rw [if_neg, if_neg]
  · intro e
    exact absurd (h2 'Å' (by rw [e]; decide)) (by decide)
  · intro e
    exact absurd (h2 'µ' (by rw [e]; decide)) (by decide)

theorem ascii_append {a b : Text} : ascii (a ++ b) = (ascii a && ascii b) := by
  simp [ascii, List.all_append]

theorem description_image {lib : Lib} {u : Text} (h1 : Line u) (h2 : ascii u = true) {d : Text}
    (hd : d = joinWith ['\n'] ["ImageJ=1.11a".toList, "unit=".toList ++ u, []]) :
    ascii d = true ∧ parseImagej lib d = [("ImageJ".toList, lib.literal "1.11a".toList), ("unit".toList, lib.literal u)] := by
  subst hd
  refine ⟨?_, ?_⟩
  · simp only [joinWith, ascii_append, h2]
    decide
  · unfold parseImagej
    rw [splitChar_join (by simp) (by
      intro p hp
      simp only [List.mem_cons, List.not_mem_nil, or_false] at hp
      rcases hp with rfl | rfl | rfl
      · decide
      · rw [List.mem_append]
        rintro (e | e)
        · exact absurd e (by decide)
        · exact h1.1 e
      · decide)]
    have e1 : splitChar '=' "ImageJ=1.11a".toList = ["ImageJ".toList, "1.11a".toList] := by decide
    have e2 : splitChar '=' ("unit=".toList ++ u) = ["unit".toList, u] := by
      have : "unit=".toList ++ u = "unit".toList ++ '=' :: u := rfl
      rw [this, splitChar_append (by decide), splitChar_none h1.2.1]
    have e3 : splitChar '=' ([] : Text) = [[]] := rfl
    have e4 : stripBy isSpace "ImageJ".toList = "ImageJ".toList := by decide
    have e5 : stripBy isSpace "unit".toList = "unit".toList := by decide
    have e6 : stripBy isSpace "1.11a".toList = "1.11a".toList := by decide
    simp only [List.foldl_cons, List.foldl_nil, e1, e2, e3, e4, e5, e6, line_strip h1]
    rfl

theorem description_stack {lib : Lib} {u z : Text} (h1 : Line u) (h2 : ascii u = true) (g1 : Line z) (g2 : ascii z = true) {d : Text}
    (hd : d = joinWith ['\n'] ["ImageJ=1.11a".toList, "unit=".toList ++ u, "spacing=".toList ++ z, []]) :
    ascii d = true ∧ parseImagej lib d = [("ImageJ".toList, lib.literal "1.11a".toList), ("unit".toList, lib.literal u), ("spacing".toList, lib.literal z)] := by
  subst hd
  refine ⟨?_, ?_⟩
  · simp only [joinWith, ascii_append, h2, g2]
    decide
  · unfold parseImagej
    rw [splitChar_join (by simp) (by
      intro p hp
      simp only [List.mem_cons, List.not_mem_nil, or_false] at hp
      rcases hp with rfl | rfl | rfl | rfl
      · decide
      · rw [List.mem_append]
        rintro (e | e)
        · exact absurd e (by decide)
        · exact h1.1 e
      · rw [List.mem_append]
        rintro (e | e)
        · exact absurd e (by decide)
        · exact g1.1 e
      · decide)]
    have e1 : splitChar '=' "ImageJ=1.11a".toList = ["ImageJ".toList, "1.11a".toList] := by decide
    have e2 : splitChar '=' ("unit=".toList ++ u) = ["unit".toList, u] := by
      have : "unit=".toList ++ u = "unit".toList ++ '=' :: u := rfl
      rw [this, splitChar_append (by decide), splitChar_none h1.2.1]
    have e2' : splitChar '=' ("spacing=".toList ++ z) = ["spacing".toList, z] := by
      have : "spacing=".toList ++ z = "spacing".toList ++ '=' :: z := rfl
      rw [this, splitChar_append (by decide), splitChar_none g1.2.1]
    have e3 : splitChar '=' ([] : Text) = [[]] := rfl
    have e4 : stripBy isSpace "ImageJ".toList = "ImageJ".toList := by decide
    have e5 : stripBy isSpace "unit".toList = "unit".toList := by decide
    have e5' : stripBy isSpace "spacing".toList = "spacing".toList := by decide
    have e6 : stripBy isSpace "1.11a".toList = "1.11a".toList := by decide
    simp only [List.foldl_cons, List.foldl_nil, e1, e2, e2', e3, e4, e5, e5', e6, line_strip h1, line_strip g1]
    rfl

/-! ### Resolution -/

/-- A scale as it is written and read. -/
theorem scale_back {lib : Lib} {show_ : ℚ → Text} (hf : Faithful lib show_) {s : ℚ} (hs : 1 / 100000000 ≤ s) :
    ∃ q n d : ℚ, storedRatio lib (100000000, DateTime.pyInt (s * 100000000)) = .list [.num n, .num d] ∧ n ≠ 0 ∧ q * n = d ∧ q ≤ s ∧ s - q < 1 / 100000000 := by
  have h1 : 1 ≤ s * 100000000 := by linarith
  have h2 : DateTime.pyInt (s * 100000000) = ⌊s * 100000000⌋ := if_pos (by linarith)
  have h3 : (1 : Int) ≤ ⌊s * 100000000⌋ := Int.le_floor.2 (by exact_mod_cast h1)
  obtain ⟨r1, r2⟩ := hf.ratio 100000000 ⌊s * 100000000⌋ (by decide) (by omega)
  refine ⟨(⌊s * 100000000⌋ : ℚ) / 100000000, _, _, rfl, ?_, ?_, ?_, ?_⟩
  · rw [h2]; exact r1
  · rw [h2]
    push_cast at r2
    linarith
  · have := Int.floor_le (s * 100000000)
    rw [div_le_iff₀ (by norm_num)]
    exact this
  · have := Int.lt_floor_add_one (s * 100000000)
    rw [sub_lt_iff_lt_add, ← sub_lt_iff_lt_add', lt_div_iff₀ (by norm_num)]
    linarith

/-! ### What is written -/

theorem intensity_names (s : WSig) : (intensityTags s).map Prod.fst =
    (if s.quantity.isSome then [65022, 65023] else []) ++ (if s.noise.isSome then [65024, 65025] else []) := by
  unfold intensityTags
  cases s.quantity <;> rcases s.noise with _ | ⟨_ | o, _ | g⟩ <;> rfl

/-- The names of the tags. -/
def names (a b c d : Bool) : List Text :=
  ["XResolution".toList, "YResolution".toList, "ImageDescription".toList, "Software".toList] ++ (if a then ["DateTime".toList] else []) ++
  (([65003, 65004, 65006, 65007, 65009, 65010] ++ ((if b then [65022, 65023] else []) ++ (if c then [65024, 65025] else [])) ++
    (if d then [65005, 65008, 65011, 65017] else [])) : List Nat).map fun n => (toString n).toList

theorem names_nodup : ∀ a b c d, (names a b c d).Nodup := by decide +kernel

theorem names_absent : ∀ k ∈ ["Make", "Artist", "ResolutionUnit"], ∀ a b c d, k.toList ∉ names a b c d := by decide +kernel

theorem names_depth : ∀ k ∈ ["65005", "65008", "65011"], ∀ a b c, k.toList ∉ names a b c false := by decide +kernel

theorem names_quantity : ∀ a c d, "65022".toList ∉ names a false c d := by decide +kernel

theorem names_noise : ∀ a b d, "65024".toList ∉ names a b false d := by decide +kernel

theorem names_date : ∀ b c d, "DateTime".toList ∉ names false b c d := by decide +kernel

section
variable {lib : Lib} {w : Written}

theorem stored_names {r : (Int × Int) × (Int × Int)} {d : Text} {s : WSig} {z : List (Nat × T)} {b : List (Nat × T)} {e : Bool}
    (h1 : w.resolution = some r) (h2 : w.description = some d) (h3 : w.tags = b ++ intensityTags s ++ z)
    (hb : b.map Prod.fst = [65003, 65004, 65006, 65007, 65009, 65010]) (hz : z.map Prod.fst = if e then [65005, 65008, 65011, 65017] else []) :
    (storedTags lib w).map Prod.fst = names w.datetime.isSome s.quantity.isSome s.noise.isSome e := by
  obtain ⟨rx, ry⟩ := r
  have ht : (w.tags.map fun p => ((toString p.1).toList, storedValue lib p.2)).map Prod.fst = (w.tags.map Prod.fst).map fun n => (toString n).toList := by
    simp [List.map_map, Function.comp_def]
  unfold storedTags
  rw [h1, h2]
  simp only [List.map_append]
  have hw : w.tags.map Prod.fst = [65003, 65004, 65006, 65007, 65009, 65010] ++
      ((if s.quantity.isSome then [65022, 65023] else []) ++ (if s.noise.isSome then [65024, 65025] else [])) ++
      (if e then [65005, 65008, 65011, 65017] else []) := by
    rw [h3, List.map_append, List.map_append, hb, hz, intensity_names]
  rw [ht, hw]
  unfold names
  cases w.datetime <;> rfl

theorem stored_number {k : String} {n : Nat} {v : T} (hk : (toString n).toList = k.toList) (h : (n, v) ∈ w.tags)
    (hn : ((storedTags lib w).map Prod.fst).Nodup) : Tag (storedTags lib w) k (storedValue lib v) := by
  refine tag_of_nodup ?_ hn
  unfold storedTags
  exact List.mem_append_right _ (List.mem_map.2 ⟨(n, v), h, by rw [hk]⟩)

theorem stored_resolution {x y : Int × Int} (h : w.resolution = some (x, y)) (hn : ((storedTags lib w).map Prod.fst).Nodup) :
    Tag (storedTags lib w) "XResolution" (storedRatio lib x) ∧ Tag (storedTags lib w) "YResolution" (storedRatio lib y) := by
  refine ⟨tag_of_nodup ?_ hn, tag_of_nodup ?_ hn⟩ <;>
  · unfold storedTags
    rw [h]
    simp only [List.mem_append, List.mem_cons, Prod.mk.injEq, List.not_mem_nil, or_false]
    simp

theorem stored_date {t : Text} (h : w.datetime = some t) (hn : ((storedTags lib w).map Prod.fst).Nodup) :
    Tag (storedTags lib w) "DateTime" (.str t) := by
  refine tag_of_nodup ?_ hn
  unfold storedTags
  rw [h]
  exact List.mem_append_left _ (List.mem_append_right _ (by simp))

theorem latin1_ok {t : Text} (h : ∀ c ∈ t, c.toNat < 256) : latin1 t = .ok t := by
  unfold latin1
  rw [if_pos (by simpa using h)]

/-- Colours go and come back. -/
theorem colours_back {a : Rgb.Array'} (h : Sound a) : ∃ r, Rgb.rgbx2regular a = .reg r ∧
    r.shape = shapeOf a ++ (if Rgb.isRgbx a then [if Rgb.isRgba a then 4 else 3] else []) ∧ (Rgb.isRgbx a = true → r.dt ≠ .other) ∧
    (if Rgb.isRgbx a then (Rgb.regular2rgbx false r).map Rgb.Array'.rgb else .ok (.reg r)) = .ok a := by
  cases a with
  | reg r => exact ⟨r, rfl, by simp [shapeOf, Rgb.isRgbx, Rgb.isRgb, Rgb.isRgba], fun e => by simp [Rgb.isRgbx, Rgb.isRgb, Rgb.isRgba] at e, rfl⟩
  | rgb a =>
    obtain ⟨r, h1, h2, h3, h4⟩ := Rgb.C08_rgb_roundtrip a ⟨h.1, h.2⟩
    have e : Rgb.isRgbx (.rgb a) = true := by
      cases ha : a.alpha <;> simp [Rgb.isRgbx, Rgb.isRgb, Rgb.isRgba, ha]
    refine ⟨r, h1, by rw [e, if_pos rfl]; exact h2, fun _ hr => ?_, ?_⟩
    · have := Rgb.C08_rejects r a.shape _ h2 (.inr hr)
      rw [this] at h4
      cases h4
    · rw [e, if_pos rfl, h4]
      rfl

end

/-! ### A written file is read -/

/-- The pages of a written file. -/
def pageOf (lib : Lib) (w : Written) (r : Rgb.Reg) : Page := ⟨storedTags lib w, [], false, false, false, false, w.rgb, r.shape⟩

/-- What is read from a file that was written, for given parts of it. -/
theorem written_read {lib : Lib} {env : Env} {name : Text} {ty : StreakType} {pages : List Handle} {s : WSig} {w : Written} {letters : Text} {b z : List (Nat × T)} {e : Bool}
    {d : Text} {res : (Int × Int) × (Int × Int)} (hty : ty ≠ .other) (hs : Sound s.data)
    (w1 : Rgb.rgbx2regular s.data = w.data) (w2 : w.rgb = Rgb.isRgbx s.data) (w3 : w.resolution = some res) (w4 : w.description = some d)
    (w5 : w.quantity = s.quantity) (w6 : w.datetime = s.datetime) (w7 : w.tags = b ++ intensityTags s ++ z)
    (hb : b.map Prod.fst = [65003, 65004, 65006, 65007, 65009, 65010]) (hz : z.map Prod.fst = if e then [65005, 65008, 65011, 65017] else [])
    (ha : ascii d = true) (hq : ascii (s.quantity.getD []) = true) (hl : ∀ c ∈ letters, Known c) (hn : letters.length = (shapeOf s.data).length)
    (hlib : ∀ q, s.quantity = some q → lib.decode q = .str q)
    {l : Cals} (g : ∀ f : Tiff, ∀ r : Rgb.Reg, f.fei = false → f.sem = false → f.tvips = false → f.imagej = true →
      f.imagejMetadata = parseImagej lib d → Gives env f (pageOf lib w r) false l) :
    ∃ f sig, stored lib letters w = .ok f ∧ fileReader env name false false ty pages f = .ok [sig] ∧ sig.data = s.data ∧
      Shows letters (shapeOf s.data) l sig.axes ∧ (sig.meta'.quantity = s.quantity.map T.str) ∧
      (∀ n, s.noise = some n → (∀ o f, n = (some o, some f) → sig.meta'.gain = some (.num f, .num o)) ∧
        (n.1 = none ∨ n.2 = none → sig.meta'.gain = some (.num 1, .num 0))) ∧ (s.noise = none → sig.meta'.gain = none) ∧
      (s.datetime = none → sig.meta'.date = none) ∧
      ∀ t dd hh, s.datetime = some t → env.strptime t = some (dd, hh) → sig.meta'.date = some dd ∧ sig.meta'.time = some hh := by
  obtain ⟨r, r1, r2, r3, r4⟩ := colours_back hs
  have hd : w.data = .reg r := by rw [← w1, r1]
  have hnm := stored_names (lib := lib) w3 w4 w7 hb hz
  have hnd : ((storedTags lib w).map Prod.fst).Nodup := by
    rw [hnm]
    exact names_nodup ..
  let p := pageOf lib w r
  let f : Tiff := ⟨false, false, false, true, .null, parseImagej lib d, [p], [⟨letters ++ (if w.rgb then ['S'] else []), r.shape, p, r⟩], fun _ _ => []⟩
  have hst : stored lib letters w = .ok f := by
    unfold stored
    rw [hd]
    simp only [w4, w5, Option.getD_some, Option.isSome_some]
    rw [ha, hq]
    rfl
  let h : Handle := ⟨letters ++ (if w.rgb then ['S'] else []), r.shape, p, r⟩
  have hfr : frame h = (letters, shapeOf s.data) := by
    have : h.page.rgb = w.rgb := rfl
    unfold frame
    rw [this, w2]
    have e1 : h.axes = letters ++ (if w.rgb then ['S'] else []) := rfl
    have e2 : h.shape = r.shape := rfl
    rw [e1, e2, r2, w2]
    cases Rgb.isRgbx s.data <;> simp
  have hJ : ¬ Jeol p := fun hj => by
    have := tag_get hj
    rw [noTag_get (noTag_of (by rw [show p.tags = storedTags lib w from rfl, hnm]; exact names_absent "Make" (by decide) _ _ _ _))] at this
    cases this
  have hS : NotStreak p := .inl (noTag_of (by rw [show p.tags = storedTags lib w from rfl, hnm]; exact names_absent "Artist" (by decide) _ _ _ _))
  have hL : Loads h := by
    cases hc : Rgb.isRgbx s.data with
    | false => exact .inl (w2.trans hc)
    | true =>
      refine .inr ⟨rfl, ?_, r3 hc⟩
      have : h.shape = r.shape := rfl
      rw [this, r2, hc, if_pos rfl, List.getLast?_append]
      cases Rgb.isRgba s.data
      · exact .inl rfl
      · exact .inr rfl
  have hD : NoTag p.tags "DateTime" ∨ ∃ t, Tag p.tags "DateTime" (.str t) := by
    cases hdt : w.datetime with
    | none =>
      refine .inl (noTag_of ?_)
      rw [show p.tags = storedTags lib w from rfl, hnm, hdt]
      exact names_date _ _ _
    | some t => exact .inr ⟨t, stored_date hdt hnd⟩
  obtain ⟨sig, hsig⟩ := C118_reads env f name false (h := h) hty hL (by rw [hfr]; exact hl) hD hJ hS (fun e => by cases e)
  have hr : fileReader env name false false ty pages f = .ok [sig] := by
    have : f.series = [h] := rfl
    unfold fileReader
    rw [this]
    simp only [Bool.false_eq_true, if_false, List.mapM_cons, List.mapM_nil, hsig, bind, Except.bind, pure, Except.pure]
  have hlen : h.axes.length = h.shape.length := by
    have e1 : h.axes = letters ++ (if w.rgb then ['S'] else []) := rfl
    have e2 : h.shape = r.shape := rfl
    rw [e1, e2, r2, w2]
    cases Rgb.isRgbx s.data <;> simp [hn]
  have hax := read_axes hsig (g f r rfl rfl rfl rfl rfl) hlen
  rw [hfr] at hax
  obtain ⟨q1, q2, q3, q4⟩ := C120_intensity hsig
  refine ⟨f, sig, hst, hr, ?_, hax, ?_, fun n hg => ⟨fun o g hn => ?_, fun hn => ?_⟩, fun hg => ?_, fun hdt => ?_, fun t dd hh hdt hst => ?_⟩
  · obtain ⟨_, _, _, _, _, _, _, _, _, _, h5, _⟩ := read_parts hsig
    have : loadData h.page.rgb h = .ok s.data := by
      rw [← r4]
      have e1 : h.page.rgb = w.rgb := rfl
      rw [e1, w2]
      unfold loadData
      have e2 : h.data = r := rfl
      rw [e2]
      cases Rgb.isRgbx s.data with
      | false => rfl
      | true =>
        simp only [if_true, bind, Except.bind, pure, Except.pure]
        cases Rgb.regular2rgbx false r <;> rfl
    rw [h5] at this
    exact Except.ok.inj this
  · cases hqq : s.quantity with
    | none =>
      refine q2 (noTag_of ?_)
      rw [show h.page.tags = storedTags lib w from rfl, hnm, hqq]
      exact names_quantity _ _ _
    | some q =>
      have := stored_number (lib := lib) (w := w) (k := "65022") (n := 65022) (v := .str q) (by decide +kernel) (by
        rw [w7]
        exact List.mem_append_left _ (List.mem_append_right _ (by simp [intensityTags, hqq]))) hnd
      rw [show storedValue lib (.str q) = lib.decode q from rfl, hlib q hqq] at this
      exact q1 _ this
  · rw [hn] at hg
    have t1 := stored_number (lib := lib) (w := w) (k := "65024") (n := 65024) (v := .num o) (by decide +kernel) (by
        rw [w7]
        exact List.mem_append_left _ (List.mem_append_right _ (by simp [intensityTags, hg]))) hnd
    have t2 := stored_number (lib := lib) (w := w) (k := "65025") (n := 65025) (v := .num g) (by decide +kernel) (by
        rw [w7]
        exact List.mem_append_left _ (List.mem_append_right _ (by simp [intensityTags, hg]))) hnd
    exact q3 _ _ t1 t2
  · have hi : (65024, T.num 0) ∈ intensityTags s ∧ (65025, T.num 1) ∈ intensityTags s := by
      obtain ⟨o, g⟩ := n
      rcases hn with rfl | rfl
      · simp [intensityTags, hg]
      · cases o <;> simp [intensityTags, hg]
    have t1 := stored_number (lib := lib) (w := w) (k := "65024") (n := 65024) (v := .num 0) (by decide +kernel) (by
        rw [w7]
        exact List.mem_append_left _ (List.mem_append_right _ hi.1)) hnd
    have t2 := stored_number (lib := lib) (w := w) (k := "65025") (n := 65025) (v := .num 1) (by decide +kernel) (by
        rw [w7]
        exact List.mem_append_left _ (List.mem_append_right _ hi.2)) hnd
    exact q3 _ _ t1 t2
  · refine q4 (.inl (noTag_of ?_))
    rw [show h.page.tags = storedTags lib w from rfl, hnm, hg]
    exact names_noise _ _ _
  · refine (C120_no_date hsig (noTag_of ?_)).1
    rw [show h.page.tags = storedTags lib w from rfl, hnm, w6, hdt]
    exact names_date _ _ _
  · have := C120_date_partial hsig (stored_date (w6.trans hdt) hnd) hst
    exact ⟨this.1, this.2.1⟩

/-- The calibration that comes back: the resolution is cut after the eighth digit, the rest is exact. -/
theorem gives_back {lib : Lib} {show_ : ℚ → Text} (hf : Faithful lib show_) {env : Env} {w : Written} {s : WSig} {x y : WAxis} {d : Text} {z b : List (Nat × T)} {e : Bool}
    {depth : Cal} (w3 : w.resolution = some ((100000000, DateTime.pyInt (x.scale * 100000000)), (100000000, DateTime.pyInt (y.scale * 100000000))))
    (w4 : w.description = some d) (w7 : w.tags = b ++ intensityTags s ++ z)
    (hb : b = [(65003, .str (x.units.getD [])), (65004, .str (y.units.getD [])), (65006, .num x.offset), (65007, .num y.offset), (65009, .num x.scale), (65010, .num y.scale)])
    (hz : z.map Prod.fst = if e then [65005, 65008, 65011, 65017] else []) (hx : 1 / 100000000 ≤ x.scale) (hy : 1 / 100000000 ≤ y.scale)
    (ux : UnitOk lib x) (uy : UnitOk lib y) {u : Text} {rest : Op} (hu : parseImagej lib d = ("ImageJ".toList, lib.literal "1.11a".toList) :: ("unit".toList, .str u) :: rest)
    (hnd : ((parseImagej lib d).map Prod.fst).Nodup)
    (hm : u = "micron".toList → x.units = some "µm".toList ∧ y.units = some "µm".toList)
    (du : ∀ r, TagOr (pageOf lib w r).tags "65005" .null depth.units) (dd : ∀ r, TagOr (pageOf lib w r).tags "65008" (.num 0) depth.offset)
    (ds : ∀ r, Entry (.dict (parseImagej lib d)) "spacing" depth.scale ∨
      (NoEntry (.dict (parseImagej lib d)) "spacing" ∧ TagOr (pageOf lib w r).tags "65011" (.num 1) depth.scale)) :
    ∃ qx qy : ℚ, qx ≤ x.scale ∧ x.scale - qx < 1 / 100000000 ∧ qy ≤ y.scale ∧ y.scale - qy < 1 / 100000000 ∧
      ∀ f : Tiff, ∀ r : Rgb.Reg, f.fei = false → f.sem = false → f.tvips = false → f.imagej = true →
        f.imagejMetadata = parseImagej lib d → Gives env f (pageOf lib w r) false
          ⟨⟨.num qx, .num x.offset, .str (x.units.getD [])⟩, ⟨.num qy, .num y.offset, .str (y.units.getD [])⟩, depth⟩ := by
  have hnm := stored_names (lib := lib) w3 w4 w7 (by rw [hb]; rfl) hz
  have hn : ((storedTags lib w).map Prod.fst).Nodup := by
    rw [hnm]
    exact names_nodup ..
  obtain ⟨qx, nx, dx, ex, nx0, px, lx, tx⟩ := scale_back hf hx
  obtain ⟨qy, ny, dy, ey, ny0, py, ly, ty⟩ := scale_back hf hy
  obtain ⟨rx, ry⟩ := stored_resolution (lib := lib) w3 hn
  rw [ex] at rx
  rw [ey] at ry
  have hmem : ∀ q ∈ b, q ∈ w.tags := fun q hq => by
    rw [w7]
    exact List.mem_append_left _ (List.mem_append_left _ hq)
  have t1 := stored_number (lib := lib) (k := "65003") (by decide +kernel) (hmem (65003, .str (x.units.getD [])) (by rw [hb]; simp)) hn
  have t2 := stored_number (lib := lib) (k := "65004") (by decide +kernel) (hmem (65004, .str (y.units.getD [])) (by rw [hb]; simp)) hn
  have t3 := stored_number (lib := lib) (k := "65006") (by decide +kernel) (hmem (65006, .num x.offset) (by rw [hb]; simp)) hn
  have t4 := stored_number (lib := lib) (k := "65007") (by decide +kernel) (hmem (65007, .num y.offset) (by rw [hb]; simp)) hn
  rw [show storedValue lib (.str (x.units.getD [])) = lib.decode (x.units.getD []) from rfl, ux.2] at t1
  rw [show storedValue lib (.str (y.units.getD [])) = lib.decode (y.units.getD []) from rfl, uy.2] at t2
  refine ⟨qx, qy, lx, tx, ly, ty, fun f r f1 f2 f3 f4 f5 => ?_⟩
  have hJ : ¬ Jeol (pageOf lib w r) := fun hj => by
    have := tag_get hj
    rw [noTag_get (noTag_of (by rw [show (pageOf lib w r).tags = storedTags lib w from rfl, hnm]; exact names_absent "Make" (by decide) _ _ _ _))] at this
    cases this
  have hS : NotStreak (pageOf lib w r) :=
    .inl (noTag_of (by rw [show (pageOf lib w r).tags = storedTags lib w from rfl, hnm]; exact names_absent "Artist" (by decide) _ _ _ _))
  refine Gives.imagej (x := qx) (y := qy) (version := lib.literal "1.11a".toList) (unit := .str u) ?_ f4 ?_ ?_ ?_ ?_ ?_ (du r) ?_ ?_ (dd r) rfl rfl ?_
  · exact ⟨(fun h => by cases h.1), f1, f2, f3, rfl, hJ, hS⟩
  · exact ⟨_, rfl, by rw [f5, hu]; simp, by rw [f5]; exact hnd⟩
  · exact ⟨_, rfl, by rw [f5, hu]; simp, by rw [f5]; exact hnd⟩
  · exact ⟨⟨nx, dx, rx, nx0, px⟩, ny, dy, ry, ny0, py⟩
  · by_cases hmi : u = "micron".toList
    · exact .inl ⟨by rw [hmi], by rw [(hm hmi).1]; rfl⟩
    · exact .inr ⟨fun e => hmi (T.str.inj e), .inl t1⟩
  · by_cases hmi : u = "micron".toList
    · exact .inl ⟨by rw [hmi], by rw [(hm hmi).2]; rfl⟩
    · exact .inr ⟨fun e => hmi (T.str.inj e), .inl t2⟩
  · exact .inl t3
  · exact .inl t4
  · rw [f5]
    exact ds r

theorem list2 {α : Type} {l : List α} {a b : α} (h : l.length = 2) (h0 : l[0]? = some a) (h1 : l[1]? = some b) : l = [a, b] := by
  match l, h with
  | [p, q], _ =>
    cases h0
    cases h1
    rfl

theorem list3 {α : Type} {l : List α} {a b c : α} (h : l.length = 3) (h0 : l[0]? = some a) (h1 : l[1]? = some b) (h2 : l[2]? = some c) : l = [a, b, c] := by
  match l, h with
  | [p, q, r], _ =>
    cases h0
    cases h1
    cases h2
    rfl

/-- What is written of an image. -/
theorem writes_image {show_ : ℚ → Text} {s : WSig} {x y : WAxis} (ha : s.axes = [y, x]) (hn : y.navigate = false ∧ x.navigate = false)
    (ux : ∀ c ∈ x.units.getD [], c.toNat < 256) (uy : ∀ c ∈ y.units.getD [], c.toNat < 256) :
    fileWriter show_ true s = .ok ⟨Rgb.rgbx2regular s.data, Rgb.isRgbx s.data,
      some ((100000000, DateTime.pyInt (x.scale * 100000000)), (100000000, DateTime.pyInt (y.scale * 100000000))),
      some (imagejDescription (x.units.getD []) none), s.quantity,
      [(65003, .str (x.units.getD [])), (65004, .str (y.units.getD [])), (65006, .num x.offset), (65007, .num y.offset),
        (65009, .num x.scale), (65010, .num y.scale)] ++ intensityTags s ++ [], s.datetime⟩ := by
  have e1 : (s.axes.filter (·.navigate)).length = 0 := by rw [ha]; simp [hn.1, hn.2]
  have e2 : (s.axes.map fun a => a.units.getD []).mapM latin1 = .ok [y.units.getD [], x.units.getD []] := by
    rw [ha]
    simp only [List.map_cons, List.map_nil, List.mapM_cons, List.mapM_nil, latin1_ok ux, latin1_ok uy, bind, Except.bind, pure, Except.pure]
  have e3 : dmTagList s [y.units.getD [], x.units.getD []] 0 = .ok ([(65003, .str (x.units.getD [])), (65004, .str (y.units.getD [])),
      (65006, .num x.offset), (65007, .num y.offset), (65009, .num x.scale), (65010, .num y.scale)] ++ intensityTags s ++ []) := by
    unfold dmTagList
    rw [ha]
    rfl
  unfold fileWriter tagsOf
  dsimp only
  rw [e1, e2]
  simp only [bind, Except.bind, pure, Except.pure, e3]
  rw [ha]
  rfl

/-- What is written of a stack. -/
theorem writes_stack {show_ : ℚ → Text} {s : WSig} {x y z : WAxis} (ha : s.axes = [z, y, x])
    (hn : z.navigate = true ∧ y.navigate = false ∧ x.navigate = false)
    (ux : ∀ c ∈ x.units.getD [], c.toNat < 256) (uy : ∀ c ∈ y.units.getD [], c.toNat < 256) (uz : ∀ c ∈ z.units.getD [], c.toNat < 256) :
    fileWriter show_ true s = .ok ⟨Rgb.rgbx2regular s.data, Rgb.isRgbx s.data,
      some ((100000000, DateTime.pyInt (x.scale * 100000000)), (100000000, DateTime.pyInt (y.scale * 100000000))),
      some (imagejDescription (y.units.getD []) (some (show_ z.scale))), s.quantity,
      [(65003, .str (x.units.getD [])), (65004, .str (y.units.getD [])), (65006, .num x.offset), (65007, .num y.offset),
        (65009, .num x.scale), (65010, .num y.scale)] ++ intensityTags s ++
        [(65005, .str (z.units.getD [])), (65008, .num z.offset), (65011, .num z.scale), (65017, .num 1)], s.datetime⟩ := by
  have e1 : (s.axes.filter (·.navigate)).length = 1 := by rw [ha]; simp [hn.1, hn.2]
  have e2 : (s.axes.map fun a => a.units.getD []).mapM latin1 = .ok [z.units.getD [], y.units.getD [], x.units.getD []] := by
    rw [ha]
    simp only [List.map_cons, List.map_nil, List.mapM_cons, List.mapM_nil, latin1_ok ux, latin1_ok uy, latin1_ok uz, bind, Except.bind, pure, Except.pure]
  have e3 : dmTagList s [z.units.getD [], y.units.getD [], x.units.getD []] 1 = .ok ([(65003, .str (x.units.getD [])), (65004, .str (y.units.getD [])),
      (65006, .num x.offset), (65007, .num y.offset), (65009, .num x.scale), (65010, .num y.scale)] ++ intensityTags s ++
      [(65005, .str (z.units.getD [])), (65008, .num z.offset), (65011, .num z.scale), (65017, .num 1)]) := by
    unfold dmTagList
    rw [ha]
    rfl
  unfold fileWriter tagsOf
  dsimp only
  rw [e1, e2]
  simp only [bind, Except.bind, pure, Except.pure, e3]
  rw [ha]
  rfl

/-- **C119, images, partial.** An image that was written is read with the same numbers or colours, the lengths, offsets and units of
both axes, their scales cut after the eighth digit, the quantity, the noise and the date. Missing: scales below 10⁻⁸
(`C119_fails_small`), units that are not in Latin-1 (`C119_fails_latin1`), a width in micrometres with a height in other units
(`C119_fails_mixed`), axes without units, which come back with the empty text (`C119_fails_no_units`), and the names of the axes. -/
theorem C119_image_partial {lib : Lib} {show_ : ℚ → Text} (hf : Faithful lib show_) (env : Env) (name : Text) {ty : StreakType} (hty : ty ≠ .other)
    (pages : List Handle) {s : WSig} {x y : WAxis} {nx ny : Nat} (ha : s.axes = [y, x]) (hn : y.navigate = false ∧ x.navigate = false)
    (hs : Sound s.data) (hsh : shapeOf s.data = [ny, nx]) (hx : 1 / 100000000 ≤ x.scale) (hy : 1 / 100000000 ≤ y.scale)
    (ux : UnitOk lib x) (uy : UnitOk lib y) (du : Described lib (x.units.getD [])) (hm : x.units = some "µm".toList → y.units = some "µm".toList)
    (hq : ∀ q, s.quantity = some q → (∀ c ∈ q, c.toNat < 128) ∧ lib.decode q = .str q) :
    ∃ w f sig ax ay, fileWriter show_ true s = .ok w ∧ stored lib "YX".toList w = .ok f ∧ fileReader env name false false ty pages f = .ok [sig] ∧
      sig.data = s.data ∧ sig.axes = [ay, ax] ∧ Back (1 / 100000000) ny "height" false y ay ∧ Back (1 / 100000000) nx "width" false x ax ∧
      sig.meta'.quantity = s.quantity.map T.str ∧
      (∀ n, s.noise = some n → (∀ o f, n = (some o, some f) → sig.meta'.gain = some (.num f, .num o)) ∧
        (n.1 = none ∨ n.2 = none → sig.meta'.gain = some (.num 1, .num 0))) ∧ (s.noise = none → sig.meta'.gain = none) ∧
      (s.datetime = none → sig.meta'.date = none) ∧
      ∀ t dd hh, s.datetime = some t → env.strptime t = some (dd, hh) → sig.meta'.date = some dd ∧ sig.meta'.time = some hh := by
  obtain ⟨l1, l2, l3⟩ := described hf du
  generalize hd : joinWith ['\n'] ["ImageJ=1.11a".toList, "unit=".toList ++ imagejUnit (x.units.getD []), []] = d
  obtain ⟨d1, d2⟩ := description_image (lib := lib) l1 l2 hd.symm
  generalize hb : ([(65003, .str (x.units.getD [])), (65004, .str (y.units.getD [])), (65006, .num x.offset), (65007, .num y.offset),
    (65009, .num x.scale), (65010, .num y.scale)] : List (Nat × T)) = b
  have hw : fileWriter show_ true s = .ok ⟨Rgb.rgbx2regular s.data, Rgb.isRgbx s.data,
      some ((100000000, DateTime.pyInt (x.scale * 100000000)), (100000000, DateTime.pyInt (y.scale * 100000000))), some d, s.quantity,
      b ++ intensityTags s ++ [], s.datetime⟩ := by
    rw [writes_image ha hn ux.1 uy.1]
    simp only [imagejDescription, List.append_nil, List.cons_append, List.nil_append, hd, hb]
  have hp : ∃ u, lib.literal (imagejUnit (x.units.getD [])) = .str u ∧ (u = "micron".toList → x.units = some "µm".toList ∧ y.units = some "µm".toList) := by
    rcases l3 with ⟨hu, e⟩ | ⟨hu, t, e, ht⟩
    · refine ⟨_, e, fun _ => ?_⟩
      have : x.units = some "µm".toList := by
        cases hxu : x.units with
        | none => rw [hxu] at hu; exact absurd hu (by decide)
        | some t => rw [hxu] at hu; exact congrArg some hu
      exact ⟨this, hm this⟩
    · exact ⟨t, e, fun h => absurd h ht⟩
  obtain ⟨u, hu1, hu2⟩ := hp
  rw [hu1] at d2
  generalize hwe : (⟨Rgb.rgbx2regular s.data, Rgb.isRgbx s.data,
      some ((100000000, DateTime.pyInt (x.scale * 100000000)), (100000000, DateTime.pyInt (y.scale * 100000000))), some d, s.quantity,
      b ++ intensityTags s ++ [], s.datetime⟩ : Written) = w at hw
  have w3 : w.resolution = some ((100000000, DateTime.pyInt (x.scale * 100000000)), (100000000, DateTime.pyInt (y.scale * 100000000))) := by rw [← hwe]
  have w4 : w.description = some d := by rw [← hwe]
  have w7 : w.tags = b ++ intensityTags s ++ [] := by rw [← hwe]
  have hnm := stored_names (lib := lib) (e := false) w3 w4 w7 (by rw [← hb]; rfl) rfl
  have hno : ∀ r, ∀ k ∈ ["65005", "65008", "65011"], NoTag (pageOf lib w r).tags k := fun r k hk =>
    noTag_of (by rw [show (pageOf lib w r).tags = storedTags lib w from rfl, hnm]; exact names_depth k hk _ _ _)
  obtain ⟨qx, qy, a1, a2, a3, a4, g⟩ := gives_back hf (env := env) (e := false) (depth := plain) w3 w4 w7 hb.symm rfl hx hy ux uy d2
    (by rw [d2]; exact (by decide : ["ImageJ".toList, "unit".toList].Nodup)) hu2 (fun r => .inr ⟨hno r _ (by decide), rfl⟩) (fun r => .inr ⟨hno r _ (by decide), rfl⟩)
    (fun r => .inr ⟨⟨_, rfl, by
      rw [d2]
      intro q hq
      simp only [List.mem_cons, List.not_mem_nil, or_false] at hq
      rcases hq with rfl | rfl <;> (dsimp only; decide)⟩, .inr ⟨hno r _ (by decide), rfl⟩⟩)
  obtain ⟨f, sig, f1, f2, f3, f4, f5, f6, f7, f8, f9⟩ := written_read (name := name) (pages := pages) (letters := "YX".toList) (e := false) hty hs
    (by rw [← hwe]) (by rw [← hwe]) w3 w4 (by rw [← hwe]) (by rw [← hwe]) w7 (by rw [← hb]; rfl) rfl d1
    (by cases hqq : s.quantity with
        | none => rfl
        | some q => simpa [ascii] using (hq q hqq).1)
    (fun q hq => by
      rcases List.mem_cons.1 hq with rfl | hq
      · exact .inl rfl
      · exact .inl (by rw [List.mem_singleton.1 hq]; rfl)) (by rw [hsh]; rfl) (fun q e => (hq q e).2) g
  rw [hsh] at f4
  obtain ⟨s1, s2⟩ := f4
  obtain ⟨n0, m0, e0⟩ := s2 0 'Y' ny rfl rfl
  obtain ⟨n1, m1, e1⟩ := s2 1 'X' nx rfl rfl
  have r0 := m0 _ rfl
  have r1 := m1 _ rfl
  subst r0 r1
  exact ⟨w, f, sig, _, _, hw, f1, f2, f3, list2 s1 e0 e1, ⟨qy, rfl, a3, le_of_lt a4⟩, ⟨qx, rfl, a1, le_of_lt a2⟩, f5, f6, f7, f8, f9⟩

/-- **C119, stacks, partial.** A stack of images is read with everything that an image has, and the first axis with its length,
offset, units and its exact scale, whatever letter `tifffile` gives it of I, Z and T. -/
theorem C119_stack_partial {lib : Lib} {show_ : ℚ → Text} (hf : Faithful lib show_) (env : Env) (name : Text) {ty : StreakType} (hty : ty ≠ .other)
    (pages : List Handle) {s : WSig} {x y z : WAxis} {nx ny nz : Nat} (ha : s.axes = [z, y, x])
    (hn : z.navigate = true ∧ y.navigate = false ∧ x.navigate = false)
    (hs : Sound s.data) (hsh : shapeOf s.data = [nz, ny, nx]) (hx : 1 / 100000000 ≤ x.scale) (hy : 1 / 100000000 ≤ y.scale)
    (ux : UnitOk lib x) (uy : UnitOk lib y) (uz : UnitOk lib z) (du : Described lib (y.units.getD []))
    (hm : y.units = some "µm".toList → x.units = some "µm".toList)
    (hq : ∀ q, s.quantity = some q → (∀ c ∈ q, c.toNat < 128) ∧ lib.decode q = .str q)
    {c : Char} {first : String} (hc : (c, first) ∈ [('I', "image series"), ('Z', "depth"), ('T', "time")]) :
    ∃ w f sig ax ay az, fileWriter show_ true s = .ok w ∧ stored lib [c, 'Y', 'X'] w = .ok f ∧ fileReader env name false false ty pages f = .ok [sig] ∧
      sig.data = s.data ∧ sig.axes = [az, ay, ax] ∧ Back 0 nz first true z az ∧ Back (1 / 100000000) ny "height" false y ay ∧
      Back (1 / 100000000) nx "width" false x ax ∧ sig.meta'.quantity = s.quantity.map T.str ∧
      (∀ n, s.noise = some n → (∀ o f, n = (some o, some f) → sig.meta'.gain = some (.num f, .num o)) ∧
        (n.1 = none ∨ n.2 = none → sig.meta'.gain = some (.num 1, .num 0))) ∧ (s.noise = none → sig.meta'.gain = none) ∧
      (s.datetime = none → sig.meta'.date = none) ∧
      ∀ t dd hh, s.datetime = some t → env.strptime t = some (dd, hh) → sig.meta'.date = some dd ∧ sig.meta'.time = some hh := by
  obtain ⟨l1, l2, l3⟩ := described hf du
  obtain ⟨z1, z2, z3⟩ := hf.number z.scale
  generalize hd : joinWith ['\n'] ["ImageJ=1.11a".toList, "unit=".toList ++ imagejUnit (y.units.getD []), "spacing=".toList ++ show_ z.scale, []] = d
  obtain ⟨d1, d2⟩ := description_stack (lib := lib) l1 l2 z1 (by simpa [ascii] using z2) hd.symm
  generalize hb : ([(65003, .str (x.units.getD [])), (65004, .str (y.units.getD [])), (65006, .num x.offset), (65007, .num y.offset),
    (65009, .num x.scale), (65010, .num y.scale)] : List (Nat × T)) = b
  generalize hzt : ([(65005, .str (z.units.getD [])), (65008, .num z.offset), (65011, .num z.scale), (65017, .num 1)] : List (Nat × T)) = zt
  have hw : fileWriter show_ true s = .ok ⟨Rgb.rgbx2regular s.data, Rgb.isRgbx s.data,
      some ((100000000, DateTime.pyInt (x.scale * 100000000)), (100000000, DateTime.pyInt (y.scale * 100000000))), some d, s.quantity,
      b ++ intensityTags s ++ zt, s.datetime⟩ := by
    rw [writes_stack ha hn ux.1 uy.1 uz.1]
    simp only [imagejDescription, List.cons_append, List.nil_append, shown hf, hd, hb, hzt]
  have hp : ∃ u, lib.literal (imagejUnit (y.units.getD [])) = .str u ∧ (u = "micron".toList → x.units = some "µm".toList ∧ y.units = some "µm".toList) := by
    rcases l3 with ⟨hu, e⟩ | ⟨hu, t, e, ht⟩
    · refine ⟨_, e, fun _ => ?_⟩
      have : y.units = some "µm".toList := by
        cases hxu : y.units with
        | none => rw [hxu] at hu; exact absurd hu (by decide)
        | some t => rw [hxu] at hu; exact congrArg some hu
      exact ⟨hm this, this⟩
    · exact ⟨t, e, fun h => absurd h ht⟩
  obtain ⟨u, hu1, hu2⟩ := hp
  rw [hu1, z3] at d2
  generalize hwe : (⟨Rgb.rgbx2regular s.data, Rgb.isRgbx s.data,
      some ((100000000, DateTime.pyInt (x.scale * 100000000)), (100000000, DateTime.pyInt (y.scale * 100000000))), some d, s.quantity,
      b ++ intensityTags s ++ zt, s.datetime⟩ : Written) = w at hw
  have w3 : w.resolution = some ((100000000, DateTime.pyInt (x.scale * 100000000)), (100000000, DateTime.pyInt (y.scale * 100000000))) := by rw [← hwe]
  have w4 : w.description = some d := by rw [← hwe]
  have w7 : w.tags = b ++ intensityTags s ++ zt := by rw [← hwe]
  have hz : zt.map Prod.fst = if true then [65005, 65008, 65011, 65017] else [] := by rw [← hzt]; rfl
  have hnm := stored_names (lib := lib) (e := true) w3 w4 w7 (by rw [← hb]; rfl) hz
  have hnd : ((storedTags lib w).map Prod.fst).Nodup := by
    rw [hnm]
    exact names_nodup ..
  have hmem : ∀ q ∈ zt, q ∈ w.tags := fun q hq => by
    rw [w7]
    exact List.mem_append_right _ hq
  have t1 := stored_number (lib := lib) (k := "65005") (by decide +kernel) (hmem (65005, .str (z.units.getD [])) (by rw [← hzt]; simp)) hnd
  have t2 := stored_number (lib := lib) (k := "65008") (by decide +kernel) (hmem (65008, .num z.offset) (by rw [← hzt]; simp)) hnd
  rw [show storedValue lib (.str (z.units.getD [])) = lib.decode (z.units.getD []) from rfl, uz.2] at t1
  obtain ⟨qx, qy, a1, a2, a3, a4, g⟩ := gives_back hf (env := env) (e := true) (depth := ⟨.num z.scale, .num z.offset, .str (z.units.getD [])⟩)
    w3 w4 w7 hb.symm hz hx hy ux uy d2 (by rw [d2]; exact (by decide : ["ImageJ".toList, "unit".toList, "spacing".toList].Nodup)) hu2 (fun r => .inl t1) (fun r => .inl t2)
    (fun r => .inl ⟨_, rfl, by rw [d2]; simp, by rw [d2]; exact (by decide : ["ImageJ".toList, "unit".toList, "spacing".toList].Nodup)⟩)
  have hkn : ∀ q ∈ [c, 'Y', 'X'], Known q := by
    simp only [List.mem_cons, List.not_mem_nil, or_false, Prod.mk.injEq] at hc
    intro q hq
    simp only [List.mem_cons, List.not_mem_nil, or_false] at hq
    rcases hq with rfl | rfl | rfl
    · rcases hc with ⟨rfl, _⟩ | ⟨rfl, _⟩ | ⟨rfl, _⟩ <;> exact .inl rfl
    · exact .inl rfl
    · exact .inl rfl
  obtain ⟨f, sig, f1, f2, f3, f4, f5, f6, f7, f8, f9⟩ := written_read (name := name) (pages := pages) (letters := [c, 'Y', 'X']) (e := true) hty hs
    (by rw [← hwe]) (by rw [← hwe]) w3 w4 (by rw [← hwe]) (by rw [← hwe]) w7 (by rw [← hb]; rfl) hz d1
    (by cases hqq : s.quantity with
        | none => rfl
        | some q => simpa [ascii] using (hq q hqq).1)
    hkn (by rw [hsh]; rfl) (fun q e => (hq q e).2) g
  rw [hsh] at f4
  obtain ⟨s1, s2⟩ := f4
  obtain ⟨nz', mz, ez⟩ := s2 0 c nz rfl rfl
  obtain ⟨n0, m0, e0⟩ := s2 1 'Y' ny rfl rfl
  obtain ⟨n1, m1, e1⟩ := s2 2 'X' nx rfl rfl
  have r0 := m0 _ rfl
  have r1 := m1 _ rfl
  subst r0 r1
  have hzz : nz' = first.toList ∧ calOf c ⟨⟨.num qx, .num x.offset, .str (x.units.getD [])⟩, ⟨.num qy, .num y.offset, .str (y.units.getD [])⟩,
      ⟨.num z.scale, .num z.offset, .str (z.units.getD [])⟩⟩ = ⟨.num z.scale, .num z.offset, .str (z.units.getD [])⟩ := by
    simp only [List.mem_cons, List.not_mem_nil, or_false, Prod.mk.injEq] at hc
    rcases hc with ⟨rfl, rfl⟩ | ⟨rfl, rfl⟩ | ⟨rfl, rfl⟩ <;> exact ⟨mz _ rfl, rfl⟩
  rw [hzz.1, hzz.2] at ez
  exact ⟨w, f, sig, _, _, _, hw, f1, f2, f3, list3 s1 ez e0 e1, ⟨z.scale, rfl, le_refl _, by simp⟩, ⟨qy, rfl, a3, le_of_lt a4⟩,
    ⟨qx, rfl, a1, le_of_lt a2⟩, f5, f6, f7, f8, f9⟩

end Verif.Props.Tiff
