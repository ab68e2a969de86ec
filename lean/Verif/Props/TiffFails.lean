import Verif.Props.TiffWrite
import Verif.Props.TiffStreak
import Mathlib.Data.Rat.Encodable
import Mathlib.Tactic.NormNum
/-!
C118 to C121: what TIFF files do not keep, and concrete files.
-/
namespace Verif.Props.Tiff
open Verif Verif.Tiff Verif.Spec.Tiff

section
variable {env : Env} {f : Tiff} {name : Text} {force : Bool} {ty : StreakType} {h : Handle} {s : Sig}

theorem shows_of_parse (hr : readTiff env f name force ty h = .ok s) (hl : h.axes.length = h.shape.length) {l : Cals}
    (g : ∀ names, ∃ op c, parseScale env f h.page (opOf h.page.tags) (frame h).2 force names ty = (op, .ok (axesOf c (frame h).2 names)) ∧ Matches c l) :
    Shows (frame h).1 (frame h).2 l s.axes := by
  obtain ⟨names, op, r, m, m', op', _, h2, h3, _, _, _, _, h8, _⟩ := read_parts hr
  obtain ⟨op'', c, e, hm⟩ := g names
  rw [h3] at e
  have er : r = .ok (axesOf c (frame h).2 names) := (Prod.mk.inj e).2
  rw [h8, er]
  refine axesOf_shows h2 ?_ hm
  unfold frame
  split
  · simp [hl]
  · exact hl

/-- **C118 fails for pixels that are not square** in files of FEI, TVIPS and Olympus: the height of the pixels is the scale of the width,
and their width that of the height. -/
theorem C118_fails_exchanged (hr : readTiff env f name force ty h = .ok s) (hl : h.axes.length = h.shape.length) :
    (∀ x y : ℚ, IsKind f h.page force .fei → FeiTag h.page → Deep env.float f.feiMetadata "Scan" "PixelWidth" x →
      Deep env.float f.feiMetadata "Scan" "PixelHeight" y → Shows (frame h).1 (frame h).2 ⟨at0 y "m", at0 x "m", plain⟩ s.axes) ∧
    (∀ (x y : ℚ) (t : T), IsKind f h.page force .tvips → Tag h.page.tags "TVIPS" t → Entry t "PixelSizeX" (.num x) → Entry t "PixelSizeY" (.num y) →
      Shows (frame h).1 (frame h).2 ⟨at0 y "nm", at0 x "nm", plain⟩ s.axes) ∧
    (∀ (x y : ℚ) (t : T), IsKind f h.page force .sis → h.page.sis = [(33560, t)] → Entry t "pixelsizex" (.num x) → Entry t "pixelsizey" (.num y) →
      Shows (frame h).1 (frame h).2 ⟨at0 (env.round15 y) "m", at0 (env.round15 x) "m", plain⟩ s.axes) := by
  refine ⟨fun x y k t hx hy => shows_of_parse hr hl fun names => ?_, fun x y t k ht hx hy => shows_of_parse hr hl fun names => ?_,
    fun x y t k ht hx hy => shows_of_parse hr hl fun names => ?_⟩
  · have : feiPixels env f.feiMetadata = .ok { defaults with sx := .num x, sy := .num y, ux := .str ['m'], uy := .str ['m'] } := by
      simp only [feiPixels, deep_ok hx, deep_ok hy]
    obtain ⟨op, e⟩ := fei_ok t this
    exact ⟨op, _, parse_fei k e, rfl, rfl, rfl⟩
  · have : tvips (opOf h.page.tags) = .ok { defaults with sx := .num x, sy := .num y, ux := .str "nm".toList, uy := .str "nm".toList } := by
      simp only [tvips, tag_sub ht, bind, Except.bind, entry_has hx, entry_has hy, Bool.and_self, if_true, entry_get hx, entry_get hy, pure, Except.pure]
    exact ⟨_, _, parse_tvips k this, rfl, rfl, rfl⟩
  · have hs : sisMetadata h.page = t := by simp [sisMetadata, ht]
    have : sis env h.page (opOf h.page.tags) = (setKw "Olympus_SIS_metadata".toList t (opOf h.page.tags),
        .ok { defaults with sx := .num (env.round15 x), sy := .num (env.round15 y), ux := .str ['m'], uy := .str ['m'] }) := by
      simp only [sis, hs, entry_get hx, entry_get hy, bind, Except.bind, number_ok (.num x), number_ok (.num y), pure, Except.pure]
    exact ⟨_, _, parse_sis k this, rfl, rfl, rfl⟩

/-- **C118 fails for axes without a name**: their name is the text "None". -/
theorem C118_fails_unnamed {l : Cals} (hr : readTiff env f name force ty h = .ok s) (hl : h.axes.length = h.shape.length) (g : Gives env f h.page force l)
    {i n : Nat} {c : Char} (hc : c = 'Q' ∨ c = '_') (hi : (frame h).1[i]? = some c) (hn : (frame h).2[i]? = some n) :
    ∃ sc o u nav, s.axes[i]? = some (.lin n "None".toList sc o u nav) := by
  obtain ⟨names, op, r, m, m', op', _, h2, h3, _, _, _, _, h8, _⟩ := read_parts hr
  obtain ⟨op'', k, e, hm⟩ := gives_parse (shape := (frame h).2) (names := names) (ty := ty) g
  rw [h3] at e
  have er : r = .ok (axesOf k (frame h).2 names) := (Prod.mk.inj e).2
  obtain ⟨nm, h1, h4⟩ := forall₂_get (mapM_forall₂ h2) hi
  have hnm : nm = none := by
    rcases hc with rfl | rfl <;> exact (Except.ok.inj h4).symm
  subst hnm
  have h5 : (names.map (byName k))[i]? = some (byName k none) := by rw [List.getElem?_map, h1]; rfl
  rw [h8, er]
  exact ⟨_, _, _, _, build_get hn h1 h5⟩

/-- **C118 fails for the units of ImageJ**: only micrometres are read. With other units, e.g. nanometres, the scales are read and the axes
have no units. -/
theorem C118_fails_imagej_units (hr : readTiff env f name force ty h = .ok s) (hl : h.axes.length = h.shape.length) (k : IsKind f h.page force .usual)
    (i : f.imagej = true) {version : T} {x y : ℚ} (vers : Entry (.dict f.imagejMetadata) "ImageJ" version)
    (hu : Entry (.dict f.imagejMetadata) "unit" (.str "nm".toList)) (px : Pixels h.page.tags x y) (hs : NoEntry (.dict f.imagejMetadata) "spacing")
    (hn : ∀ t ∈ ["65003", "65004", "65005", "65006", "65007", "65008", "65011"], NoTag h.page.tags t) :
    Shows (frame h).1 (frame h).2 ⟨⟨.num x, .num 0, .null⟩, ⟨.num y, .num 0, .null⟩, plain⟩ s.axes := by
  have no : ∀ t ∈ ["65003", "65004", "65005", "65006", "65007", "65008", "65011"], ∀ d, TagOr h.page.tags t d d := fun t ht d => .inr ⟨hn t ht, rfl⟩
  have hne : T.str "nm".toList ≠ .str "micron".toList := fun e => absurd (T.str.inj e) (by decide)
  exact read_axes hr (.imagej k i vers hu px (.inr ⟨hne, no _ (by decide) _⟩) (.inr ⟨hne, no _ (by decide) _⟩) (no _ (by decide) _)
    (no _ (by decide) _) (no _ (by decide) _) (no _ (by decide) _) rfl rfl (.inr ⟨hs, no _ (by decide) _⟩)) hl

/-- **C118 fails for files of JEOL with a forced resolution**: they cannot be read, because the description is not parsed then and the mapping needs it. -/
theorem C118_fails_jeol_forced (k : Forced h.page true) (hj : Jeol h.page) {t : Text} (ht : Tag h.page.tags "ImageDescription" (.str t))
    (n1 : h.page.isFei = false) (n2 : h.page.isSem = false) (n3 : h.page.isTvips = false) (n4 : h.page.isSis = false) :
    ∃ e, readTiff env f name true ty h = .error e := by
  cases hr : readTiff env f name true ty h with
  | error e => exact ⟨e, rfl⟩
  | ok s =>
    obtain ⟨names, op, m, h3, _, h1, h2, _, _, _, _, _, _, g7⟩ := meta_parts hr
    have ho : op = opOf h.page.tags := by
      have : (parseScale env f h.page (opOf h.page.tags) (frame h).2 true names ty).1 = opOf h.page.tags := by
        unfold parseScale
        rw [if_pos (forced_iff.2 k)]
      rw [h3] at this
      exact this
    have hm : (tagOr "Make" s.original .null).isText "JEOL Ltd." = true := by
      unfold tagOr
      rw [h2 _ (by decide), ho]
      exact jeol_iff.2 hj
    have hd : getKw "ImageDescription".toList s.original = some (.str t) := by rw [h2 _ (by decide), ho, tag_get ht]
    unfold mappingOf at g7
    simp only [n1, n2, n3, n4, hm, Bool.false_eq_true, if_false, if_true, sub, hd, bind, Except.bind, T.get] at g7
    cases g7

/-- **C118 fails for colours in planes**: a file whose colours come first, e.g. of 3 × 5 × 7, cannot be read; the last axis is taken for the colours. -/
theorem C118_fails_planar (hc : h.page.rgb = true) (hs : h.data.shape = h.shape) {n : Nat} (hn : h.shape.getLast? = some n) (h3 : n ≠ 3) (h4 : n ≠ 4) :
    ∃ e, readTiff env f name force ty h = .error e := by
  cases hr : readTiff env f name force ty h with
  | error e => exact ⟨e, rfl⟩
  | ok s =>
    obtain ⟨names, op, r, m, m', op', _, _, _, _, h5, _⟩ := read_parts hr
    rw [hc] at h5
    simp only [loadData, if_true, Rgb.regular2rgbx, Bool.false_eq_true, if_false, hs, hn, bind, Except.bind] at h5
    rw [if_pos ⟨h3, h4⟩] at h5
    cases h5

/-- **C120 fails for dates in the second format with a description**: there is no date then. -/
theorem C120_fails_date (hr : readTiff env f name force ty h = .ok s) {t u d c : Text} (ht : Tag h.page.tags "DateTime" (.str t))
    (hd : env.strptime t = none) (_hd' : env.strptime' t = some (d, c)) (hu : Tag h.page.tags "ImageDescription" (.str u)) (hj : ¬ Jeol h.page) :
    s.meta'.date = none := by
  obtain ⟨names, op, m, h3, h4, h1, _, g1, _⟩ := meta_parts hr
  have e1 : getKw "DateTime".toList op = some (.str t) := by rw [h1 _ (by decide), tag_get ht]
  have e2 : getKw "ImageDescription".toList op = some (.str u) := by
    have := parse_description (env := env) (f := f) (force := force) (ty := ty) hj (shape := (frame h).2) (names := names)
    rw [h3, tag_get hu] at this
    exact this
  simp only [dateOf, e1, hd, otherDate, has, e2, Option.isSome_some, if_true, jeolDate, sub, bind, Except.bind, T.get, orKeep] at h4
  cases h4
  exact g1

/-- **C120 fails for scanned images of JEOL**, whose mode is `eosASID`, as in the table of the mapping: the title says TEM. -/
theorem C120_fails_scanned (hr : readTiff env f name force ty h = .ok s) (k : IsKind f h.page force .jeol) (r : Report env h.page)
    (_hm : r.mode = "eosASID".toList) : ∃ t, s.meta'.title = some (.str ("TEM, ".toList ++ t)) :=
  ⟨r.field.drop 4 ++ (", ".toList ++ (r.forming.drop 4 ++ (", ".toList ++ r.selector))), by
    rw [C120_title_partial hr k r]; simp only [List.append_assoc]⟩

end

/-! ### Writing -/

/-- **C119 fails for scales below 10⁻⁸**: the denominator of the resolution is zero. -/
theorem C119_fails_small {show_ : ℚ → Text} {s : WSig} {x y : WAxis} (ha : s.axes = [y, x]) (hn : y.navigate = false ∧ x.navigate = false)
    (ux : ∀ c ∈ x.units.getD [], c.toNat < 256) (uy : ∀ c ∈ y.units.getD [], c.toNat < 256) (h0 : 0 < x.scale) (h1 : x.scale < 1 / 100000000) :
    ∃ w r, fileWriter show_ true s = .ok w ∧ w.resolution = some ((100000000, 0), r) := by
  refine ⟨_, (100000000, DateTime.pyInt (y.scale * 100000000)), writes_image ha hn ux uy, ?_⟩
  have : DateTime.pyInt (x.scale * 100000000) = 0 := by
    have a1 : (0 : ℚ) ≤ x.scale * 100000000 := by positivity
    have a2 : x.scale * 100000000 < 1 := by
      rw [lt_div_iff₀ (by norm_num)] at h1
      exact h1
    unfold DateTime.pyInt
    rw [if_pos a1, Int.floor_eq_zero_iff]
    exact ⟨a1, a2⟩
  rw [this]

/-- **C119 fails for units outside Latin-1**, e.g. ohms. -/
theorem C119_fails_latin1 (show_ : ℚ → Text) (d : Rgb.Array') :
    fileWriter show_ true ⟨d, [⟨1, 0, some "m".toList, false⟩, ⟨1, 0, some "Ω".toList, false⟩], none, none, none⟩ = .error .unicodeError := rfl

/-- **C119 fails for a width in micrometres and a height in other units**: the height is written with its units in its own tag, but the
description has micrometres, and both axes are read with these. -/
theorem C119_fails_mixed (show_ : ℚ → Text) (d : Rgb.Array') :
    (∃ w, fileWriter show_ true ⟨d, [⟨2, 0, some "nm".toList, false⟩, ⟨1, 0, some "µm".toList, false⟩], none, none, none⟩ = .ok w ∧
      (65004, .str "nm".toList) ∈ w.tags ∧ w.description = some "ImageJ=1.11a\nunit=micron\n".toList) ∧
    ∀ {env : Env} {f : Tiff} {name : Text} {ty : StreakType} {h : Handle} {s : Sig}, readTiff env f name false ty h = .ok s →
      h.axes.length = h.shape.length → IsKind f h.page false .usual → f.imagej = true →
      ∀ {version : T} {x y : ℚ} {w ht dp : Cal}, Entry (.dict f.imagejMetadata) "ImageJ" version →
      Entry (.dict f.imagejMetadata) "unit" (.str "micron".toList) → Pixels h.page.tags x y → Tag h.page.tags "65004" (.str "nm".toList) →
      Gives env f h.page false ⟨w, ht, dp⟩ → ht.units = .str "µm".toList := by
  refine ⟨⟨_, writes_image (x := ⟨1, 0, some "µm".toList, false⟩) (y := ⟨2, 0, some "nm".toList, false⟩) rfl ⟨rfl, rfl⟩ (by decide) (by decide), ?_, ?_⟩, ?_⟩
  · exact List.mem_cons_of_mem _ (List.mem_cons_self ..)
  · exact congrArg some (by decide +kernel)
  · intro env f name ty h s _ _ k i version x y w ht dp _ hu _ _ g
    cases g with
    | feiScan k' => exact absurd k'.2 (by rw [k.2.1]; simp)
    | feiBeam k' => exact absurd k'.2 (by rw [k.2.1]; simp)
    | zeiss k' => exact absurd k'.2.2 (by rw [k.2.2.1]; simp)
    | tvipsSize k' => exact absurd k'.2.2.2 (by rw [k.2.2.2.1]; simp)
    | tvipsResolution k' => exact absurd k'.2.2.2 (by rw [k.2.2.2.1]; simp)
    | sis k' => exact absurd k'.2.2.2.2 (by rw [k.2.2.2.2.1]; simp)
    | jeolImage k' => exact absurd k'.2.2.2.2.2 k.2.2.2.2.2.1
    | jeolDiffraction k' => exact absurd k'.2.2.2.2.2 k.2.2.2.2.2.1
    | jeolScanning k' => exact absurd k'.2.2.2.2.2 k.2.2.2.2.2.1
    | micrograph _ n => exact absurd i (by rw [n]; simp)
    | imagej _ _ _ hu' _ _ uh =>
      have e : T.str "micron".toList = _ := Option.some.inj ((entry_kw hu).symm.trans (entry_kw hu'))
      rcases uh with ⟨_, h⟩ | ⟨hn, _⟩
      · exact h
      · exact absurd e.symm hn
    | imagejNoUnit _ _ _ hu' =>
      have := (entry_kw hu).symm.trans (noEntry_kw hu')
      cases this

/-- **C119 fails for axes without units**: they come back with the empty text. -/
theorem C119_fails_no_units {tol : ℚ} {n : Nat} {name : String} {nav : Bool} {a : WAxis} {r : Ax} (h : Back tol n name nav a r) (hu : a.units = none) :
    ∃ sc o, r = .lin n name.toList sc o (.str []) (some nav) := by
  obtain ⟨q, rfl, _⟩ := h
  rw [hu]
  exact ⟨_, _, rfl⟩

/-- **C119 fails for units of the description that are not in seven bits**, e.g. 1/Å: `tifffile` rejects the description. -/
theorem C119_fails_ascii (show_ : ℚ → Text) (lib : Lib) (a : Rgb.Reg) (letters : Text) :
    ∃ w, fileWriter show_ true ⟨.reg a, [⟨1, 0, some "1/Å".toList, false⟩, ⟨1, 0, some "1/Å".toList, false⟩], none, none, none⟩ = .ok w ∧
      stored lib letters w = .error .valueError := by
  refine ⟨_, writes_image (x := ⟨1, 0, some "1/Å".toList, false⟩) (y := ⟨1, 0, some "1/Å".toList, false⟩) rfl ⟨rfl, rfl⟩ (by decide) (by decide), ?_⟩
  have : ascii (imagejDescription "1/Å".toList none) = false := by decide +kernel
  simp only [stored, Rgb.rgbx2regular, Option.getD_some, this, Bool.not_false, Bool.true_or, if_true]

/-- **C119 fails for signals of one dimension**: they cannot be written with the scale. -/
theorem C119_fails_spectrum (show_ : ℚ → Text) (d : Rgb.Array') (a : WAxis) (q : Option Text) (n : Option (Option ℚ × Option ℚ)) (t : Option Text) :
    fileWriter show_ true ⟨d, [a], q, n, t⟩ = .error .indexError := rfl

/-! ### Hamamatsu -/

section
variable {env : Env} {f : Tiff} {name : Text} {force : Bool} {ty : StreakType} {h : Handle} {s : Sig}

/-- **C121 fails for values with commas**: a value in quotes ends at its first comma, because the quotes do not begin the field. -/
theorem C121_fails_comma : describe (lines "[Comment],UserComment=\"one, two\"".toList) [] =
    .ok [("Comment".toList, .dict [("UserComment".toList, .str "one".toList)])] := rfl

/-- **C121 fails for series of streak images**: the first axis is an empty dictionary. -/
theorem C121_fails_series {rows : List Row} {t : Text} {nx ny nz : Nat} {x y : List ℚ} {xu yu : Text} (hr : readTiff env f name force ty h = .ok s)
    (k : IsKind f h.page force .streak) (ha : (frame h).1 = "IYX".toList) (hs : (frame h).2 = [nz, ny, nx])
    (ht : Tag h.page.tags "ImageDescription" (.str t)) (hd : Rows rows t) (hsc : Scaling f h.page rows nx ny x y xu yu) :
    s.axes[0]? = some .empty := by
  obtain ⟨names, op, r, m, m', op', _, h2, h3, _, _, _, _, h8, _⟩ := read_parts hr
  have hl : "IYX".toList.mapM labelOf = .ok [some "image series".toList, some "height".toList, some "width".toList] := by
    have h0 : labelOf 'I' = .ok (some "image series".toList) := rfl
    have h1 : labelOf 'Y' = .ok (some "height".toList) := rfl
    have h2 : labelOf 'X' = .ok (some "width".toList) := rfl
    have : "IYX".toList = ['I', 'Y', 'X'] := rfl
    rw [this]
    simp only [List.mapM_cons, List.mapM_nil, h0, h1, h2, bind, Except.bind, pure, Except.pure]
  rw [ha, hl] at h2
  have hn := Except.ok.inj h2
  subst hn
  rw [parse_streak k] at h3
  obtain ⟨row, _, hrow, d1, d2, d3⟩ := scaling_ok hd ht hsc
  have gr := rows_get (d := []) hd.names ‹row ∈ rows›
  rw [hrow] at gr
  have : ∃ a b, streak env f (opOf h.page.tags) (frame h).2 [some "image series".toList, some "height".toList, some "width".toList] ty =
      .ok [.empty, a, b] := by
    have i1 : indexOf "width" [some "image series".toList, some "height".toList, some "width".toList] = .ok 2 := by decide
    have i2 : indexOf "height" [some "image series".toList, some "height".toList, some "width".toList] = .ok 1 := by decide
    unfold streak
    simp only [d1, bind, Except.bind, sub, gr, i1, i2, hs, T.get, d2, d3, List.getElem?_cons_succ, List.getElem?_cons_zero, pure, Except.pure]
    exact ⟨_, _, rfl⟩
  obtain ⟨a, b, this⟩ := this
  rw [this] at h3
  rw [h8, ← (Prod.mk.inj h3).2]
  rfl

end

/-! ### Concrete files -/

/-- External functions: lines through the first two values. -/
def env0 : Env where
  float := fun _ => .ok 2
  polyfit := fun k l => if k = 1 then [l.getD 1 0 - l.getD 0 0, l.getD 0 0] else [0, 0, 1, 0]
  round15 := id
  strptime := fun t => if t = "2024:01:02 03:04:05".toList then some ("2024-01-02".toList, "03:04:05".toList) else none
  strptime' := fun t => if t = "2024/01/02".toList then some ("2024-01-02".toList, "00:00:00".toList) else none
  jeolXml := fun t => .ok t
  wave := fun _ => 1
  lumispy := true

theorem fits0 : Fits env0.polyfit := by
  intro n a b hn
  obtain ⟨m, rfl⟩ : ∃ m, n = m + 2 := ⟨n - 2, by omega⟩
  have h0 : ((List.range (m + 2)).map fun i : Nat => b + i * a).getD 0 0 = b := by simp [List.getD_eq_getElem?_getD]
  have h1 : ((List.range (m + 2)).map fun i : Nat => b + i * a).getD 1 0 = b + a := by simp [List.getD_eq_getElem?_getD]
  simp only [env0, if_true, h0, h1, add_sub_cancel_left]

def data0 : Rgb.Reg := ⟨.u1, [2, 3], [1, 2, 3, 4, 5, 6]⟩

/-- A page with some tags. -/
def page0 (tags : List (Text × T)) : Page := ⟨tags, [], false, false, false, false, false, [2, 3]⟩

def handle0 (tags : List (Text × T)) : Handle := ⟨"YX".toList, [2, 3], page0 tags, data0⟩

def file0 (tags : List (Text × T)) (ij : Op) : Tiff := ⟨false, false, false, !ij.isEmpty, .null, ij, [page0 tags], [handle0 tags], fun _ n => (List.range n).map fun i : Nat => 5 + i * 2⟩

/-- A file of Digital Micrograph. -/
def tags0 : List (Text × T) := [("65009".toList, .num 3), ("65003".toList, .str "nm".toList), ("65022".toList, .str "e".toList),
  ("65024".toList, .num 1), ("65025".toList, .num 4), ("DateTime".toList, .str "2024:01:02 03:04:05".toList)]

theorem notJeol0 : ¬ Jeol (page0 tags0) := by
  rintro ⟨a, b, h, _⟩
  have : ("Make".toList, T.str "JEOL Ltd.".toList) ∈ (page0 tags0).tags := by rw [h]; simp
  simp only [page0, tags0, List.mem_cons, Prod.mk.injEq, List.not_mem_nil, or_false] at this
  rcases this with ⟨e, _⟩ | ⟨e, _⟩ | ⟨e, _⟩ | ⟨e, _⟩ | ⟨e, _⟩ | ⟨e, _⟩ <;> exact absurd e (by decide)

theorem no0 {k : String} (h : k.toList ∉ tags0.map Prod.fst) : NoTag tags0 k := fun q hq e => h (by rw [← e]; exact List.mem_map_of_mem hq)

/-- C118 and C120: the file is read, and gives the calibration of the tags. -/
example : ∃ s, readTiff env0 (file0 tags0 []) "a.tif".toList false .none (handle0 tags0) = .ok s ∧
    Shows "YX".toList [2, 3] ⟨⟨.num 3, .num 0, .str "nm".toList⟩, plain, plain⟩ s.axes ∧ s.meta'.quantity = some (.str "e".toList) ∧
    s.meta'.gain = some (.num 4, .num 1) ∧ s.meta'.date = some "2024-01-02".toList := by
  have hs : NotStreak (page0 tags0) := .inl (no0 (by decide))
  obtain ⟨s, hr⟩ := C118_reads env0 (file0 tags0 []) "a.tif".toList false (ty := .none) (h := handle0 tags0) (by decide) (.inl rfl)
    (fun c hc => by
      have : c = 'Y' ∨ c = 'X' := by simpa [frame, handle0, page0] using hc
      rcases this with rfl | rfl <;> exact .inl rfl)
    (.inr ⟨"2024:01:02 03:04:05".toList, tag_of_nodup (by simp [handle0, page0, tags0]) (by decide)⟩) notJeol0 hs (fun e => by cases e)
  have k : IsKind (file0 tags0 []) (page0 tags0) false .usual := ⟨(fun h => by cases h.1), rfl, rfl, rfl, rfl, notJeol0, hs⟩
  have hn : (tags0.map Prod.fst).Nodup := by decide
  have tag : ∀ {k : String} {v : T}, (k.toList, v) ∈ tags0 → Tag tags0 k v := fun h => tag_of_nodup h hn
  have no : ∀ {k : String}, k.toList ∉ tags0.map Prod.fst → ∀ d, TagOr tags0 k d d := fun h d => .inr ⟨no0 h, rfl⟩
  obtain ⟨q1, _, q3, _⟩ := C120_intensity hr
  refine ⟨s, hr, ?_, q1 _ (tag (by simp [tags0])), q3 _ _ (tag (by simp [tags0])) (tag (by simp [tags0])),
    (C120_date_partial hr (t := "2024:01:02 03:04:05".toList) (tag (k := "DateTime") (by simp [tags0])) (d := "2024-01-02".toList) (c := "03:04:05".toList) rfl).1⟩
  exact read_axes hr (.micrograph (w := ⟨.num 3, .num 0, .str "nm".toList⟩) (h := plain) (d := plain) k rfl (.inl (tag (by simp [tags0]))) (no (by decide) _) (no (by decide) _) (no (by decide) _)
    (no (by decide) _) (no (by decide) _) (.inl (tag (by simp [tags0]))) (no (by decide) _) (no (by decide) _)) rfl

/-- A streak image. -/
def rows0 : List Row := [⟨"Application".toList, [⟨"Date".toList, "1.2.2024".toList, true, none⟩]⟩,
  ⟨"Scaling".toList, [⟨"ScalingXScalingFile".toList, "#120".toList, true, some "0003".toList⟩, ⟨"ScalingYScalingFile".toList, "Focus mode".toList, false, none⟩,
    ⟨"ScalingXUnit".toList, "nm".toList, true, none⟩, ⟨"ScalingYUnit".toList, "px".toList, true, none⟩]⟩]

def text0 : Text := "[Application],Date=\"1.2.2024\"\r\n[Scaling],ScalingXScalingFile=\"#120,0003\",ScalingYScalingFile=Focus mode,ScalingXUnit=\"nm\",ScalingYUnit=\"px\"\r\n".toList

instance (t : Text) : Decidable (Plain t) := by unfold Plain; infer_instance

theorem rowsOk : Rows rows0 text0 := by
  refine ⟨⟨"\r\n".toList, by simp, "\r\n".toList, by simp, by decide +kernel⟩, fun r hr => ?_, by decide, by decide⟩
  have hi : ∀ i : Item, Plain i.key → Plain i.value → (i.more = none ∨ (i.quoted = true ∧ i.more = some "0003".toList)) → i.Ok := by
    intro i h1 h2 h3
    refine ⟨h1, h2, fun t ht => ?_⟩
    rcases h3 with h3 | ⟨h3, h4⟩
    · rw [h3] at ht; cases ht
    · rw [h4] at ht
      cases ht
      exact ⟨h3, by decide, by decide, by decide⟩
  simp only [rows0, List.mem_cons, List.not_mem_nil, or_false] at hr
  rcases hr with rfl | rfl
  · refine ⟨by decide +kernel, ?_, ?_, fun i hm => ?_, by decide +kernel⟩
    · intro c hc; cases hc; decide
    · intro c hc; cases hc; decide
    · simp only [List.mem_cons, List.not_mem_nil, or_false] at hm
      rcases hm with rfl
      exact hi _ (by decide +kernel) (by decide +kernel) (.inl rfl)
  · refine ⟨by decide +kernel, ?_, ?_, fun i hm => ?_, by decide +kernel⟩
    · intro c hc; cases hc; decide
    · intro c hc; cases hc; decide
    · simp only [List.mem_cons, List.not_mem_nil, or_false] at hm
      rcases hm with rfl | rfl | rfl | rfl
      · exact hi _ (by decide +kernel) (by decide +kernel) (.inr ⟨rfl, rfl⟩)
      all_goals exact hi _ (by decide +kernel) (by decide +kernel) (.inl rfl)

def tags1 : List (Text × T) := [("Artist".toList, .str "Copyright Hamamatsu GmbH".toList), ("Software".toList, .str "HPD-TA 9".toList),
  ("ImageDescription".toList, .str text0), ("ImageWidth".toList, .num (3 : Nat)), ("ImageLength".toList, .num (2 : Nat))]

/-- C121: a streak image is read with the wavelengths of the file and pixels for the time. -/
example : ∃ s, readTiff env0 (file0 tags1 []) "a.tif".toList false .uniform (handle0 tags1) = .ok s ∧
    s.axes = [.lin 2 "height".toList (.num 1) (.num 0) (.str "px".toList) none, .lin 3 "width".toList (.num 2) (.num 5) (.str "nm".toList) none] := by
  have hn : (tags1.map Prod.fst).Nodup := by decide
  have tag : ∀ {k : String} {v : T}, (k.toList, v) ∈ tags1 → Tag tags1 k v := fun h => tag_of_nodup h hn
  have hj : ¬ Jeol (page0 tags1) := by
    intro hj
    have h1 := tag_get hj
    rw [show (page0 tags1).tags = tags1 from rfl, noTag_get (noTag_of (by decide))] at h1
    cases h1
  have ht : Tag (page0 tags1).tags "ImageDescription" (.str text0) := tag (by simp [tags1])
  have k : IsKind (file0 tags1 []) (page0 tags1) false .streak := ⟨(fun h => by cases h.1), rfl, rfl, rfl, rfl, hj, " GmbH".toList, " 9".toList,
    tag (List.mem_cons_self ..), tag (List.mem_cons_of_mem _ (List.mem_cons_self ..))⟩
  have hsc : Scaling (file0 tags1 []) (page0 tags1) rows0 3 2 ((List.range 3).map fun i : Nat => 5 + i * 2) ((List.range 2).map fun i : Nat => 0 + i * 1) "nm".toList "px".toList := by
    refine ⟨⟨_, List.mem_cons_of_mem _ (List.mem_cons_self ..), rfl, _, List.mem_cons_self .., _, List.mem_cons_of_mem _ (List.mem_cons_self ..),
      _, List.mem_cons_of_mem _ (List.mem_cons_of_mem _ (List.mem_cons_self ..)),
      _, List.mem_cons_of_mem _ (List.mem_cons_of_mem _ (List.mem_cons_of_mem _ (List.mem_cons_self ..))), rfl, ?_, rfl, ?_, rfl, rfl, rfl, rfl⟩, ?_, ?_⟩
    · exact .stored (a := 120) (fun ⟨r, e⟩ => absurd (Option.some.inj (congrArg List.head? e : some '#' = some 'O')) (by decide)) ⟨"#".toList, "120".toList, [], by decide, by decide, by decide, by decide, by simp, by decide⟩
    · have : ((List.range 2).map fun i : Nat => (0 : ℚ) + i * 1) = (List.range 2).map fun i : Nat => (i : ℚ) := by simp
      rw [this]
      exact .pixels [] rfl
    · exact tag (by simp [tags1])
    · exact tag (by simp [tags1])
  obtain ⟨s, hr⟩ := C121_reads (env := env0) (name := "a.tif".toList) (ty := .uniform) (h := handle0 tags1) (by decide) (.inl rfl) k
    (fun c hc => by
      have : c = 'Y' ∨ c = 'X' := by simpa [frame, handle0, page0] using hc
      rcases this with rfl | rfl <;> exact .inl rfl) (.inl (noTag_of (by decide))) ht rowsOk hsc (fun e => by cases e)
  exact ⟨s, hr, C121_linear fits0 hr k rfl rfl ht rowsOk hsc (by decide) (by decide) (.inr rfl)⟩

/-- A way to write numbers: strokes. -/
def show0 (q : ℚ) : Text := List.replicate (Encodable.encode q + 1) '1'

def lib0 : Lib where
  literal := fun t => if t ≠ [] ∧ ∀ c ∈ t, c = '1' then (match (Encodable.decode (t.length - 1) : Option ℚ) with | some q => .num q | none => .str t) else .str t
  decode := .str
  ratio := fun r => (r.1, r.2)

theorem faithful0 : Faithful lib0 show0 := by
  refine ⟨fun a b ha hb => ⟨?_, ?_⟩, ?_, ?_, fun q => ⟨⟨?_, ?_, ?_, ?_⟩, ?_, ?_⟩⟩
  · simp only [lib0]
    exact_mod_cast ha.ne'
  · simp only [lib0]
    ring
  · simp only [lib0]
    rw [if_neg (by decide)]
  · simp only [lib0]
    rw [if_neg (by decide)]
  · intro h; exact absurd (List.eq_of_mem_replicate h) (by decide)
  · intro h; exact absurd (List.eq_of_mem_replicate h) (by decide)
  · intro c hc
    rw [List.eq_of_mem_replicate (List.mem_of_mem_head? hc)]
    decide
  · intro c hc
    rw [List.eq_of_mem_replicate (List.mem_of_getLast? hc)]
    decide
  · intro c hc
    rw [List.eq_of_mem_replicate hc]
    decide
  · simp only [lib0]
    rw [if_pos ⟨by simp [show0], fun c hc => List.eq_of_mem_replicate hc⟩]
    simp [show0]

/-- C119: an image in nanometres comes back. -/
example : ∃ w f sig ax ay, fileWriter show0 true ⟨.reg data0, [⟨2, 1, some "nm".toList, false⟩, ⟨1 / 3, 0, some "nm".toList, false⟩], none, some (some 1, some 4), none⟩ = .ok w ∧
    stored lib0 "YX".toList w = .ok f ∧ fileReader env0 "a.tif".toList false false .none [] f = .ok [sig] ∧ sig.data = .reg data0 ∧
    sig.axes = [ay, ax] ∧ Back (1 / 100000000) 2 "height" false ⟨2, 1, some "nm".toList, false⟩ ay ∧
    Back (1 / 100000000) 3 "width" false ⟨1 / 3, 0, some "nm".toList, false⟩ ax ∧ sig.meta'.gain = some (.num 4, .num 1) := by
  obtain ⟨w, f, sig, ax, ay, h1, h2, h3, h4, h5, h6, h7, _, h8, _⟩ := C119_image_partial faithful0 env0 "a.tif".toList (ty := .none) (by decide) []
    (s := ⟨.reg data0, [⟨2, 1, some "nm".toList, false⟩, ⟨1 / 3, 0, some "nm".toList, false⟩], none, some (some 1, some 4), none⟩)
    (nx := 3) (ny := 2) rfl ⟨rfl, rfl⟩ trivial rfl (by norm_num) (by norm_num) ⟨by decide, rfl⟩ ⟨by decide, rfl⟩
    (.inr (.inr ⟨⟨by decide, by decide, fun c hc => by cases hc; decide, fun c hc => by cases hc; decide⟩, by decide,
      (by simp only [lib0]; rw [if_neg (by decide)]), by decide⟩)) (fun e => absurd (Option.some.inj e) (by decide)) (fun q e => by cases e)
  exact ⟨w, f, sig, ax, ay, h1, h2, h3, h4, h5, h6, h7, (h8 _ rfl).1 1 4 rfl⟩

/-- C119: a stack in micrometres comes back. -/
example : ∃ w f sig ax ay az, fileWriter show0 true ⟨.reg ⟨.u1, [1, 2, 3], [1, 2, 3, 4, 5, 6]⟩, [⟨1 / 7, 2, some "s".toList, true⟩, ⟨2, 1, some "µm".toList, false⟩,
      ⟨1 / 3, 0, some "µm".toList, false⟩], some "e".toList, none, none⟩ = .ok w ∧
    stored lib0 ['T', 'Y', 'X'] w = .ok f ∧ fileReader env0 "a.tif".toList false false .none [] f = .ok [sig] ∧ sig.axes = [az, ay, ax] ∧
    Back 0 1 "time" true ⟨1 / 7, 2, some "s".toList, true⟩ az ∧ sig.meta'.quantity = some (.str "e".toList) := by
  obtain ⟨w, f, sig, ax, ay, az, h1, h2, h3, h4, h5, h6, _, _, h7, _⟩ := C119_stack_partial faithful0 env0 "a.tif".toList (ty := .none) (by decide) []
    (s := ⟨.reg ⟨.u1, [1, 2, 3], [1, 2, 3, 4, 5, 6]⟩, [⟨1 / 7, 2, some "s".toList, true⟩, ⟨2, 1, some "µm".toList, false⟩,
      ⟨1 / 3, 0, some "µm".toList, false⟩], some "e".toList, none, none⟩)
    (nx := 3) (ny := 2) (nz := 1) rfl ⟨rfl, rfl, rfl⟩ trivial rfl (by norm_num) (by norm_num) ⟨by decide, rfl⟩ ⟨by decide, rfl⟩ ⟨by decide, rfl⟩
    (.inl rfl) (fun _ => rfl) (fun q e => by cases e; exact ⟨by decide, rfl⟩) (c := 'T') (first := "time") (by simp)
  exact ⟨w, f, sig, ax, ay, az, h1, h2, h3, h5, h6, h7⟩

/-- A report of JEOL. -/
def imaging0 : T := .dict [("ModeString".toList, .str "DIFF".toList), ("ImageFormingMode".toList, .str "modeDIFF".toList), ("SelectorString".toList, .str "20 cm".toList)]

def report0 : T := .dict [("Eos".toList, .dict [("EosMode".toList, .str "eosTEM".toList)]),
  ("IlluminationSystem".toList, .dict [("ImageField".toList, .str "modeBright".toList)]), ("ImageFormingSystem".toList, imaging0)]

def tags2 : List (Text × T) := [("Make".toList, .str "JEOL Ltd.".toList), ("ImageDescription".toList, .dict [("TemReporter".toList, report0)])]

/-- C120: the mapping of a diffraction pattern of JEOL and the name. -/
example : ∃ s, readTiff env0 (file0 tags2 []) "dir/a.tif".toList false .none (handle0 tags2) = .ok s ∧ s.mapping = .jeol true ∧
    s.meta'.filename = "a.tif".toList := by
  have hn : (tags2.map Prod.fst).Nodup := by decide
  have hr : ∃ s, readTiff env0 (file0 tags2 []) "dir/a.tif".toList false .none (handle0 tags2) = .ok s := ⟨_, rfl⟩
  obtain ⟨s, hr⟩ := hr
  have k : IsKind (file0 tags2 []) (page0 tags2) false .jeol := ⟨(fun h => by cases h.1), rfl, rfl, rfl, rfl, tag_of_nodup (by simp [tags2, page0]) hn⟩
  let r : Report env0 (page0 tags2) :=
    { description := .dict [("TemReporter".toList, report0)], whole := .dict [("TemReporter".toList, report0)], report := report0
      eos := .dict [("EosMode".toList, .str "eosTEM".toList)], mode := "eosTEM".toList
      illumination := .dict [("ImageField".toList, .str "modeBright".toList)], imaging := imaging0
      field := "modeBright".toList, forming := "modeDIFF".toList, selector := "20 cm".toList
      tag := tag_of_nodup (by simp [tags2, page0]) hn, parsed := rfl
      isReport := ⟨_, rfl, by simp, by decide⟩, isEos := ⟨_, rfl, by simp, by decide⟩, isMode := ⟨_, rfl, by simp, by decide⟩
      isIllumination := ⟨_, rfl, by simp, by decide⟩, isImaging := ⟨_, rfl, by simp, by decide⟩
      isField := ⟨_, rfl, by simp, by decide⟩, isForming := ⟨_, rfl, by simp, by decide⟩, isSelector := ⟨_, rfl, by simp, by decide⟩
      notScanning := by decide }
  exact ⟨s, hr, (C120_mapping_jeol hr k r rfl rfl rfl (v := .str "DIFF".toList) ⟨_, rfl, by simp [r, imaging0], by decide⟩).1 rfl,
    C120_filename (dir := "dir".toList) (by decide) (.inr rfl) hr⟩

end Verif.Props.Tiff
