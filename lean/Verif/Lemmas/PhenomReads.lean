import Verif.Lemmas.PhenomAnalysis
/-! Signals of the analyses in ELID files. -/
namespace Verif.Lemmas.Phenom
open Verif.Phenom
open Verif.Spec.Phenom (Eds Common Line Map Times At Frame Picture Cutout metres Fits listOf leb flag count ShowsSpectrum ShowsLine ShowsMap Energy Place)

theorem getKw_some_mem {k : Text} {v : J} : ∀ {d : List (Text × J)}, getKw k d = some v → (k, v) ∈ d
  | (k', v') :: d, h => by
    unfold getKw at h
    split at h
    · rename_i hk
      cases h
      rw [hk]
      exact List.mem_cons_self
    · exact List.mem_cons_of_mem _ (getKw_some_mem h)

theorem getKw_update {a b : List (Text × J)} (hb : (b.map Prod.fst).Nodup) (k : Text) :
    getKw k (update a b) = (getKw k b).or (getKw k a) := by
  cases h : getKw k b with
  | some v => exact update_hit hb (getKw_some_mem h)
  | none =>
    refine update_skip fun e he hk => ?_
    have := getKw_mem (k := e.1) (v := e.2) hb he
    rw [hk, h] at this
    exact absurd this (by simp)

/-- Metadata of the picture, replaced by that of the cut-out. -/
structure Merged (am om r : J) : Prop where
  new : ∀ k p x, item k om = .ok x → getIn (k :: p) r = getIn (k :: p) om
  old : ∀ k p e, item k om = .error e → getIn (k :: p) r = getIn (k :: p) am

theorem merged_ok {am om : J} {date : Option (Text × Text)} (hd : ∃ d, am = .dict d) (hdate : dateTime am = .ok date) (ho : ∃ d, om = .dict d)
    (hk : Keys om) (hod : ∃ r, dateTime om = .ok r) : ∃ r, updateJ am om = .ok r ∧ Merged am om r ∧ ∃ x, dateTime r = .ok x := by
  obtain ⟨a, rfl⟩ := hd
  obtain ⟨b, rfl⟩ := ho
  obtain ⟨y, hy⟩ := hod
  have hb := hk b rfl
  have hitem : ∀ k : String, ∀ x, item k (.dict b) = .ok x → item k (.dict (update a b)) = .ok x := by
    intro k x h
    obtain ⟨d, e, hg⟩ := item_dict h
    cases e
    exact item_of (by rw [getKw_update hb, hg]; rfl)
  have hitem' : ∀ k : String, ∀ e, item k (.dict b) = .error e → item k (.dict (update a b)) = item k (.dict a) := by
    intro k e h
    cases hg : getKw k.toList b with
    | some v => rw [item_of hg] at h; exact absurd h (by simp)
    | none =>
      unfold item
      dsimp only
      rw [getKw_update hb, hg]
      rfl
  refine ⟨.dict (update a b), rfl, ⟨?_, ?_⟩, ?_⟩
  · intro k p x h
    unfold getIn
    rw [hitem k x h, h]
  · intro k p e h
    unfold getIn
    rw [hitem' k e h]
  · cases hg : item "time" (.dict b) with
    | ok x =>
      exact ⟨y, by rw [← hy]; exact dateTime_congr rfl rfl (by rw [getIn_one, getIn_one, hg]; exact hitem _ _ hg)⟩
    | error e =>
      exact ⟨date, by rw [← hdate]; exact dateTime_congr rfl rfl (by rw [getIn_one, getIn_one]; exact hitem' _ _ hg)⟩

theorem reads_msa {env : Env} {v : Nat} {am : J} {c : Common} {t label : Text} {g : List (Text × J)} {date : Option (Text × Text)} (hc : c.Ok)
    (hcut : Cutout env c.cutout) (hu : env.utf8 c.eds.instrument = .ok t) (hg : v = 0 → Old env am g) (hd : ∃ d, am = .dict d)
    (hdate : dateTime am = .ok date) :
    ∃ s om, Reads (msa env v label am) (Spec.Phenom.common v c) s ∧ ShowsSpectrum env c (title label "MSA" c.order) s ∧
      Cut env c (.dict (commonDict env v c t g)) om ∧ Merged am om s.original ∧ dateTime s.original = .ok s.date := by
  obtain ⟨om, h1, h2⟩ := reads_common (v := v) hc hcut hu hg
  obtain ⟨r, h3, h4, x, h5⟩ := merged_ok hd hdate (h2.dict.imp fun _ h => h.1) h2.keys h2.date
  obtain ⟨s, h6, h7, h8, h9⟩ := sumSignal_ok (ttl := title label "MSA" c.order) h2 h5
  refine ⟨s, om, ?_, h7, h2, by rw [h8]; exact h4, by rw [h8, h9, h5]⟩
  exact Reads.last h1 (Reads.bind0 (Reads.lift h3) (Reads.bind0 (Reads.lift (title_ok h2)) (Reads.lift h6)))

theorem reads_spot {env : Env} {v : Nat} {am : J} {c : Common} {t label : Text} {g : List (Text × J)} {date : Option (Text × Text)} (hc : c.Ok)
    (hcut : Cutout env c.cutout) (hu : env.utf8 c.eds.instrument = .ok t) (hg : v = 0 → Old env am g) (hx : Ctx am date) (x y : UInt64) :
    ∃ s, Reads (spot env v label am) (Spec.Phenom.common v c ++ (Spec.Phenom.float x ++ Spec.Phenom.float y)) s ∧
      ShowsSpectrum env c (title label "Spot" c.order) s ∧
      Original am (.dict (setKw "position".toList (point (env.f64 x.toNat) (env.f64 y.toNat)) (commonDict env v c t g))) s.original ∧ s.date = date := by
  obtain ⟨om, h1, h2⟩ := reads_common (v := v) hc hcut hu hg
  obtain ⟨r, h3, h4, h5⟩ := original_ok (eds := .dict (setKw "position".toList (point (env.f64 x.toNat) (env.f64 y.toNat)) (commonDict env v c t g))) hx
  obtain ⟨s, h6, h7, h8, h9⟩ := sumSignal_ok (ttl := title label "Spot" c.order) h2 h5
  refine ⟨s, ?_, h7, by rw [h8]; exact h4, h9⟩
  exact Reads.bind h1 (Reads.bind (reads_f64 env x) (Reads.last (reads_f64 env y) (Reads.bind0 (Reads.lift h2.found) (Reads.bind0 (Reads.lift rfl)
    (Reads.bind0 (Reads.lift h3) (Reads.bind0 (Reads.lift (title_ok h2)) (Reads.lift h6)))))))

/-- Corners of a region. -/
def rectangle (env : Env) (l t r b : UInt64) : J :=
  .dict [("left".toList, .num (env.f64 l.toNat)), ("top".toList, .num (env.f64 t.toNat)), ("right".toList, .num (env.f64 r.toNat)),
    ("bottom".toList, .num (env.f64 b.toNat))]

theorem reads_region {env : Env} {v : Nat} {am : J} {c : Common} {t label : Text} {g : List (Text × J)} {date : Option (Text × Text)} (hc : c.Ok)
    (hcut : Cutout env c.cutout) (hu : env.utf8 c.eds.instrument = .ok t) (hg : v = 0 → Old env am g) (hx : Ctx am date) (x1 x2 x3 x4 : UInt64) :
    ∃ s, Reads (region env v label am) (Spec.Phenom.common v c ++ (Spec.Phenom.float x1 ++ Spec.Phenom.float x2 ++ Spec.Phenom.float x3 ++ Spec.Phenom.float x4)) s ∧
      ShowsSpectrum env c (title label "Region" c.order) s ∧
      Original am (.dict (setKw "rectangle".toList (rectangle env x1 x2 x3 x4) (commonDict env v c t g))) s.original ∧ s.date = date := by
  obtain ⟨om, h1, h2⟩ := reads_common (v := v) hc hcut hu hg
  obtain ⟨r, h3, h4, h5⟩ := original_ok (eds := .dict (setKw "rectangle".toList (rectangle env x1 x2 x3 x4) (commonDict env v c t g))) hx
  obtain ⟨s, h6, h7, h8, h9⟩ := sumSignal_ok (ttl := title label "Region" c.order) h2 h5
  refine ⟨s, ?_, h7, by rw [h8]; exact h4, h9⟩
  simp only [List.append_assoc]
  exact Reads.bind h1 (Reads.bind (reads_f64 env x1) (Reads.bind (reads_f64 env x2) (Reads.bind (reads_f64 env x3) (Reads.last (reads_f64 env x4)
    (Reads.bind0 (Reads.lift h2.found) (Reads.bind0 (Reads.lift rfl)
    (Reads.bind0 (Reads.lift h3) (Reads.bind0 (Reads.lift (title_ok h2)) (Reads.lift h6)))))))))

theorem u32_lt (x : UInt32) : x.toNat < 2 ^ 32 := x.toNat_lt

theorem reads_difference {env : Env} {v : Nat} {am : J} {c : Common} {t label : Text} {g : List (Text × J)} {date : Option (Text × Text)} (hc : c.Ok)
    (hcut : Cutout env c.cutout) (hu : env.utf8 c.eds.instrument = .ok t) (hg : v = 0 → Old env am g) (hx : Ctx am date) (m n : UInt32) :
    ∃ s, Reads (difference env v label am) (Spec.Phenom.common v c ++ (count m.toNat ++ count n.toNat)) s ∧
      ShowsSpectrum env c (label ++ ", Difference ".toList ++ decChars m.toNat ++ " - ".toList ++ decChars n.toNat) s ∧
      Original am (.dict (commonDict env v c t g)) s.original ∧ s.date = date := by
  obtain ⟨om, h1, h2⟩ := reads_common (v := v) hc hcut hu hg
  obtain ⟨r, h3, h4, h5⟩ := original_ok (eds := .dict (commonDict env v c t g)) hx
  obtain ⟨s, h6, h7, h8, h9⟩ := sumSignal_ok (ttl := label ++ ", Difference ".toList ++ decChars m.toNat ++ " - ".toList ++ decChars n.toNat) h2 h5
  refine ⟨s, ?_, h7, by rw [h8]; exact h4, h9⟩
  exact Reads.bind h1 (Reads.bind (reads_u32 (u32_lt m)) (Reads.last (reads_u32 (u32_lt n)) (Reads.bind0 (Reads.lift h2.found)
    (Reads.bind0 (Reads.lift h3) (Reads.lift h6)))))

theorem reads_constructive {env : Env} {v : Nat} {am : J} {c : Common} {t : Text} {g : List (Text × J)} (hc : c.Ok)
    (hcut : Cutout env c.cutout) (hu : env.utf8 c.eds.instrument = .ok t) (hg : v = 0 → Old env am g) {d : List UInt8} (hd : Fits d)
    {td : Text} (hud : env.utf8 d = .ok td) {l : List (UInt32 × UInt64)} (hl : Fits l) :
    Reads (constructive env v am) (Spec.Phenom.common v c ++ (listOf (fun b => [b]) d ++ listOf (fun p => count p.1.toNat ++ Spec.Phenom.float p.2) l)) () := by
  obtain ⟨om, h1, h2⟩ := reads_common (v := v) hc hcut hu hg
  have hs : ∀ p ∈ l, Reads (source env) (count p.1.toNat ++ Spec.Phenom.float p.2) (p.1.toNat, env.f64 p.2.toNat) := fun p _ =>
    Reads.bind (reads_u32 (u32_lt p.1)) (Reads.last (reads_f64 env p.2) (Reads.pure _))
  refine Reads.bind h1 (Reads.bind (reads_str hd hud) ?_)
  unfold listOf
  exact Reads.bind (reads_u32 hl) (Reads.last (reads_rep (val := fun p => (p.1.toNat, env.f64 p.2.toNat)) hs) (Reads.pure _))

/-! ### Line scans and maps -/

theorem reads_rows {p : Rd β} {enc : α → List UInt8} {val : α → β} {l : List α} {n : Nat} (hn : l.length = n) (h : ∀ a ∈ l, Reads p (enc a) (val a)) :
    Reads (rep n p) (l.flatMap enc) (l.map val) := by
  subst hn
  exact reads_rep h

theorem reads_row {r : List Nat} {n : Nat} (hn : r.length = n) (h : ∀ x ∈ r, x < 2 ^ 32) : Reads (rep n cell) (r.flatMap leb) r := by
  have := reads_rows (p := cell) (enc := leb) (val := fun x => x) hn fun x hx => reads_cell (h x hx)
  rwa [map_id_fun] at this

/-- The times of `n` spectra. -/
def timeList (env : Env) (n : Nat) : Times → List ℚ
  | .each l => l.map fun x => env.f64 x.toNat
  | .all t => List.replicate n (env.f64 t.toNat)

theorem reads_times {env : Env} {n : Nat} {t : Times} (h : t.Ok n) : Reads (times env t.var n) t.bytes (timeList env n t) := by
  cases t with
  | each l => exact reads_rows h fun x _ => reads_f64 env x
  | all t => exact Reads.last (reads_f64 env t) (Reads.pure _)

/-- The entries that a line scan adds. -/
def lineList (env : Env) (c : Common) (l : Line) : List (Text × J) :=
  [("live_time".toList, .num (env.f64 c.eds.live.toNat)), ("real_time".toList, .num (env.f64 c.eds.real.toNat)),
    ("begin".toList, point (env.f64 l.x1.toNat) (env.f64 l.y1.toNat)), ("end".toList, point (env.f64 l.x2.toNat) (env.f64 l.y2.toNat)),
    ("offset".toList, .num (env.f64 l.offset.toNat)), ("dispersion".toList, .num (env.f64 l.dispersion.toNat)),
    ("real_time_values".toList, nums (timeList env l.rows.length l.real)),
    ("live_time_values".toList, nums (timeList env l.rows.length l.live)), ("high_accuracy_quantification".toList, .bool l.accurate)]

theorem num_bind {r : Py J} {q : ℚ} (h : r = .ok (.num q)) : (r >>= asNum) = .ok q := by rw [h]; rfl

/-- The signal of a line scan. -/
def lineSig (env : Env) (c : Common) (l : Line) (label : Text) (date : Option (Text × Text)) (r : J) : Sig :=
  ⟨[l.rows.length, l.bins], l.rows.flatten,
    [⟨"i".toList, some 0, 0, 1, l.rows.length, "points".toList, true⟩,
      energyAxis "X-ray energy" (some 1) (env.f64 c.offset.toNat) (env.f64 c.dispersion.toNat) l.bins], title label "Line" c.order,
    some "EDS_SEM".toList, date, r⟩

attribute [local irreducible] update edsDict commonDict in
theorem reads_line {env : Env} {v : Nat} {am : J} {c : Common} {l : Line} {t t' label : Text} {g : List (Text × J)} {date : Option (Text × Text)} (hc : c.Ok)
    (hcut : Cutout env c.cutout) (hu : env.utf8 c.eds.instrument = .ok t) (hg : v = 0 → Old env am g) (hx : Ctx am date) (hl : l.Ok)
    (hul : env.utf8 l.eds.instrument = .ok t') (ho : env.f64 l.offset.toNat = env.f64 c.offset.toNat)
    (hd : env.f64 l.dispersion.toNat = env.f64 c.dispersion.toNat) :
    ∃ s, Reads (line env v label am) (Spec.Phenom.common v c ++ Spec.Phenom.line v l) s ∧ ShowsLine env l (title label "Line" c.order) s ∧
      Original am (.dict (update (edsDict env v l.eds t' g) (lineList env c l))) s.original ∧ s.date = date := by
  obtain ⟨om, h1, h2⟩ := reads_common (v := v) hc hcut hu hg
  obtain ⟨r, h3, h4, h5⟩ := original_ok (eds := .dict (update (edsDict env v l.eds t' g) (lineList env c l))) hx
  have hs : lineSignal r (env.f64 c.offset.toNat) (env.f64 c.dispersion.toNat) l.rows.length l.bins l.rows.flatten (title label "Line" c.order) =
      .ok (lineSig env c l label date r) := by
    unfold lineSignal
    rw [h5]
    rfl
  refine ⟨lineSig env c l label date r, ?_, ⟨rfl, rfl, rfl, rfl, _, _, rfl, ⟨rfl, rfl, rfl, rfl, rfl⟩, ?_⟩, h4, rfl⟩
  rotate_left
  · rw [← ho, ← hd]
    exact energy_ok env _ _ _ _ _
  have hlive := edsItem_of h2.found (common_eds (by decide) (eds_live hg))
  have hreal := edsItem_of h2.found (common_eds (by decide) (eds_real hg))
  unfold Spec.Phenom.line line
  simp only [List.append_assoc]
  refine Reads.bind h1 (Reads.bind (reads_f64 env _) (Reads.bind (reads_f64 env _) (Reads.bind (reads_f64 env _) (Reads.bind (reads_f64 env _)
    (Reads.bind (reads_u32 hl.rows) (Reads.bind (reads_u32 hl.bins) (Reads.bind (reads_f64 env _) (Reads.bind (reads_f64 env _)
    (Reads.bind (reads_eds hl.eds hul hg) (Reads.bind0 (Reads.lift hlive) (Reads.bind0 (Reads.lift hreal) (Reads.bind (reads_bool _) (Reads.bind (reads_bool _)
    (Reads.bind (reads_rows (val := fun x => x) rfl fun row hrow => reads_row (hl.shape row hrow) (hl.cells row hrow))
    (Reads.bind (reads_times hl.real) (Reads.bind (reads_times hl.live) (Reads.last (reads_bool _) ?_)))))))))))))))))
  refine Reads.bind0 (Reads.lift h3) (Reads.bind0 (Reads.lift (num_bind (edsItem_of h2.found (common_offset env v c t g))))
    (Reads.bind0 (Reads.lift (num_bind (edsItem_of h2.found (common_dispersion env v c t g)))) (Reads.bind0 (Reads.lift (title_ok h2)) (Reads.lift ?_))))
  rw [map_id_fun]
  exact hs

/-- The entries that a map adds. -/
def mapList (env : Env) (c : Common) (m : Map) : List (Text × J) :=
  [("live_time".toList, .num (env.f64 c.eds.live.toNat)), ("real_time".toList, .num (env.f64 c.eds.real.toNat)),
    ("real_time_values".toList, table m.rows.length m.width (timeList env (m.rows.length * m.width) m.real)),
    ("live_time_values".toList, table m.rows.length m.width (timeList env (m.rows.length * m.width) m.live))]

theorem getUnit_metres (q : ℚ) : metres ((getUnit q).2 ++ ['m']) = some (getUnit q).1 ∧ (getUnit q).1 ≠ 0 := by
  unfold getUnit
  split
  · exact ⟨rfl, by norm_num⟩
  split
  · exact ⟨rfl, by norm_num⟩
  split
  · exact ⟨rfl, by norm_num⟩
  split
  · exact ⟨rfl, by norm_num⟩
  · exact ⟨rfl, by norm_num⟩

theorem place_ok {name : String} {i n : Nat} {q scale unit : ℚ} {u : Text} (hm : metres u = some unit) (hs : scale * unit = q) :
    Place (placeAxis name i scale n u) name n q := ⟨rfl, rfl, rfl, rfl, unit, hm, hs⟩

/-- The signal of a map with a side of `q` metres. -/
def mapSig (env : Env) (c : Common) (m : Map) (q : ℚ) (label : Text) (date : Option (Text × Text)) (r : J) : Sig :=
  ⟨[m.rows.length, m.width, m.bins], (m.rows.map List.flatten).flatten,
    [placeAxis "y" 0 (q / (getUnit q).1 / m.rows.length) m.rows.length ((getUnit q).2 ++ ['m']),
      placeAxis "x" 1 (q / (getUnit q).1 / m.width) m.width ((getUnit q).2 ++ ['m']),
      energyAxis "X-ray energy" (some 2) (env.f64 c.offset.toNat) (env.f64 c.dispersion.toNat) m.bins], title label "Map" c.order,
    some "EDS_SEM".toList, date, r⟩

attribute [local irreducible] update edsDict commonDict in
theorem reads_map {env : Env} {v : Nat} {am : J} {c : Common} {m : Map} {t t' label : Text} {g : List (Text × J)} {date : Option (Text × Text)} (hc : c.Ok)
    (hcut : Cutout env c.cutout) (hu : env.utf8 c.eds.instrument = .ok t) (hg : v = 0 → Old env am g) (hx : Ctx am date) (hm : m.Ok)
    (hum : env.utf8 m.eds.instrument = .ok t') (ho : env.f64 m.offset.toNat = env.f64 c.offset.toNat)
    (hd : env.f64 m.dispersion.toNat = env.f64 c.dispersion.toNat) {field scale : ℚ} {js : J}
    (hf : getIn ["acquisition", "scan", "fieldSize"] am = .ok (.num field)) (hs : getIn ["acquisition", "scan", "scanScale"] am = .ok js)
    (hjs : toFloat env js = .ok scale) :
    ∃ s, Reads (mapAnalysis env v label am) (Spec.Phenom.common v c ++ Spec.Phenom.map v m) s ∧
      ShowsMap env m (field * scale) (field * scale) (title label "Map" c.order) s ∧
      Original am (.dict (update (edsDict env v m.eds t' g) (mapList env c m))) s.original ∧ s.date = date := by
  obtain ⟨om, h1, h2⟩ := reads_common (v := v) hc hcut hu hg
  obtain ⟨r, h3, h4, h5⟩ := original_ok (eds := .dict (update (edsDict env v m.eds t' g) (mapList env c m))) hx
  have hh : m.rows.length ≠ 0 := by have := hm.some.1; omega
  have hw : m.width ≠ 0 := by have := hm.some.2; omega
  have hf' := (h4.kept ["acquisition", "scan", "fieldSize"] (by decide) (by decide)).trans hf
  have hs' := (h4.kept ["acquisition", "scan", "scanScale"] (by decide) (by decide)).trans hs
  have hsig : mapSignal env r (env.f64 c.offset.toNat) (env.f64 c.dispersion.toNat) m.rows.length m.width m.bins (m.rows.map List.flatten).flatten
      (title label "Map" c.order) = .ok (mapSig env c m (field * scale) label date r) := by
    unfold mapSignal
    simp only [hf', hs', hjs, asNum, bind, Except.bind, divNat, if_neg hh, if_neg hw, h5]
    rfl
  obtain ⟨hu1, hu0⟩ := getUnit_metres (field * scale)
  refine ⟨mapSig env c m (field * scale) label date r, ?_, ⟨rfl, rfl, rfl, rfl, _, _, _, rfl, place_ok hu1 ?_, place_ok hu1 ?_, ?_⟩, h4, rfl⟩
  rotate_left
  · field_simp
  · field_simp
  · rw [← ho, ← hd]
    exact energy_ok env _ _ _ _ _
  have hlive := edsItem_of h2.found (common_eds (by decide) (eds_live hg))
  have hreal := edsItem_of h2.found (common_eds (by decide) (eds_real hg))
  have hrow : ∀ row ∈ m.rows, Reads (rep m.width (rep m.bins cell)) (row.flatMap fun s => s.flatMap leb) row := by
    intro row hrow
    have := reads_rows (p := rep m.bins cell) (enc := fun s => s.flatMap leb) (val := fun x => x) (hm.shape row hrow).1
      fun s hs => reads_row ((hm.shape row hrow).2 s hs) (hm.cells row hrow s hs)
    rwa [map_id_fun] at this
  unfold Spec.Phenom.map mapAnalysis
  simp only [List.append_assoc]
  refine Reads.bind h1 (Reads.bind (reads_f64 env _) (Reads.bind (reads_f64 env _) (Reads.bind (reads_f64 env _) (Reads.bind (reads_f64 env _)
    (Reads.bind (reads_list (val := fun x => env.f64 x.toNat) hm.colors fun x _ => reads_f64 env x)
    (Reads.bind (reads_u32 hm.width) (Reads.bind (reads_u32 hm.rows) (Reads.bind (reads_u32 hm.bins) (Reads.bind (reads_f64 env _) (Reads.bind (reads_f64 env _)
    (Reads.bind (reads_eds hm.eds hum hg) (Reads.bind0 (Reads.lift hlive) (Reads.bind0 (Reads.lift hreal) (Reads.bind (reads_bool _) (Reads.bind (reads_bool _)
    (Reads.bind (reads_rows (val := fun x => x) rfl hrow)
    (Reads.bind (reads_times hm.real) (Reads.last (reads_times hm.live) ?_))))))))))))))))))
  refine Reads.bind0 (Reads.lift h3) (Reads.bind0 (Reads.lift (num_bind (edsItem_of h2.found (common_offset env v c t g))))
    (Reads.bind0 (Reads.lift (num_bind (edsItem_of h2.found (common_dispersion env v c t g)))) (Reads.bind0 (Reads.lift (title_ok h2)) (Reads.lift ?_))))
  rw [map_id_fun]
  exact hsig

end Verif.Lemmas.Phenom
