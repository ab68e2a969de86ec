import Verif.Lemmas.PhenomReads
/-! Entries of the metadata of spectra in ELID files. -/
namespace Verif.Lemmas.Phenom
open Verif.Phenom
open Verif.Spec.Phenom (Eds Common Line Map Times edsTable oldTable timeTable commonTable num detectorTypes)

/-- What version 0 takes from the picture. -/
def oldList : Option (ℚ × ℚ) → List (Text × J)
  | none => []
  | some (w, s) => [("working_distance".toList, .num w), ("slow_peaking_time".toList, .num (if s < 9 / 2 then 112 / 10000000 else 2 / 1000000)),
    ("fast_peaking_time".toList, .num (100 / 1000000000)), ("detector_surface_area".toList, .num (25 / 1000000))]

theorem detectorName_eq (n : Nat) : detectorName n = detectorTypes.getD n "Unknown" := by
  match n with
  | 0 => rfl
  | 1 => rfl
  | 2 => rfl
  | 3 => rfl
  | n + 4 =>
    unfold detectorName
    rw [if_neg (by omega), if_neg (by omega), if_neg (by omega), if_neg (by omega)]
    rfl

theorem u8_eq (b : UInt8) (n : Nat) (hn : n < 256) : (b.toNat = n) ↔ b = UInt8.ofNat n := by
  constructor
  · rintro rfl; simp
  · rintro rfl; simp; omega

theorem correctionName_eq (b : UInt8) : correctionName b.toNat = if b = 1 then "linearized" else if b = 2 then "raw" else "unknown" := by
  unfold correctionName
  simp only [u8_eq b 1 (by omega), u8_eq b 2 (by omega)]
  rfl

theorem driftName_eq (v : Nat) (b : UInt8) : (if 2 ≤ v then driftName b.toNat else "unknown") =
    if v < 2 then "unknown" else if b = 1 then "on" else if b = 2 then "off" else "unknown" := by
  unfold driftName
  simp only [u8_eq b 1 (by omega), u8_eq b 2 (by omega)]
  by_cases h : 2 ≤ v
  · rw [if_pos h, if_neg (show ¬ v < 2 by omega)]; rfl
  · rw [if_neg h, if_pos (show v < 2 by omega)]

/-- Entries as texts. -/
def keyed (l : List (String × J)) : List (Text × J) := l.map fun e => (e.1.toList, e.2)

theorem mem_keyed {l : List (String × J)} {kx : String × J} (h : kx ∈ l) : (kx.1.toList, kx.2) ∈ keyed l := List.mem_map.2 ⟨kx, h, rfl⟩

theorem detector_mem (env : Env) (v : Nat) (e : Eds) (t : Text) (g : List (Text × J)) {k : Text} {x : J} (h : (k, x) ∈ detectorList env v e) :
    getKw k (edsDict env v e t g) = some x := by
  unfold edsDict
  refine update_hit ?_ h
  rw [detector_keys]
  exact by decide +kernel

theorem geometry_mem (env : Env) (v : Nat) (e : Eds) (t : Text) (g : List (Text × J)) {k : Text} {x : J} (h : (k, x) ∈ geometryList env v e g)
    (hk : k ∉ ["ccorrection".toList, "detector_type".toList, "spectrum_correction".toList]) (hn : ((geometryList env v e g).map Prod.fst).Nodup) :
    getKw k (edsDict env v e t g) = some x := by
  unfold edsDict
  rw [update_skip]
  · exact update_hit hn h
  · intro y hy e
    have := key_mem (detector_keys env v _) hy
    rw [e] at this
    exact hk this

theorem base_mem (env : Env) (v : Nat) (e : Eds) (t : Text) (g : List (Text × J)) {k : Text} {x : J} (h : getKw k (baseDict env v e t) = some x)
    (hk : k ∉ ["ccorrection".toList, "detector_type".toList, "spectrum_correction".toList]) (hn : k ∉ (geometryList env v e g).map Prod.fst) :
    getKw k (edsDict env v e t g) = some x := by
  unfold edsDict
  rw [update_skip, update_skip, h]
  · intro y hy e
    exact hn (by rw [← e]; exact List.mem_map.2 ⟨y, hy, rfl⟩)
  · intro y hy e
    have := key_mem (detector_keys env v _) hy
    rw [e] at this
    exact hk this

theorem detector_table (env : Env) (v : Nat) (e : Eds) :
    keyed (if 3 ≤ v then [("ccorrection", num env e.correction), ("detector_type", .str (detectorTypes.getD e.detectorType.toNat "Unknown").toList),
      ("spectrum_correction", .str (if e.spectrumCorrection = 1 then "linearized" else if e.spectrumCorrection = 2 then "raw" else "unknown").toList)]
    else [("ccorrection", .num 0), ("detector_type", .str "FastSDD_C2".toList), ("spectrum_correction", .str "unknown".toList)]) = detectorList env v e := by
  unfold detectorList
  rw [detectorName_eq, correctionName_eq]
  split <;> rfl

theorem base_of {d : List (Text × J)} {ks : List Text} : ∀ {l : List (String × J)}, (∀ kx ∈ l, kx.1.toList ∈ ks) → (∀ kx ∈ l, getKw kx.1.toList d = some kx.2) →
    ∀ kx ∈ l, kx.1.toList ∈ ks ∧ getKw kx.1.toList d = some kx.2 := fun h1 h2 kx h => ⟨h1 kx h, h2 kx h⟩

/-- Keys that are in every version. -/
def baseKeys : List Text := ["high_tension".toList, "detector_azimuth".toList, "detector_resolution".toList, "instrument_id".toList, "live_time".toList,
  "real_time".toList, "detector_elevation".toList]

theorem baseKeys_det : ∀ k ∈ baseKeys, k ∉ ["ccorrection".toList, "detector_type".toList, "spectrum_correction".toList] := by decide +kernel
theorem baseKeys_new : ∀ k ∈ baseKeys, k ∉ ["optical_working_distance".toList, "working_distance".toList, "detector_surface_area".toList, "detector_distance".toList,
      "sample_tilt_angle".toList] := by decide +kernel
theorem baseKeys_old : ∀ k ∈ baseKeys, k ∉ ["working_distance".toList, "slow_peaking_time".toList, "fast_peaking_time".toList, "detector_surface_area".toList] :=
  by decide +kernel
theorem geo_det : ∀ k ∈ ["optical_working_distance".toList, "working_distance".toList, "detector_surface_area".toList, "detector_distance".toList,
      "sample_tilt_angle".toList, "slow_peaking_time".toList, "fast_peaking_time".toList],
    k ∉ ["ccorrection".toList, "detector_type".toList, "spectrum_correction".toList] := by decide +kernel

theorem base_skip (env : Env) (v : Nat) (e : Eds) (o : Option (ℚ × ℚ)) {k : Text} (h : k ∈ baseKeys) : k ∉ (geometryList env v e (oldList o)).map Prod.fst := by
  unfold geometryList
  split
  · cases o with
    | none => exact List.not_mem_nil
    | some o => exact baseKeys_old k h
  · exact baseKeys_new k h

theorem base_table (env : Env) (v : Nat) (e : Eds) (t : Text) (o : Option (ℚ × ℚ)) : ∀ kx ∈ [("high_tension", num env e.tension),
    ("detector_azimuth", num env e.azimuth), ("detector_resolution", num env e.resolution), ("instrument_id", .str t)] ++ timeTable env e,
    getKw kx.1.toList (edsDict env v e t (oldList o)) = some kx.2 := by
  have key : ∀ {k : String} {x : J}, k.toList ∈ baseKeys → getKw k.toList (baseDict env v e t) = some x → getKw k.toList (edsDict env v e t (oldList o)) = some x :=
    fun hk hx => base_mem env v e t _ hx (baseKeys_det _ hk) (base_skip env v e o hk)
  unfold timeTable
  simp only [List.cons_append, List.nil_append, List.forall_mem_cons]
  exact ⟨key (by decide +kernel) rfl, key (by decide +kernel) rfl, key (by decide +kernel) rfl, key (by decide +kernel) rfl,
    key (by decide +kernel) rfl, key (by decide +kernel) rfl, fun _ h => absurd h List.not_mem_nil⟩

theorem elevation_table (env : Env) (v : Nat) (e : Eds) (t : Text) (o : Option (ℚ × ℚ)) :
    getKw "detector_elevation".toList (edsDict env v e t (oldList o)) = some (if v = 0 then .radians (env.f64 e.elevation.toNat) else num env e.elevation) := by
  have hk : "detector_elevation".toList ∈ baseKeys := by decide +kernel
  refine base_mem env v e t _ ?_ (baseKeys_det _ hk) (base_skip env v e o hk)
  by_cases h : v = 0
  · subst h; rfl
  · rw [if_neg h]
    have : (baseDict env v e t) = ("high_tension".toList, .num (env.f64 e.tension.toNat)) :: ("detector_elevation".toList, num env e.elevation) ::
        (baseDict env v e t).drop 2 := by
      unfold baseDict
      rw [if_neg (by omega)]
      rfl
    rw [this]
    rfl

theorem geometry_table0 (env : Env) (e : Eds) (t : Text) (o : Option (ℚ × ℚ)) : ∀ kx ∈ oldTable env e o,
    getKw kx.1.toList (edsDict env 0 e t (oldList o)) = some kx.2 := by
  cases o with
  | none =>
    unfold oldTable
    simp only [List.forall_mem_cons]
    refine ⟨base_mem env 0 e t _ rfl ?_ ?_, base_mem env 0 e t _ rfl ?_ ?_, fun _ h => absurd h List.not_mem_nil⟩
    · exact geo_det _ (by decide +kernel)
    · exact List.not_mem_nil
    · exact geo_det _ (by decide +kernel)
    · exact List.not_mem_nil
  | some o =>
    obtain ⟨w, s⟩ := o
    have e1 : (1 : ℚ) / 10000000 = 100 / 1000000000 := by norm_num
    have e2 : (1 : ℚ) / 40000 = 25 / 1000000 := by norm_num
    intro kx h
    unfold oldTable at h
    dsimp only at h
    rw [e1, e2] at h
    have hm : (kx.1.toList, kx.2) ∈ geometryList env 0 e (oldList (some (w, s))) := mem_keyed h
    refine geometry_mem env 0 e t _ hm (fun hd => ?_) (by
      show ["working_distance".toList, "slow_peaking_time".toList, "fast_peaking_time".toList, "detector_surface_area".toList].Nodup
      decide +kernel)
    have := key_mem (ks := ["working_distance".toList, "slow_peaking_time".toList, "fast_peaking_time".toList, "detector_surface_area".toList]) rfl hm
    exact (by decide +kernel : ∀ k ∈ ["working_distance".toList, "slow_peaking_time".toList, "fast_peaking_time".toList, "detector_surface_area".toList],
      k ∉ ["ccorrection".toList, "detector_type".toList, "spectrum_correction".toList]) _ this hd

theorem base_nodup (env : Env) (v : Nat) (e : Eds) (t : Text) : ((baseDict env v e t).map Prod.fst).Nodup := by
  show ["high_tension".toList, "detector_elevation".toList, "detector_azimuth".toList, "live_time".toList, "real_time".toList, "slow_peaking_time".toList,
    "fast_peaking_time".toList, "detector_resolution".toList, "instrument_id".toList].Nodup
  decide +kernel

theorem base_slow (env : Env) (v : Nat) (e : Eds) (t : Text) : getKw "slow_peaking_time".toList (baseDict env v e t) = some (num env e.slow) :=
  getKw_mem (base_nodup env v e t) (List.mem_cons_of_mem _ (List.mem_cons_of_mem _ (List.mem_cons_of_mem _ (List.mem_cons_of_mem _
    (List.mem_cons_of_mem _ List.mem_cons_self)))))

theorem base_fast (env : Env) (v : Nat) (e : Eds) (t : Text) : getKw "fast_peaking_time".toList (baseDict env v e t) = some (num env e.fast) :=
  getKw_mem (base_nodup env v e t) (List.mem_cons_of_mem _ (List.mem_cons_of_mem _ (List.mem_cons_of_mem _ (List.mem_cons_of_mem _
    (List.mem_cons_of_mem _ (List.mem_cons_of_mem _ List.mem_cons_self))))))

theorem geometry_table1 (env : Env) {v : Nat} (hv : v ≠ 0) (e : Eds) (t : Text) (g : List (Text × J)) :
    ∀ kx ∈ [("slow_peaking_time", num env e.slow), ("fast_peaking_time", num env e.fast),
      ("optical_working_distance", num env e.optical), ("working_distance", num env e.distance), ("detector_surface_area", num env e.area),
      ("detector_distance", num env e.detector), ("sample_tilt_angle", num env e.tilt)], getKw kx.1.toList (edsDict env v e t g) = some kx.2 := by
  have hgeo : geometryList env v e g = keyed [("optical_working_distance", num env e.optical), ("working_distance", num env e.distance),
      ("detector_surface_area", num env e.area), ("detector_distance", num env e.detector), ("sample_tilt_angle", num env e.tilt)] := by
    unfold geometryList
    rw [if_neg hv]
    rfl
  have hkeys : (geometryList env v e g).map Prod.fst = ["optical_working_distance".toList, "working_distance".toList, "detector_surface_area".toList,
      "detector_distance".toList, "sample_tilt_angle".toList] := by rw [hgeo]; simp only [keyed, List.map]
  rw [List.forall_mem_cons, List.forall_mem_cons]
  have h1 : getKw "slow_peaking_time".toList (baseDict env v e t) = some (num env e.slow) := base_slow env v e t
  have h2 : getKw "fast_peaking_time".toList (baseDict env v e t) = some (num env e.fast) := base_fast env v e t
  have d1 : "slow_peaking_time".toList ∈ ["optical_working_distance".toList, "working_distance".toList, "detector_surface_area".toList, "detector_distance".toList,
      "sample_tilt_angle".toList, "slow_peaking_time".toList, "fast_peaking_time".toList] := by decide +kernel
  have d2 : "fast_peaking_time".toList ∈ ["optical_working_distance".toList, "working_distance".toList, "detector_surface_area".toList, "detector_distance".toList,
      "sample_tilt_angle".toList, "slow_peaking_time".toList, "fast_peaking_time".toList] := by decide +kernel
  refine ⟨base_mem env v e t _ h1 (geo_det _ d1) ?_, base_mem env v e t _ h2 (geo_det _ d2) ?_, ?_⟩
  · rw [hkeys]; show "slow_peaking_time".toList ∉ _; decide +kernel
  · rw [hkeys]; show "fast_peaking_time".toList ∉ _; decide +kernel
  · intro kx h
    have hm : (kx.1.toList, kx.2) ∈ geometryList env v e g := by rw [hgeo]; exact mem_keyed h
    refine geometry_mem env v e t _ hm ?_ (by rw [hkeys]; exact by decide +kernel)
    have := key_mem hkeys hm
    exact (by decide +kernel : ∀ k ∈ ["optical_working_distance".toList, "working_distance".toList, "detector_surface_area".toList,
      "detector_distance".toList, "sample_tilt_angle".toList], k ∉ ["ccorrection".toList, "detector_type".toList, "spectrum_correction".toList]) _ this

theorem eds_table (env : Env) (v : Nat) (e : Eds) (t : Text) (o : Option (ℚ × ℚ)) : ∀ kx ∈ edsTable env v e t o ++ timeTable env e,
    getKw kx.1.toList (edsDict env v e t (oldList o)) = some kx.2 := by
  intro kx h
  unfold edsTable at h
  rcases List.mem_append.1 h with h | h
  · rcases List.mem_append.1 h with h | h
    · rcases List.mem_append.1 h with h | h
      · exact base_table env v e t o kx (List.mem_append_left _ h)
      · have he := elevation_table env v e t o
        by_cases hv : v = 0
        · subst hv
          rw [if_pos rfl] at h
          rcases List.mem_append.1 h with h | h
          · rw [List.mem_singleton.1 h]
            exact he
          · exact geometry_table0 env e t o kx h
        · rw [if_neg hv] at h he
          rcases List.mem_cons.1 h with h | h
          · rw [h]; exact he
          · exact geometry_table1 env hv e t _ kx h
    · refine detector_mem env v e t _ ?_
      rw [← detector_table]
      exact mem_keyed h
  · exact base_table env v e t o kx (List.mem_append_right _ h)

theorem texts_eq (l : List UInt8) : texts (l.map Spec.Phenom.symbol) = .list (l.map fun z => .str (Spec.Phenom.symbol z)) := by
  unfold texts; rw [List.map_map]; rfl

theorem rest_table (env : Env) (v : Nat) (c : Common) : commonTable env v c = [("offset", num env c.offset), ("dispersion", num env c.dispersion)] ++
    (commonTable env v c).drop 2 ∧ keyed ((commonTable env v c).drop 2) = restList v c := by
  refine ⟨rfl, ?_⟩
  unfold restList
  rw [driftName_eq, texts_eq, texts_eq]
  have e1 : texts (c.oxides.map Spec.Phenom.oxideName) = .list (c.oxides.map fun o => .str (Spec.Phenom.oxideName o)) := by
    unfold texts; rw [List.map_map]; rfl
  have e2 : texts (if 4 ≤ v then c.ignored.map Spec.Phenom.symbol else []) =
      if v < 4 then .list [] else .list (c.ignored.map fun z => .str (Spec.Phenom.symbol z)) := by
    by_cases h : 4 ≤ v
    · rw [if_pos h, if_neg (show ¬ v < 4 by omega), texts_eq]
    · rw [if_neg h, if_pos (show v < 4 by omega)]
      rfl
  rw [e1, e2]
  rfl

/-- Keys of the metadata of a spectrum, besides its times. -/
def ownKeys : List Text := ["high_tension".toList, "detector_azimuth".toList, "detector_resolution".toList, "instrument_id".toList,
  "detector_elevation".toList] ++ ["ccorrection".toList, "detector_type".toList, "spectrum_correction".toList] ++ geoKeys.map String.toList

/-- Keys of the metadata of a spectrum. -/
def edsKeys : List Text := baseKeys ++ ["ccorrection".toList, "detector_type".toList, "spectrum_correction".toList] ++ geoKeys.map String.toList

theorem own_keys (env : Env) (v : Nat) (e : Eds) (t : Text) (o : Option (ℚ × ℚ)) : ∀ kx ∈ edsTable env v e t o, kx.1.toList ∈ ownKeys := by
  have h : ∀ l : List String, (∀ k ∈ l, k.toList ∈ ownKeys) → ∀ T : List (String × J), T.map Prod.fst = l → ∀ kx ∈ T, kx.1.toList ∈ ownKeys := by
    intro l hl T hT kx hkx
    exact hl _ (by rw [← hT]; exact List.mem_map.2 ⟨kx, hkx, rfl⟩)
  unfold edsTable
  have h3 : ∀ l1 : List String, (∀ k ∈ l1, k.toList ∈ ownKeys) → ∀ T1 : List (String × J), T1.map Prod.fst = l1 → ∀ kx ∈ T1 ++
      (if 3 ≤ v then [("ccorrection", num env e.correction), ("detector_type", .str (detectorTypes.getD e.detectorType.toNat "Unknown").toList),
      ("spectrum_correction", .str (if e.spectrumCorrection = 1 then "linearized" else if e.spectrumCorrection = 2 then "raw" else "unknown").toList)]
    else [("ccorrection", .num 0), ("detector_type", .str "FastSDD_C2".toList), ("spectrum_correction", .str "unknown".toList)]), kx.1.toList ∈ ownKeys := by
    intro l1 hl1 T1 hT1 kx hkx
    rcases List.mem_append.1 hkx with hkx | hkx
    · exact h l1 hl1 T1 hT1 kx hkx
    · refine h ["ccorrection", "detector_type", "spectrum_correction"] (by decide +kernel) _ ?_ kx hkx
      split <;> rfl
  by_cases h0 : v = 0
  · subst h0
    rw [if_pos rfl]
    cases o with
    | none =>
      exact h3 ["high_tension", "detector_azimuth", "detector_resolution", "instrument_id", "detector_elevation", "slow_peaking_time", "fast_peaking_time"]
        (by decide +kernel) _ rfl
    | some o =>
      exact h3 ["high_tension", "detector_azimuth", "detector_resolution", "instrument_id", "detector_elevation", "working_distance", "slow_peaking_time",
        "fast_peaking_time", "detector_surface_area"] (by decide +kernel) _ rfl
  · rw [if_neg h0]
    exact h3 ["high_tension", "detector_azimuth", "detector_resolution", "instrument_id", "detector_elevation", "slow_peaking_time", "fast_peaking_time",
      "optical_working_distance", "working_distance", "detector_surface_area", "detector_distance", "sample_tilt_angle"] (by decide +kernel) _ rfl

theorem table_keys (env : Env) (v : Nat) (e : Eds) (t : Text) (o : Option (ℚ × ℚ)) : ∀ kx ∈ edsTable env v e t o ++ timeTable env e, kx.1.toList ∈ edsKeys := by
  intro kx h
  rcases List.mem_append.1 h with h | h
  · exact (by decide +kernel : ∀ k ∈ ownKeys, k ∈ edsKeys) _ (own_keys env v e t o kx h)
  · rcases List.mem_cons.1 h with h | h
    · rw [h]; show "live_time".toList ∈ edsKeys; decide +kernel
    · rw [List.mem_singleton.1 h]; show "real_time".toList ∈ edsKeys; decide +kernel

theorem common_table (env : Env) (v : Nat) (c : Common) (t : Text) (o : Option (ℚ × ℚ)) :
    ∀ kx ∈ edsTable env v c.eds t o ++ timeTable env c.eds ++ commonTable env v c, getKw kx.1.toList (commonDict env v c t (oldList o)) = some kx.2 := by
  intro kx h
  rcases List.mem_append.1 h with h | h
  · have hk := table_keys env v c.eds t o kx h
    have := eds_table env v c.eds t o kx h
    refine common_eds ?_ this
    intro hm
    exact (by decide +kernel : ∀ k ∈ (["offset", "dispersion"] ++ restKeys).map String.toList, k ∉ edsKeys) _ (List.mem_map.2 ⟨_, hm, rfl⟩) hk
  · rw [(rest_table env v c).1] at h
    rcases List.mem_append.1 h with h | h
    · rcases List.mem_cons.1 h with h | h
      · rw [h]; exact common_offset env v c t _
      · rw [List.mem_singleton.1 h]; exact common_dispersion env v c t _
    · unfold commonDict
      refine update_hit (rest_nodup v c) ?_
      rw [← (rest_table env v c).2]
      exact mem_keyed h

end Verif.Lemmas.Phenom
