import Verif.Lemmas.Phenom
/-! Metadata of spectra in ELID files. -/
namespace Verif.Lemmas.Phenom
open Verif.Phenom
open Verif.Spec.Phenom (Eds Common listOf leb flag signed count Fits Fits32 Elements symbol oxideName family)

theorem symbol_all : ∀ z < 119, 1 ≤ z → elementSymbol z = .ok (Spec.Phenom.symbols.getD (z - 1) "").toList := by decide +kernel

theorem symbol_ok {z : UInt8} (h : 1 ≤ z.toNat ∧ z.toNat ≤ 118) : elementSymbol z.toNat = .ok (symbol z) :=
  symbol_all z.toNat (by omega) h.1

theorem family_all : ∀ z < 7, 1 ≤ z → familySymbol z = .ok ([["K"], ["L"], ["M"], ["N"], ["O"], ["P"]].flatten.getD (z - 1) "").toList := by decide +kernel

theorem family_ok {z : UInt8} (h : 1 ≤ z.toNat ∧ z.toNat ≤ 6) : familySymbol z.toNat = .ok (family z) :=
  family_all z.toNat (by omega) h.1

theorem mapM_symbols : ∀ {l : List UInt8}, (∀ z ∈ l, 1 ≤ z.toNat ∧ z.toNat ≤ 118) →
    (l.map UInt8.toNat).mapM elementSymbol = .ok (l.map symbol)
  | [], _ => rfl
  | z :: l, h => by
    rw [List.map_cons, List.mapM_cons, symbol_ok (h z List.mem_cons_self), mapM_symbols fun y hy => h y (List.mem_cons_of_mem _ hy)]
    rfl

theorem reads_elements {l : List UInt8} (h : Elements l) : Reads elementCollection (listOf (fun b => [b]) l) (l.map symbol) :=
  Reads.last (reads_list (enc := fun b : UInt8 => [b]) (val := UInt8.toNat) h.1 fun b _ => reads_u8 b) (Reads.lift (mapM_symbols h.2))

theorem reads_oxide {o : UInt8 × UInt8 × UInt8} (h : 1 ≤ o.1.toNat ∧ o.1.toNat ≤ 118) : Reads oxide [o.1, o.2.1, o.2.2] (oxideName o) :=
  Reads.bind (b1 := [o.1]) (reads_u8 o.1) (Reads.bind (b1 := [o.2.1]) (reads_u8 o.2.1) (Reads.last (reads_u8 o.2.2)
    (Reads.bind0 (Reads.lift (symbol_ok h)) (Reads.pure _))))

theorem reads_family {o : UInt8 × UInt8} (h : (1 ≤ o.1.toNat ∧ o.1.toNat ≤ 118) ∧ 1 ≤ o.2.toNat ∧ o.2.toNat ≤ 6) :
    Reads elementFamily [o.1, o.2] (symbol o.1, family o.2) :=
  Reads.bind (b1 := [o.1]) (reads_u8 o.1) (Reads.bind0 (Reads.lift (symbol_ok h.1)) (Reads.last (reads_u8 o.2)
    (Reads.bind0 (Reads.lift (family_ok h.2)) (Reads.pure _))))

/-- What files of version 0 leave to the metadata of the picture. -/
def Old (env : Env) (om : J) (g : List (Text × J)) : Prop :=
  (hasKey "workingDistance" om = .ok false ∧ g = []) ∨ (hasKey "workingDistance" om = .ok true ∧ oldMetadata env om = .ok g)

/-- The first entries. -/
def baseDict (env : Env) (v : Nat) (e : Eds) (t : Text) : List (Text × J) :=
  [("high_tension".toList, .num (env.f64 e.tension.toNat)),
    ("detector_elevation".toList, if (v : Int) = 0 then .radians (env.f64 e.elevation.toNat) else .num (env.f64 e.elevation.toNat)),
    ("detector_azimuth".toList, .num (env.f64 e.azimuth.toNat)), ("live_time".toList, .num (env.f64 e.live.toNat)),
    ("real_time".toList, .num (env.f64 e.real.toNat)), ("slow_peaking_time".toList, .num (env.f64 e.slow.toNat)),
    ("fast_peaking_time".toList, .num (env.f64 e.fast.toNat)), ("detector_resolution".toList, .num (env.f64 e.resolution.toNat)),
    ("instrument_id".toList, .str t)]

/-- The geometry. -/
def geometryList (env : Env) (v : Nat) (e : Eds) (g : List (Text × J)) : List (Text × J) :=
  if v = 0 then g
  else [("optical_working_distance".toList, .num (env.f64 e.optical.toNat)), ("working_distance".toList, .num (env.f64 e.distance.toNat)),
    ("detector_surface_area".toList, .num (env.f64 e.area.toNat)), ("detector_distance".toList, .num (env.f64 e.detector.toNat)),
    ("sample_tilt_angle".toList, .num (env.f64 e.tilt.toNat))]

/-- The detector. -/
def detectorList (env : Env) (v : Nat) (e : Eds) : List (Text × J) :=
  if 3 ≤ v then [("ccorrection".toList, .num (env.f64 e.correction.toNat)), ("detector_type".toList, .str (detectorName e.detectorType.toNat).toList),
      ("spectrum_correction".toList, .str (correctionName e.spectrumCorrection.toNat).toList)]
  else [("ccorrection".toList, .num 0), ("detector_type".toList, .str "FastSDD_C2".toList), ("spectrum_correction".toList, .str "unknown".toList)]

/-- Metadata of a spectrum. -/
def edsDict (env : Env) (v : Nat) (e : Eds) (t : Text) (g : List (Text × J)) : List (Text × J) :=
  update (update (baseDict env v e t) (geometryList env v e g)) (detectorList env v e)

theorem reads_geometry {env : Env} {v : Nat} {om : J} {e : Eds} {g d : List (Text × J)} (hg : v = 0 → Old env om g) :
    Reads (edsGeometry env v om d) (if 1 ≤ v then Spec.Phenom.float e.optical ++ Spec.Phenom.float e.distance ++ Spec.Phenom.float e.area ++
      Spec.Phenom.float e.detector ++ Spec.Phenom.float e.tilt else []) (update d (geometryList env v e g)) := by
  unfold edsGeometry geometryList
  by_cases h : v = 0
  · rw [if_pos (by omega), if_neg (by omega), if_pos h]
    rcases hg h with ⟨h1, h2⟩ | ⟨h1, h2⟩
    · refine Reads.bind0 (Reads.lift h1) ?_
      rw [h2]
      exact Reads.pure _
    · refine Reads.bind0 (Reads.lift h1) ?_
      exact Reads.bind0 (Reads.lift h2) (Reads.pure _)
  · rw [if_neg (by omega), if_pos (by omega), if_pos (by omega), if_neg h]
    simp only [List.append_assoc]
    exact Reads.bind (reads_f64 env _) (Reads.bind (reads_f64 env _) (Reads.bind (reads_f64 env _) (Reads.bind (reads_f64 env _)
      (Reads.last (reads_f64 env _) (Reads.pure _)))))

theorem reads_detector {env : Env} {v : Nat} {e : Eds} {d : List (Text × J)} :
    Reads (edsDetector env v d) (if 3 ≤ v then Spec.Phenom.float e.correction ++ [e.detectorType] ++ [e.spectrumCorrection] else [])
      (update d (detectorList env v e)) := by
  unfold edsDetector detectorList
  by_cases h : 3 ≤ v
  · rw [if_pos (by omega), if_pos h, if_pos h, List.append_assoc]
    exact Reads.bind (reads_f64 env _) (Reads.bind (reads_u8 _) (Reads.last (reads_u8 _) (Reads.pure _)))
  · rw [if_neg (by omega), if_neg h, if_neg h]
    exact Reads.pure _

theorem reads_eds {env : Env} {v : Nat} {om : J} {e : Eds} {t : Text} {g : List (Text × J)} (he : e.Ok) (hu : env.utf8 e.instrument = .ok t)
    (hg : v = 0 → Old env om g) : Reads (edsMetadata env v om) (Spec.Phenom.eds v e) (edsDict env v e t g) := by
  unfold Spec.Phenom.eds edsMetadata
  simp only [List.append_assoc]
  refine Reads.bind (reads_f64 env _) (Reads.bind (reads_f64 env _) (Reads.bind (reads_f64 env _) (Reads.bind (reads_f64 env _)
    (Reads.bind (reads_f64 env _) (Reads.bind (reads_f64 env _) (Reads.bind (reads_f64 env _) (Reads.bind (reads_f64 env _)
    (Reads.bind (reads_str he hu) ?_))))))))
  refine Reads.bind (a := update (baseDict env v e t) (geometryList env v e g)) ?_ ?_
  · have := reads_geometry (e := e) (d := baseDict env v e t) hg
    simp only [List.append_assoc] at this
    exact this
  · have := reads_detector (env := env) (v := v) (e := e) (d := update (baseDict env v e t) (geometryList env v e g))
    simp only [List.append_assoc] at this
    exact this

/-- What follows the metadata. -/
def restList (v : Nat) (c : Common) : List (Text × J) :=
  [("included_elements".toList, texts (c.included.map symbol)), ("excluded_elements".toList, texts (c.excluded.map symbol)),
    ("background_fit_bins".toList, .list (c.bins.map fun i => .num (i : Int))), ("selected_oxides".toList, texts (c.oxides.map oxideName)),
    ("auto_id".toList, .bool c.auto), ("order_nr".toList, .num c.order),
    ("family_overrides".toList, .list (c.families.map fun f => .list [.str (symbol f.1), .str (family f.2)])),
    ("drift_correction".toList, .str (if 2 ≤ v then driftName c.drift.toNat else "unknown").toList),
    ("ignored_elements".toList, texts (if 4 ≤ v then c.ignored.map symbol else []))]

theorem reads_bins {c : Common} (hc : c.Ok) : Reads i32s (listOf signed c.bins) c.bins := by
  have := reads_list (p := i32) (enc := signed) (val := fun x => x) hc.bins.1 fun i hi => reads_i32 (hc.bins.2 i hi)
  rw [map_id_fun] at this
  exact this

theorem reads_oxides {c : Common} (hc : c.Ok) : Reads oxides (listOf (fun o => [o.1, o.2.1, o.2.2]) c.oxides) (c.oxides.map oxideName) :=
  reads_list (p := oxide) (enc := fun o : UInt8 × UInt8 × UInt8 => [o.1, o.2.1, o.2.2]) (val := oxideName) hc.oxides.1 fun o ho => reads_oxide (hc.oxides.2 o ho)

theorem reads_families {c : Common} (hc : c.Ok) :
    Reads elementFamilies (listOf (fun o => [o.1, o.2]) c.families) (c.families.map fun o => (symbol o.1, family o.2)) :=
  reads_list (p := elementFamily) (enc := fun o : UInt8 × UInt8 => [o.1, o.2]) (val := fun o => (symbol o.1, family o.2)) hc.families.1
    fun o ho => reads_family (hc.families.2 o ho)

theorem reads_drift {v : Nat} (c : Common) : Reads (if (v : Int) ≥ 2 then do let n ← u8; pure (driftName n) else pure "unknown")
    (if 2 ≤ v then [c.drift] else []) (if 2 ≤ v then driftName c.drift.toNat else "unknown") := by
  by_cases h : 2 ≤ v
  · rw [if_pos h, if_pos h, if_pos (by omega)]
    exact Reads.last (reads_u8 _) (Reads.pure _)
  · rw [if_neg h, if_neg h, if_neg (by omega)]
    exact Reads.pure _

theorem reads_ignored {v : Nat} {c : Common} (hc : c.Ok) : Reads (if (v : Int) ≥ 4 then elementCollection else pure [])
    (if 4 ≤ v then listOf (fun b => [b]) c.ignored else []) (if 4 ≤ v then c.ignored.map symbol else []) := by
  by_cases h : 4 ≤ v
  · rw [if_pos h, if_pos h, if_pos (by omega)]
    exact reads_elements hc.ignored
  · rw [if_neg h, if_neg h, if_neg (by omega)]
    exact Reads.pure _

theorem reads_rest {v : Nat} {c : Common} (hc : c.Ok) {d : List (Text × J)} :
    Reads (commonRest v d) (listOf (fun b => [b]) c.included ++ listOf (fun b => [b]) c.excluded ++ listOf signed c.bins ++
  listOf (fun o => [o.1, o.2.1, o.2.2]) c.oxides ++ flag c.auto ++ signed c.order ++ listOf (fun o => [o.1, o.2]) c.families ++
  (if 2 ≤ v then [c.drift] else []) ++ (if 4 ≤ v then listOf (fun b => [b]) c.ignored else [])) (update d (restList v c)) := by
  unfold commonRest
  simp only [List.append_assoc]
  refine Reads.bind (reads_elements hc.included) (Reads.bind (reads_elements hc.excluded) (Reads.bind (reads_bins hc)
    (Reads.bind (reads_oxides hc) (Reads.bind (reads_bool _) (Reads.bind (reads_i32 hc.order) (Reads.bind (reads_families hc)
    (Reads.bind (reads_drift c) (Reads.last (reads_ignored hc) ?_))))))))
  unfold restList
  have e : (c.families.map fun o => (symbol o.1, family o.2)).map (fun f => J.list [.str f.1, .str f.2]) =
      c.families.map fun f => .list [.str (symbol f.1), .str (family f.2)] := List.map_map ..
  rw [e]
  exact Reads.pure _

end Verif.Lemmas.Phenom
