import Verif.Model.PhenomMapping
import Verif.Props.Phenom
/-!
C166 (metadata of the instrument in Phenom files).
-/
namespace Verif.Props.PhenomMapping
open Verif Verif.Phenom Verif.PhenomMapping
open Verif.Spec.Phenom (Project Seen FileOk look edsAt Eds Analysis innerOf commonOf isConstructive)
open Verif.Props.Phenom (env file commonA imageA projectA seenA edsA file_a leaf node)

/-! ### Specification -/

/-- The metadata have this value. -/
def Has (m : List (Text × Val)) (d : String) (v : Val) : Prop := getKw d.toList m = some v

/-- The metadata have no value. -/
def Lacks (m : List (Text × Val)) (d : String) : Prop := getKw d.toList m = none

/-- A number, or a text that is a number. -/
inductive Number (env : Env) : J → ℚ → Prop
  | num (q : ℚ) : Number env (.num q) q
  | text (t : Text) (q : ℚ) : env.float t = .ok q → Number env (.str t) q

/-- A number at `src` is found at `dst`, multiplied. Without a value there is none. -/
def Scaled (env : Env) (om : J) (m : List (Text × Val)) (src : List String) (dst : String) (q : ℚ) : Prop :=
  (∀ j v, look src om = some j → Number env j v → Has m dst (.num (v * q))) ∧ (look src om = none → Lacks m dst)

/-- An angle at `src` is found at `dst` in degrees. -/
def Angle (env : Env) (om : J) (m : List (Text × Val)) (src : List String) (dst : String) : Prop :=
  (∀ j v, look src om = some j → Number env j v → Has m dst (.degrees v)) ∧ (∀ v, look src om = some (.radians v) → Has m dst (.num v)) ∧
    (look src om = none → Lacks m dst)

/-! ### Lemmas -/

theorem getKw_find {α : Type} (k : Text) : ∀ d : List (Text × α), getKw k d = (d.find? fun e => e.1 = k).map Prod.snd
  | [] => rfl
  | (k', v) :: d => by
    by_cases h : k' = k
    · simp [getKw, h]
    · simp [getKw, h, getKw_find k d]

theorem lookup_look : ∀ (p : List String) (j : J), lookup p j = look p j
  | [], j => rfl
  | k :: ks, .dict d => by
    show (match getKw k.toList d with | some v => lookup ks v | none => none) = (d.find? fun e => e.1 = k.toList).bind fun e => look ks e.2
    rw [getKw_find]
    cases (d.find? fun e => decide (e.1 = k.toList)) with
    | none => rfl
    | some e => exact lookup_look ks e.2
  | _ :: _, .none => rfl
  | _ :: _, .str _ => rfl
  | _ :: _, .num _ => rfl
  | _ :: _, .radians _ => rfl
  | _ :: _, .bool _ => rfl
  | _ :: _, .list _ => rfl

theorem float_number {env : Env} {j : J} {v : ℚ} (h : Number env j v) : toFloat env j = .ok v := by
  cases h with
  | num _ => rfl
  | text t _ h => exact h

theorem entry_other {env : Env} {om : J} {m m' : List (Text × Val)} {e : Entry} (h : applyEntry env om m e = .ok m') {d : Text} (hd : d ≠ e.dst.toList) :
    getKw d m' = getKw d m := by
  unfold applyEntry at h
  split at h
  · cases h
    rfl
  · split at h
    · cases h
    · cases h
      rw [getKw_setKw, if_neg hd]

theorem all_other {env : Env} {om : J} {d : Text} : ∀ {es : List Entry} {m m' : List (Text × Val)}, applyAll env om es m = .ok m' → (∀ e ∈ es, d ≠ e.dst.toList) →
    getKw d m' = getKw d m
  | [], m, m', h, _ => by
    cases h
    rfl
  | e :: es, m, m', h, hd => by
    unfold applyAll at h
    split at h
    · cases h
    · rename_i m1 h1
      rw [all_other h (fun e' he => hd e' (List.mem_cons_of_mem _ he)), entry_other h1 (hd e List.mem_cons_self)]

theorem all_split {env : Env} {om : J} : ∀ {a b : List Entry} {m m' : List (Text × Val)}, applyAll env om (a ++ b) m = .ok m' →
    ∃ m1, applyAll env om a m = .ok m1 ∧ applyAll env om b m1 = .ok m'
  | [], _, m, _, h => ⟨m, rfl, h⟩
  | e :: a, b, m, m', h => by
    rw [List.cons_append] at h
    unfold applyAll at h
    split at h
    · cases h
    · rename_i m1 h1
      obtain ⟨m2, h2, h3⟩ := all_split h
      refine ⟨m2, ?_, h3⟩
      unfold applyAll
      rw [h1]
      exact h2

theorem all_last {env : Env} {om : J} {es a b : List Entry} {e : Entry} {m m' : List (Text × Val)} (h : applyAll env om es m = .ok m') (he : es = a ++ e :: b)
    (hb : ∀ e' ∈ b, e.dst.toList ≠ e'.dst.toList) :
    (∀ j t, look e.src om = some j → convert env e.conv j = .ok t → getKw e.dst.toList m' = some t) ∧
      (look e.src om = none → ∃ m1, applyAll env om a m = .ok m1 ∧ getKw e.dst.toList m' = getKw e.dst.toList m1) := by
  subst he
  obtain ⟨m1, h1, h2⟩ := all_split h
  unfold applyAll at h2
  split at h2
  · cases h2
  · rename_i m2 h3
    rw [all_other h2 hb]
    unfold applyEntry at h3
    constructor
    · intro j t hj ht
      rw [lookup_look, hj] at h3
      dsimp only at h3
      rw [ht] at h3
      cases h3
      exact (getKw_setKw _ _ _ _).trans (if_pos rfl)
    · intro hn
      rw [lookup_look, hn] at h3
      cases h3
      exact ⟨m1, h1, rfl⟩

theorem all_ok {env : Env} {om : J} : ∀ (es : List Entry) (m : List (Text × Val)), (∀ e ∈ es, ∀ v, look e.src om = some v → ∃ t, convert env e.conv v = .ok t) →
    ∃ m', applyAll env om es m = .ok m'
  | [], m, _ => ⟨m, rfl⟩
  | e :: es, m, h => by
    have h1 : ∃ m1, applyEntry env om m e = .ok m1 := by
      unfold applyEntry
      rw [lookup_look]
      cases hl : look e.src om with
      | none => exact ⟨m, rfl⟩
      | some v =>
        obtain ⟨t, ht⟩ := h e List.mem_cons_self v hl
        dsimp only
        rw [ht]
        exact ⟨_, rfl⟩
    obtain ⟨m1, h1⟩ := h1
    unfold applyAll
    rw [h1]
    exact all_ok es m1 (fun e' he => h e' (List.mem_cons_of_mem _ he))

theorem only {env : Env} {om : J} {es a b : List Entry} {e : Entry} {m' : List (Text × Val)} (h : applyAll env om es [] = .ok m') (he : es = a ++ e :: b)
    (hb : ∀ e' ∈ a ++ b, e.dst.toList ≠ e'.dst.toList) :
    (∀ j t, look e.src om = some j → convert env e.conv j = .ok t → getKw e.dst.toList m' = some t) ∧ (look e.src om = none → getKw e.dst.toList m' = none) := by
  obtain ⟨h1, h2⟩ := all_last h he fun e' h => hb e' (List.mem_append_right _ h)
  refine ⟨h1, fun hn => ?_⟩
  obtain ⟨m1, h3, h4⟩ := h2 hn
  rw [h4, all_other h3 fun e' h => hb e' (List.mem_append_left _ h)]
  rfl

theorem scaled {env : Env} {s : Sig} {m : List (Text × Val)} (h : instrument env s = .ok m) (n : Nat) (src : List String) (dst : String) (q : ℚ)
    (he : semTable = semTable.take n ++ ⟨src, dst, .times q⟩ :: semTable.drop (n + 1)) (hd : ∀ e' ∈ semTable.take n ++ semTable.drop (n + 1), dst.toList ≠ e'.dst.toList) :
    Scaled env s.original m src dst q := by
  have := only (e := ⟨src, dst, .times q⟩) h he hd
  exact ⟨fun j v hj hv => this.1 j _ hj (by show (toFloat env j).map _ = _; rw [float_number hv]; rfl), this.2⟩

theorem plain {env : Env} {s : Sig} {m : List (Text × Val)} (h : instrument env s = .ok m) (n : Nat) (src : List String) (dst : String)
    (he : semTable = semTable.take n ++ ⟨src, dst, .number⟩ :: semTable.drop (n + 1)) (hd : ∀ e' ∈ semTable.take n ++ semTable.drop (n + 1), dst.toList ≠ e'.dst.toList) :
    Scaled env s.original m src dst 1 := by
  have := only (e := ⟨src, dst, .number⟩) h he hd
  exact ⟨fun j v hj hv => this.1 j _ hj (by show (toFloat env j).map _ = _; rw [float_number hv, mul_one]; rfl), this.2⟩

theorem angle {env : Env} {s : Sig} {m : List (Text × Val)} (h : instrument env s = .ok m) (n : Nat) (src : List String) (dst : String)
    (he : semTable = semTable.take n ++ ⟨src, dst, .degrees⟩ :: semTable.drop (n + 1)) (hd : ∀ e' ∈ semTable.take n ++ semTable.drop (n + 1), dst.toList ≠ e'.dst.toList) :
    Angle env s.original m src dst := by
  have := only (e := ⟨src, dst, .degrees⟩) h he hd
  refine ⟨fun j v hj hv => this.1 j _ hj ?_, fun v hv => this.1 _ _ hv rfl, this.2⟩
  have hf := float_number hv
  cases hv with
  | num _ => rfl
  | text t _ ht =>
    show (toFloat env (.str t)).map _ = _
    rw [hf]
    rfl

theorem apart (n : Nat) (dst : String) (h : ((semTable.take n ++ semTable.drop (n + 1)).all fun e => decide (dst.toList ≠ e.dst.toList)) = true) :
    ∀ e' ∈ semTable.take n ++ semTable.drop (n + 1), dst.toList ≠ e'.dst.toList :=
  fun e' he => of_decide_eq_true (List.all_eq_true.1 h e' he)

theorem later (n : Nat) (dst : String) (h : ((semTable.drop (n + 1)).all fun e => decide (dst.toList ≠ e.dst.toList)) = true) :
    ∀ e' ∈ semTable.drop (n + 1), dst.toList ≠ e'.dst.toList :=
  fun e' he => of_decide_eq_true (List.all_eq_true.1 h e' he)

theorem earlier (n : Nat) (dst : String) (h : ((semTable.take n).all fun e => decide (dst.toList ≠ e.dst.toList)) = true) :
    ∀ e' ∈ semTable.take n, dst.toList ≠ e'.dst.toList :=
  fun e' he => of_decide_eq_true (List.all_eq_true.1 h e' he)

/-! ### C166 -/

/-- C166: the angles of the detector and the tilt are in degrees, resolution and times are kept, positions of the stage and the working distance are in mm, and the
name of the microscope is kept. Values that the original metadata do not have are left out. -/
theorem C166_values {env : Env} {s : Sig} {m : List (Text × Val)} (h : instrument env s = .ok m) :
    Angle env s.original m (edsAt ++ ["detector_azimuth"]) "Acquisition_instrument.SEM.Detector.EDS.azimuth_angle" ∧
    Angle env s.original m (edsAt ++ ["detector_elevation"]) "Acquisition_instrument.SEM.Detector.EDS.elevation_angle" ∧
    Scaled env s.original m (edsAt ++ ["detector_resolution"]) "Acquisition_instrument.SEM.Detector.EDS.energy_resolution_MnKa" 1 ∧
    Scaled env s.original m (edsAt ++ ["live_time"]) "Acquisition_instrument.SEM.Detector.EDS.live_time" 1 ∧
    Scaled env s.original m (edsAt ++ ["real_time"]) "Acquisition_instrument.SEM.Detector.EDS.real_time" 1 ∧
    Scaled env s.original m ["samplePosition", "x"] "Acquisition_instrument.SEM.Stage.x" 1000 ∧
    Scaled env s.original m ["samplePosition", "y"] "Acquisition_instrument.SEM.Stage.y" 1000 ∧
    Angle env s.original m (edsAt ++ ["sample_tilt_angle"]) "Acquisition_instrument.SEM.Stage.tilt_alpha" ∧
    Scaled env s.original m (edsAt ++ ["working_distance"]) "Acquisition_instrument.SEM.working_distance" 1000 ∧
    (∀ j, look ["instrument", "uniqueID"] s.original = some j → Has m "Acquisition_instrument.SEM.microscope" (.kept j)) ∧
    (look ["instrument", "uniqueID"] s.original = none → Lacks m "Acquisition_instrument.SEM.microscope") := by
  have hm := only (e := ⟨["instrument", "uniqueID"], "Acquisition_instrument.SEM.microscope", .same⟩) h (a := semTable.take 7) (b := semTable.drop 8) rfl
    (apart 7 _ (by decide +kernel))
  exact ⟨angle h 0 _ _ rfl (apart 0 _ (by decide +kernel)), angle h 1 _ _ rfl (apart 1 _ (by decide +kernel)), plain h 2 _ _ rfl (apart 2 _ (by decide +kernel)),
    plain h 3 _ _ rfl (apart 3 _ (by decide +kernel)), plain h 4 _ _ rfl (apart 4 _ (by decide +kernel)), scaled h 8 _ _ _ rfl (apart 8 _ (by decide +kernel)),
    scaled h 9 _ _ _ rfl (apart 9 _ (by decide +kernel)), angle h 10 _ _ rfl (apart 10 _ (by decide +kernel)), scaled h 11 _ _ _ rfl (apart 11 _ (by decide +kernel)),
    fun j hj => hm.1 j _ hj rfl, hm.2⟩

/-- C166, energy of the beam in keV, partial: a high voltage of the picture that is stated in kV (negative) is used first, then the high tension of the spectrum in V.
Missing: other units (`C166_fails_unit`). -/
theorem C166_energy_partial {env : Env} {s : Sig} {m : List (Text × Val)} (h : instrument env s = .ok m) :
    (∀ j v, look ["acquisition", "scan", "highVoltage", "value"] s.original = some j → Number env j v → Has m "Acquisition_instrument.SEM.beam_energy" (.num (-v))) ∧
    (look ["acquisition", "scan", "highVoltage", "value"] s.original = none →
      Scaled env s.original m (edsAt ++ ["high_tension"]) "Acquisition_instrument.SEM.beam_energy" (1 / 1000)) := by
  have h6 := all_last (e := ⟨["acquisition", "scan", "highVoltage", "value"], "Acquisition_instrument.SEM.beam_energy", .times (-1)⟩) h
    (a := semTable.take 6) (b := semTable.drop 7) rfl (later 6 "Acquisition_instrument.SEM.beam_energy" (by decide +kernel))
  constructor
  · intro j v hj hv
    refine h6.1 j _ hj ?_
    show (toFloat env j).map _ = _
    rw [float_number hv, ← mul_neg_one v]
    rfl
  · intro hn
    obtain ⟨m1, h1, h2⟩ := h6.2 hn
    have h5 := only (e := ⟨edsAt ++ ["high_tension"], "Acquisition_instrument.SEM.beam_energy", .times (1 / 1000)⟩) h1 (a := semTable.take 5) (b := []) rfl
      (by rw [List.append_nil]; exact earlier 5 _ (by decide +kernel))
    unfold Scaled Has Lacks
    rw [h2]
    refine ⟨fun j v hj hv => h5.1 j _ hj ?_, h5.2⟩
    show (toFloat env j).map _ = _
    rw [float_number hv]
    rfl

/-- C166: nothing is raised when all values of the original metadata that are used are numbers, or texts that are numbers. -/
theorem C166_found {env : Env} {s : Sig}
    (ha : ∀ k ∈ ["detector_azimuth", "detector_elevation", "sample_tilt_angle"], ∀ j, look (edsAt ++ [k]) s.original = some j → ∃ v, Number env j v ∨ j = .radians v)
    (hn : ∀ p ∈ [edsAt ++ ["detector_resolution"], edsAt ++ ["live_time"], edsAt ++ ["real_time"], edsAt ++ ["high_tension"], edsAt ++ ["working_distance"],
      ["acquisition", "scan", "highVoltage", "value"], ["samplePosition", "x"], ["samplePosition", "y"]], ∀ j, look p s.original = some j → ∃ v, Number env j v) :
    ∃ m, instrument env s = .ok m := by
  refine all_ok semTable [] ?_
  have hd : ∀ k ∈ ["detector_azimuth", "detector_elevation", "sample_tilt_angle"], ∀ j, look (edsAt ++ [k]) s.original = some j → ∃ t, convert env .degrees j = .ok t := by
    intro k hk j hj
    obtain ⟨v, hv | hv⟩ := ha k hk j hj
    · cases hv with
      | num _ => exact ⟨_, rfl⟩
      | text t _ ht =>
        refine ⟨.degrees v, ?_⟩
        show (env.float t).map _ = _
        rw [ht]
        rfl
    · subst hv
      exact ⟨_, rfl⟩
  have hq : ∀ p ∈ [edsAt ++ ["detector_resolution"], edsAt ++ ["live_time"], edsAt ++ ["real_time"], edsAt ++ ["high_tension"], edsAt ++ ["working_distance"],
      ["acquisition", "scan", "highVoltage", "value"], ["samplePosition", "x"], ["samplePosition", "y"]], ∀ j, look p s.original = some j →
      (∃ t, convert env .number j = .ok t) ∧ ∀ q, ∃ t, convert env (.times q) j = .ok t := by
    intro p hp j hj
    obtain ⟨v, hv⟩ := hn p hp j hj
    have hf := float_number hv
    refine ⟨⟨.num v, ?_⟩, fun q => ⟨.num (v * q), ?_⟩⟩
    · show (toFloat env j).map _ = _
      rw [hf]
      rfl
    · show (toFloat env j).map _ = _
      rw [hf]
      rfl
  unfold semTable
  simp only [List.forall_mem_cons]
  exact ⟨hd _ (by simp), hd _ (by simp), fun j hj => (hq _ (by simp [edsAt]) j hj).1, fun j hj => (hq _ (by simp [edsAt]) j hj).1, fun j hj => (hq _ (by simp [edsAt]) j hj).1,
    fun j hj => (hq _ (by simp [edsAt]) j hj).2 _, fun j hj => (hq _ (by simp [edsAt]) j hj).2 _, fun j _ => ⟨_, rfl⟩, fun j hj => (hq _ (by simp [edsAt]) j hj).2 _,
    fun j hj => (hq _ (by simp [edsAt]) j hj).2 _, hd _ (by simp), fun j hj => (hq _ (by simp [edsAt]) j hj).2 _, fun _ h => absurd h List.not_mem_nil⟩

/-- What the metadata of the instrument say about a spectrum: angles in degrees (files of version 0 store the elevation in degrees), distances in mm, energies in keV. -/
def Shows (env : Env) (v : Nat) (a : Analysis) (s : Sig) : Prop :=
  ∀ m i j, instrument env s = .ok m → isConstructive a = false → env.utf8 (commonOf a).eds.instrument = .ok i → env.utf8 (innerOf a).instrument = .ok j →
    Has m "Acquisition_instrument.SEM.Detector.EDS.azimuth_angle" (.degrees (env.f64 (innerOf a).azimuth.toNat)) ∧
    Has m "Acquisition_instrument.SEM.Detector.EDS.elevation_angle"
      (if v = 0 then .num (env.f64 (innerOf a).elevation.toNat) else .degrees (env.f64 (innerOf a).elevation.toNat)) ∧
    Has m "Acquisition_instrument.SEM.Detector.EDS.energy_resolution_MnKa" (.num (env.f64 (innerOf a).resolution.toNat)) ∧
    Has m "Acquisition_instrument.SEM.Detector.EDS.live_time" (.num (env.f64 (commonOf a).eds.live.toNat)) ∧
    Has m "Acquisition_instrument.SEM.Detector.EDS.real_time" (.num (env.f64 (commonOf a).eds.real.toNat)) ∧
    (1 ≤ v → Has m "Acquisition_instrument.SEM.Stage.tilt_alpha" (.degrees (env.f64 (innerOf a).tilt.toNat)) ∧
      Has m "Acquisition_instrument.SEM.working_distance" (.num (env.f64 (innerOf a).distance.toNat * 1000))) ∧
    (look ["acquisition", "scan", "highVoltage", "value"] s.original = none →
      Has m "Acquisition_instrument.SEM.beam_energy" (.num (env.f64 (innerOf a).tension.toNat / 1000)))

theorem shows_analysis {env : Env} {v : Nat} {n : Seen} {a : Analysis} {s : Sig} (h : Spec.Phenom.AnalysisMetadata env v n a s) : Shows env v a s := by
  intro m i j hm hc hi hj
  have ht := h.1 i j hi hj
  have he : ∃ t o, ∀ kx ∈ Spec.Phenom.edsTable env v (innerOf a) t o ++ Spec.Phenom.timeTable env (commonOf a).eds, look (edsAt ++ [kx.1]) s.original = some kx.2 := by
    cases a with
    | constructive _ _ _ => cases hc
    | msa c => exact ⟨i, n.old, fun kx hk => ht kx (by unfold Spec.Phenom.tableOf; exact List.mem_append_left _ hk)⟩
    | spot c x y => exact ⟨i, n.old, fun kx hk => ht kx (by unfold Spec.Phenom.tableOf; exact List.mem_append_left _ (List.mem_append_left _ hk))⟩
    | line c l => exact ⟨j, n.old, fun kx hk => ht kx (by unfold Spec.Phenom.tableOf; exact List.mem_append_left _ hk)⟩
    | map c l => exact ⟨j, n.old, fun kx hk => ht kx (by unfold Spec.Phenom.tableOf; exact List.mem_append_left _ hk)⟩
    | difference c x y => exact ⟨i, n.old, fun kx hk => ht kx (by unfold Spec.Phenom.tableOf; exact List.mem_append_left _ hk)⟩
    | region c l u r b => exact ⟨i, n.old, fun kx hk => ht kx (by unfold Spec.Phenom.tableOf; exact List.mem_append_left _ (List.mem_append_left _ hk))⟩
  obtain ⟨t, o, he⟩ := he
  have hz := C166_values hm
  have hE := C166_energy_partial hm
  have one : ∀ {dst : String} {q : ℚ}, Has m dst (.num (q * 1)) → Has m dst (.num q) := fun h => by rwa [mul_one] at h
  refine ⟨hz.1.1 _ _ (he ("detector_azimuth", Spec.Phenom.num env (innerOf a).azimuth) (List.mem_append_left _ (List.mem_append_left _ (List.mem_append_left _ (.tail _ (.head _)))))) (.num _), ?_,
    one (hz.2.2.1.1 _ _ (he ("detector_resolution", Spec.Phenom.num env (innerOf a).resolution) (List.mem_append_left _ (List.mem_append_left _ (List.mem_append_left _ (.tail _ (.tail _ (.head _))))))) (.num _)),
    one (hz.2.2.2.1.1 _ _ (he ("live_time", Spec.Phenom.num env (commonOf a).eds.live) (List.mem_append_right _ (.head _))) (.num _)),
    one (hz.2.2.2.2.1.1 _ _ (he ("real_time", Spec.Phenom.num env (commonOf a).eds.real) (List.mem_append_right _ (.tail _ (.head _)))) (.num _)), fun hv => ?_, fun hn => ?_⟩
  · by_cases hv : v = 0
    · rw [if_pos hv]
      exact hz.2.1.2.1 _ (he ("detector_elevation", .radians (env.f64 (innerOf a).elevation.toNat)) (List.mem_append_left _ (List.mem_append_left _ (List.mem_append_right _ (by rw [if_pos hv]; exact .head _)))))
    · rw [if_neg hv]
      exact hz.2.1.1 _ _ (he ("detector_elevation", Spec.Phenom.num env (innerOf a).elevation) (List.mem_append_left _ (List.mem_append_left _ (List.mem_append_right _ (by rw [if_neg hv]; exact .head _))))) (.num _)
  · have hv : v ≠ 0 := by omega
    exact ⟨hz.2.2.2.2.2.2.2.1.1 _ _ (he ("sample_tilt_angle", Spec.Phenom.num env (innerOf a).tilt) (List.mem_append_left _ (List.mem_append_left _ (List.mem_append_right _ (by rw [if_neg hv]; exact .tail _ (.tail _ (.tail _ (.tail _ (.tail _ (.tail _ (.tail _ (.head _)))))))))))) (.num _),
      hz.2.2.2.2.2.2.2.2.1.1 _ _ (he ("working_distance", Spec.Phenom.num env (innerOf a).distance) (List.mem_append_left _ (List.mem_append_left _ (List.mem_append_right _ (by rw [if_neg hv]; exact .tail _ (.tail _ (.tail _ (.tail _ (.head _))))))))) (.num _)⟩
  · have := (hE.2 hn).1 _ _ (he ("high_tension", Spec.Phenom.num env (innerOf a).tension) (List.mem_append_left _ (List.mem_append_left _ (List.mem_append_left _ (.head _))))) (.num _)
    rwa [mul_one_div] at this

/-- C166: the metadata of the instrument of each analysis in a file are what the bytes of the file say. -/
theorem C166_file {env : Env} {v : Nat} {raw : List UInt8} {p : Project} {ns : List Seen} (h : FileOk env v raw p ns) :
    ∃ parts, Verif.Phenom.read env false raw = .ok parts.flatten ∧ List.Forall₂ (fun x part => ∃ s rest, part = s :: rest ∧
      List.Forall₂ (Shows env v) (x.1.analyses.filter fun a => !isConstructive a) rest) (p.images.zip ns) parts := by
  obtain ⟨parts, h1, h2⟩ := Verif.Props.Phenom.C109_metadata_partial h
  exact ⟨parts, h1, h2.imp fun _ _ ⟨s, rest, hp, _, h⟩ => ⟨s, rest, hp, h.imp fun _ _ h => shows_analysis h⟩⟩

/-! ### Examples -/

/-- Numbers of the metadata, as text. -/
def show_ : Option Val → Option ℚ
  | some (.num q) => some q
  | some (.degrees q) => some q
  | _ => none

/-- The hypotheses hold: the metadata of a spectrum of a file. -/
example : (do
    let l ← Verif.Phenom.read env false (file 4 projectA)
    match l[2]? with
    | some s => do
      let m ← instrument env s
      pure (["Detector.EDS.elevation_angle", "Detector.EDS.live_time", "beam_energy", "working_distance", "Stage.tilt_alpha"].map fun k =>
        show_ (getKw ("Acquisition_instrument.SEM." ++ k).toList m))
    | none => throw .indexError) = (.ok [some 45, some 10, some 15, some 5000, some 8] : Py (List (Option ℚ))) := by decide +kernel

/-- A signal with these metadata. -/
def sigOf (j : J) : Sig := { shape := [], data := [], axes := [], title := [], signalType := none, date := none, original := j }

/-- A picture that was taken with 15 kV, and the position of the stage. -/
def xmlWith (value unit : String) (x : Elem) : Elem :=
  node "FeiImage" [node "acquisition" [node "scan" [.mk "highVoltage".toList [("unit".toList, unit.toList)] (some value.toList) []]], node "samplePosition" [x]]

/-- Numbers in texts. -/
def envN : Env := { env with float := fun t => if t = "-15".toList then .ok (-15) else if t = "-15000".toList then .ok (-15000) else if t = "2".toList then .ok 2 else .error .valueError }

/-- The usual units. -/
example : ∃ j m, metadataDict (xmlWith "-15" "kV" (leaf "x" "2")) = .ok j ∧ instrument envN (sigOf j) = .ok m ∧ Has m "Acquisition_instrument.SEM.beam_energy" (.num 15) ∧
    Has m "Acquisition_instrument.SEM.Stage.x" (.num 2000) ∧ Lacks m "Acquisition_instrument.SEM.Stage.y" :=
  ⟨_, _, rfl, rfl, congrArg (some ∘ Val.num) (show (-15 : ℚ) * -1 = 15 by norm_num),
    congrArg (some ∘ Val.num) (show (2 : ℚ) * 1000 = 2000 by norm_num), rfl⟩

/-- C166 fails: the unit of the high voltage is ignored, and 15000 V become 15000 keV. -/
theorem C166_fails_unit : ∃ j m, metadataDict (xmlWith "-15000" "V" (leaf "x" "2")) = .ok j ∧ instrument envN (sigOf j) = .ok m ∧
    Has m "Acquisition_instrument.SEM.beam_energy" (.num 15000) :=
  ⟨_, _, rfl, rfl, congrArg (some ∘ Val.num) (show (-15000 : ℚ) * -1 = 15000 by norm_num)⟩

/-- C166 fails: a position of the stage with a unit raises a `TypeError` when the metadata are converted, as `float` is called with a dictionary. -/
theorem C166_fails_position : ∃ j, metadataDict (xmlWith "-15" "kV" (.mk "x".toList [("unit".toList, "mm".toList)] (some "2".toList) [])) = .ok j ∧
    (instrument envN (sigOf j)).map List.length = .error .typeError := ⟨_, rfl, rfl⟩

/-- C166 fails: so does an empty one. -/
theorem C166_fails_empty : ∃ j, metadataDict (xmlWith "-15" "kV" (.mk "x".toList [] none [])) = .ok j ∧
    (instrument envN (sigOf j)).map List.length = .error .typeError := ⟨_, rfl, rfl⟩

end Verif.Props.PhenomMapping
