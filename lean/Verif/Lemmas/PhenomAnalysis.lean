import Verif.Lemmas.PhenomCommon
import Mathlib.Tactic.Linarith
import Mathlib.Tactic.FieldSimp
/-! Analyses in ELID files. -/
namespace Verif.Lemmas.Phenom
open Verif.Phenom
open Verif.Spec.Phenom (Eds Common Line Map Times At Frame Picture Cutout metres Fits listOf leb flag count ShowsSpectrum ShowsLine ShowsMap Energy Place)

theorem key_mem {l : List (Text × J)} {ks : List Text} (h : l.map Prod.fst = ks) {e : Text × J} (he : e ∈ l) : e.1 ∈ ks := by
  rw [← h]; exact List.mem_map.2 ⟨e, he, rfl⟩

theorem update_skip {k : Text} : ∀ {l d : List (Text × J)}, (∀ e ∈ l, e.1 ≠ k) → getKw k (update d l) = getKw k d
  | [], _, _ => rfl
  | e :: l, d, h => by
    show getKw k (update (setKw e.1 e.2 d) l) = _
    rw [update_skip fun x hx => h x (List.mem_cons_of_mem _ hx), getKw_setKw, if_neg fun hh => h e List.mem_cons_self hh.symm]

theorem update_hit {k : Text} {v : J} : ∀ {l d : List (Text × J)}, (l.map Prod.fst).Nodup → (k, v) ∈ l → getKw k (update d l) = some v
  | e :: l, d, hn, h => by
    rw [List.map_cons, List.nodup_cons] at hn
    show getKw k (update (setKw e.1 e.2 d) l) = _
    rcases List.mem_cons.1 h with h | h
    · subst h
      rw [update_skip fun x hx e => hn.1 (List.mem_map.2 ⟨x, hx, e⟩), getKw_setKw, if_pos rfl]
    · exact update_hit hn.2 h

theorem old_keys {env : Env} {om : J} {g : List (Text × J)} (h : Old env om g) :
    ∀ e ∈ g, e.1 ∈ ["working_distance".toList, "slow_peaking_time".toList, "fast_peaking_time".toList, "detector_surface_area".toList] := by
  rcases h with ⟨_, rfl⟩ | ⟨_, h⟩
  · exact fun e he => absurd he List.not_mem_nil
  · unfold oldMetadata at h
    simp only [bind, Except.bind] at h
    split at h
    · exact absurd h (by simp)
    split at h
    · exact absurd h (by simp)
    split at h
    · exact absurd h (by simp)
    split at h
    · exact absurd h (by simp)
    cases h
    exact fun e he => key_mem rfl he

theorem getIn_append : ∀ (p q : List String) (j : J), getIn (p ++ q) j = (do let c ← getIn p j; getIn q c)
  | [], q, j => rfl
  | k :: p, q, j => by
    show (do let c ← item k j; getIn (p ++ q) c) = (do let c ← (do let c ← item k j; getIn p c); getIn q c)
    cases item k j with
    | error e => rfl
    | ok c => exact getIn_append p q c

theorem edsItem_of {om : J} {D : List (Text × J)} {k : String} {v : J} (h : getIn edsPath om = .ok (.dict D)) (hk : getKw k.toList D = some v) :
    edsItem k om = .ok v := by
  unfold edsItem
  rw [getIn_append, h]
  show getIn [k] (.dict D) = _
  rw [getIn_one]
  exact item_of hk

theorem rest_keys (v : Nat) (c : Common) : (restList v c).map Prod.fst = ["included_elements".toList, "excluded_elements".toList,
    "background_fit_bins".toList, "selected_oxides".toList, "auto_id".toList, "order_nr".toList, "family_overrides".toList,
    "drift_correction".toList, "ignored_elements".toList] := rfl

theorem common_offset (env : Env) (v : Nat) (c : Common) (t : Text) (g : List (Text × J)) :
    getKw "offset".toList (commonDict env v c t g) = some (.num (env.f64 c.offset.toNat)) := by
  unfold commonDict
  rw [update_skip]
  · exact update_hit (by simp) (List.mem_cons_self)
  · intro e he hk
    have := key_mem (rest_keys v c) he
    rw [hk] at this
    exact absurd this (of_decide_eq_true rfl)

theorem common_dispersion (env : Env) (v : Nat) (c : Common) (t : Text) (g : List (Text × J)) :
    getKw "dispersion".toList (commonDict env v c t g) = some (.num (env.f64 c.dispersion.toNat)) := by
  unfold commonDict
  rw [update_skip]
  · exact update_hit (by simp) (List.mem_cons_of_mem _ List.mem_cons_self)
  · intro e he hk
    have := key_mem (rest_keys v c) he
    rw [hk] at this
    exact absurd this (of_decide_eq_true rfl)

theorem rest_nodup (v : Nat) (c : Common) : ((restList v c).map Prod.fst).Nodup := by
  rw [rest_keys]
  exact of_decide_eq_true rfl

theorem common_order (env : Env) (v : Nat) (c : Common) (t : Text) (g : List (Text × J)) :
    getKw "order_nr".toList (commonDict env v c t g) = some (.num c.order) := by
  unfold commonDict
  refine update_hit (rest_nodup v c) ?_
  unfold restList
  exact List.mem_cons_of_mem _ (List.mem_cons_of_mem _ (List.mem_cons_of_mem _ (List.mem_cons_of_mem _ (List.mem_cons_of_mem _ List.mem_cons_self))))

theorem detector_keys (env : Env) (v : Nat) (e : Eds) : (detectorList env v e).map Prod.fst =
    ["ccorrection".toList, "detector_type".toList, "spectrum_correction".toList] := by
  unfold detectorList
  split <;> rfl

/-- Keys of the geometry. -/
def geoKeys : List String := ["optical_working_distance", "working_distance", "detector_surface_area", "detector_distance",
      "sample_tilt_angle", "slow_peaking_time", "fast_peaking_time"]

theorem geo_old : ∀ k ∈ ["working_distance".toList, "slow_peaking_time".toList, "fast_peaking_time".toList, "detector_surface_area".toList],
    k ∈ geoKeys.map String.toList := of_decide_eq_true rfl

theorem geo_new : ∀ k ∈ ["optical_working_distance".toList, "working_distance".toList, "detector_surface_area".toList, "detector_distance".toList,
      "sample_tilt_angle".toList], k ∈ geoKeys.map String.toList := of_decide_eq_true rfl

theorem geometry_keys {env : Env} {v : Nat} {e : Eds} {om : J} {g : List (Text × J)} (hg : v = 0 → Old env om g) : ∀ x ∈ geometryList env v e g,
    x.1 ∈ geoKeys.map String.toList := by
  unfold geometryList
  split
  · rename_i h
    exact fun x hx => geo_old _ (old_keys (hg h) x hx)
  · exact fun x hx => geo_new _ (key_mem rfl hx)

theorem mem_texts {k : String} {l : List String} (h : k.toList ∈ l.map String.toList) : k ∈ l := by
  obtain ⟨x, hx, e⟩ := List.mem_map.1 h
  rw [← toList_inj.1 e]
  exact hx

theorem eds_base {env : Env} {v : Nat} {e : Eds} {t : Text} {om : J} {g : List (Text × J)} (hg : v = 0 → Old env om g) {k : String} {x : J}
    (hk : k ∉ ["ccorrection", "detector_type", "spectrum_correction"] ++ geoKeys) (hx : getKw k.toList (baseDict env v e t) = some x) :
    getKw k.toList (edsDict env v e t g) = some x := by
  unfold edsDict
  rw [update_skip, update_skip, hx]
  · intro y hy e
    have := geometry_keys hg y hy
    rw [e] at this
    exact hk (List.mem_append_right ["ccorrection", "detector_type", "spectrum_correction"] (mem_texts this))
  · intro y hy e
    have : y.1 ∈ (detectorList env v _).map Prod.fst := List.mem_map.2 ⟨y, hy, rfl⟩
    rw [detector_keys, e] at this
    exact hk (List.mem_append_left (as := ["ccorrection", "detector_type", "spectrum_correction"]) geoKeys (mem_texts this))

theorem eds_live {env : Env} {v : Nat} {e : Eds} {t : Text} {om : J} {g : List (Text × J)} (hg : v = 0 → Old env om g) :
    getKw "live_time".toList (edsDict env v e t g) = some (.num (env.f64 e.live.toNat)) :=
  eds_base hg (by decide) rfl

theorem eds_real {env : Env} {v : Nat} {e : Eds} {t : Text} {om : J} {g : List (Text × J)} (hg : v = 0 → Old env om g) :
    getKw "real_time".toList (edsDict env v e t g) = some (.num (env.f64 e.real.toNat)) :=
  eds_base hg (by decide) rfl

/-- Keys of the last entries. -/
def restKeys : List String := ["included_elements", "excluded_elements", "background_fit_bins", "selected_oxides", "auto_id", "order_nr",
      "family_overrides", "drift_correction", "ignored_elements"]

/-- Entries of the metadata that the common part does not change. -/
theorem common_eds {env : Env} {v : Nat} {c : Common} {t : Text} {g : List (Text × J)} {k : String} {x : J}
    (hk : k ∉ ["offset", "dispersion"] ++ restKeys) (h : getKw k.toList (edsDict env v c.eds t g) = some x) :
    getKw k.toList (commonDict env v c t g) = some x := by
  unfold commonDict
  rw [update_skip, update_skip, h]
  · intro y hy e
    have := key_mem (ks := ["offset".toList, "dispersion".toList]) rfl hy
    rw [e] at this
    exact hk (List.mem_append_left (as := ["offset", "dispersion"]) restKeys (mem_texts this))
  · intro y hy e
    have := key_mem (rest_keys v c) hy
    rw [e] at this
    exact hk (List.mem_append_right ["offset", "dispersion"] (mem_texts (l := restKeys) this))

theorem intText_eq (i : Int) : intText i = Spec.Phenom.intText i := by
  unfold intText Spec.Phenom.intText
  split
  · rw [show i.natAbs = (-i).toNat by omega]
  · rw [show i.natAbs = i.toNat by omega]

/-- Metadata in which the analyses find their place. -/
structure Ctx (am : J) (date : Option (Text × Text)) : Prop where
  det : ∃ d, getIn ["acquisition", "scan", "detectors"] am = .ok (.dict d)
  dict : ∃ d, am = .dict d
  date : dateTime am = .ok date

/-- Metadata of the picture with that of the spectrum. -/
structure Original (am eds r : J) : Prop where
  found : getIn edsPath r = .ok eds
  kept : ∀ p : List String, ¬ edsPath <+: p → ¬ p <+: edsPath → getIn p r = getIn p am

theorem original_ok {am eds : J} {date : Option (Text × Text)} (h : Ctx am date) :
    ∃ r, setIn edsPath eds am = .ok r ∧ Original am eds r ∧ dateTime r = .ok date := by
  obtain ⟨d, hd⟩ := h.det
  obtain ⟨da, rfl⟩ := h.dict
  obtain ⟨r, h1, h2, ⟨d', h3, _⟩, h4⟩ := setIn_ok (ks := ["acquisition", "scan", "detectors"]) (k := "EDS") (v := eds) hd
  exact ⟨r, h1, ⟨h2, h4⟩, by rw [← h.date]; exact dateTime_congr rfl h3 (h4 _ (by decide) (by decide))⟩

/-- Title with the number of the analysis. -/
def title (label : Text) (kind : String) (i : Int) : Text := label ++ ", ".toList ++ kind.toList ++ " ".toList ++ Spec.Phenom.intText i

theorem title_ok {env : Env} {v : Nat} {c : Common} {t : Text} {g : List (Text × J)} {om : J} {label : Text} {kind : String}
    (h : Cut env c (.dict (commonDict env v c t g)) om) : orderTitle label kind om = .ok (title label kind c.order) := by
  unfold orderTitle
  rw [edsItem_of h.found (common_order env v c t g)]
  simp only [bind, Except.bind, orderText, Rat.num_intCast, pure, Except.pure, intText_eq]
  rfl

theorem energy_ok (env : Env) (name : String) (i : Option Nat) (o d : UInt64) (n : Nat) :
    Energy env (energyAxis name i (env.f64 o.toNat) (env.f64 d.toNat) n) name o d n := by
  refine ⟨rfl, rfl, rfl, rfl, ?_, ?_⟩
  · show (1000 : ℚ) * (_ / 1000) = _
    ring
  · show (1000 : ℚ) * (_ / 1000) = _
    ring

theorem sumSignal_ok {env : Env} {v : Nat} {c : Common} {t : Text} {g : List (Text × J)} {om original : J} {ttl : Text} {date : Option (Text × Text)}
    (h : Cut env c (.dict (commonDict env v c t g)) om) (hd : dateTime original = .ok date) :
    ∃ s, sumSignal original om c.counts ttl = .ok s ∧ ShowsSpectrum env c ttl s ∧ s.original = original ∧ s.date = date := by
  refine ⟨⟨[c.counts.length], c.counts, [energyAxis "Energy" none (env.f64 c.offset.toNat) (env.f64 c.dispersion.toNat) c.counts.length], ttl,
      some "EDS_SEM".toList, date, original⟩, ?_,
    ⟨rfl, rfl, rfl, rfl, _, rfl, energy_ok env "Energy" none c.offset c.dispersion c.counts.length⟩, rfl, rfl⟩
  unfold sumSignal
  rw [edsItem_of h.found (common_offset env v c t g), edsItem_of h.found (common_dispersion env v c t g)]
  simp only [bind, Except.bind, asNum, spotSignal, hd]
  rfl

end Verif.Lemmas.Phenom
