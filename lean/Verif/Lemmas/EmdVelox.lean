import Verif.Spec.EmdVelox
import Mathlib.Tactic.FieldSimp
import Mathlib.Tactic.Ring
/-!
Lemmas about `Model/EmdVelox.lean`: finding values, calibration, dates.
-/
namespace Verif.EmdVelox
open Verif Verif.Spec.EmdVelox

/-! ### Finding values -/

theorem entry_eq {α : Type} (k : Text) : ∀ d : List (Text × α), entry k d = getKw k d
  | [] => rfl
  | (k', v) :: d => by
    have ih := entry_eq k d
    unfold entry at ih ⊢
    unfold getKw
    by_cases h : k' = k
    · simp [h]
    · have h' : ¬ k = k' := fun e => h e.symm
      simp [h, h', ih]

theorem look_dict {k : Text} {ks : List Text} {d : Dict} {j : J} (h : look (k :: ks) (.dict d) = some j) :
    ∃ v, getKw k d = some v ∧ look ks v = some j := by
  unfold look at h
  rw [entry_eq] at h
  cases hg : getKw k d with
  | none => simp [hg] at h
  | some v => exact ⟨v, rfl, by simpa [hg] using h⟩

theorem look_cons {k : Text} {ks : List Text} {v j : J} (h : look (k :: ks) v = some j) :
    ∃ d w, v = .dict d ∧ getKw k d = some w ∧ look ks w = some j := by
  cases v with
  | dict d =>
    obtain ⟨w, h1, h2⟩ := look_dict h
    exact ⟨d, w, rfl, h1, h2⟩
  | _ => simp [look] at h

theorem get_look {k : Text} {ks : List Text} {v j : J} (h : look (k :: ks) v = some j) :
    ∃ w, v.get k = .ok w ∧ look ks w = some j := by
  obtain ⟨d, w, rfl, h1, h2⟩ := look_cons h
  exact ⟨w, by simp [J.get, h1], h2⟩

theorem get_look1 {k : Text} {v j : J} (h : look [k] v = some j) : v.get k = .ok j := by
  obtain ⟨w, h1, h2⟩ := get_look h
  simp only [look, Option.some.injEq] at h2
  rw [h1, h2]

theorem sub_look {k : Text} {ks : List Text} {d : Dict} {j : J} (h : look (k :: ks) (.dict d) = some j) :
    ∃ w, sub k d = .ok w ∧ look ks w = some j := by
  obtain ⟨w, h1, h2⟩ := look_dict h
  exact ⟨w, by simp [sub, h1], h2⟩

theorem sub_look1 {k : Text} {d : Dict} {j : J} (h : look [k] (.dict d) = some j) : sub k d = .ok j := by
  obtain ⟨w, h1, h2⟩ := sub_look h
  simp only [look, Option.some.injEq] at h2
  rw [h1, h2]

/-- `j.get(k)` for something at a path. -/
theorem opt_look {k : Text} {d : Dict} : (J.dict d).opt k = .ok (look [k] (.dict d)) := by
  simp only [J.opt, look, entry_eq]
  cases getKw k d <;> rfl

theorem has_look {k : Text} {d : Dict} : (J.dict d).has k = .ok (look [k] (.dict d)).isSome := by
  unfold J.has
  rw [opt_look]
  rfl

theorem has_key {k : Text} {d : Dict} {v : J} (h : getKw k d = some v) : (J.dict d).has k = .ok true := by
  simp [J.has, J.opt, h, bind, Except.bind, pure, Except.pure]

theorem get_key {k : Text} {d : Dict} {v : J} (h : getKw k d = some v) : (J.dict d).get k = .ok v := by
  simp [J.get, h]

theorem get_dict {k : Text} {j v : J} (h : j.get k = .ok v) : ∃ d w, j = .dict d ∧ getKw k d = some w ∧ w = v := by
  cases j with
  | dict d =>
    simp only [J.get] at h
    cases hg : getKw k d with
    | none => simp [hg] at h
    | some w =>
      simp only [hg] at h
      exact ⟨d, w, rfl, hg, Except.ok.inj h⟩
  | _ => simp [J.get] at h

theorem value_none {k : String} {d : Dict} (h : value [k] d = none) : getKw k.toList d = none := by
  unfold value at h
  simp only [List.map_cons, List.map_nil, look, entry_eq] at h
  cases hg : getKw k.toList d with
  | none => rfl
  | some v =>
    rw [hg] at h
    cases h

theorem look_two {a b : Text} {d e : Dict} (h : look [a] (.dict d) = some (.dict e)) :
    look [a, b] (.dict d) = look [b] (.dict e) := by
  obtain ⟨w, h1, h2⟩ := look_dict h
  simp only [look, Option.some.injEq] at h2
  subst h2
  conv => lhs; unfold look
  rw [entry_eq, h1]
  rfl

theorem look_append {a : Text} {ks : List Text} {d : Dict} {v : J} (h : look [a] (.dict d) = some v) :
    look (a :: ks) (.dict d) = look ks v := by
  obtain ⟨w, h1, h2⟩ := look_dict h
  simp only [look, Option.some.injEq] at h2
  subst h2
  conv => lhs; unfold look
  rw [entry_eq, h1]
  rfl

theorem value_eq {k : String} {ks : List String} {om d : Dict} (h : getKw k.toList om = getKw k.toList d) :
    value (k :: ks) om = value (k :: ks) d := by
  unfold value
  simp only [List.map_cons]
  unfold look
  rw [entry_eq, entry_eq, h]

theorem look_eq {k : Text} {ks : List Text} {om d : Dict} (h : getKw k om = getKw k d) :
    look (k :: ks) (.dict om) = look (k :: ks) (.dict d) := by
  unfold look
  rw [entry_eq, entry_eq, h]

/-- A dictionary at a path of one name. -/
theorem isDict_sub {k : String} {d : Dict} (h : IsDict d [k]) : ∃ e, sub k.toList d = .ok (.dict e) := by
  obtain ⟨e, he⟩ := h
  exact ⟨e, sub_look1 he⟩

/-! ### Merging the metadata -/

theorem getKw_update {k : Text} : ∀ (e d : Dict), (e.map Prod.fst).Nodup →
    getKw k (update d e) = (getKw k e).or (getKw k d)
  | [], d, _ => by simp [update, getKw]
  | (k', v) :: e, d, h => by
    simp only [List.map_cons, List.nodup_cons] at h
    have ih := getKw_update (k := k) e (setKw k' v d) h.2
    have hu : update d ((k', v) :: e) = update (setKw k' v d) e := rfl
    rw [hu, ih, getKw_setKw]
    by_cases hk : k = k'
    · subst hk
      have : getKw k e = none := getKw_none h.1
      simp [getKw, this]
    · have hk' : ¬ k' = k := fun e => hk e.symm
      simp [getKw, hk, hk']

theorem groups_nodup (f : File) : ((parseGroups f).map Prod.fst).Nodup := by
  have hs : ∀ l : List String, (l.map String.toList).Nodup →
      ((l.filterMap fun k => (getKw k.toList f.groups).map fun g => (k.toList, J.dict (parseGroup g))).map Prod.fst).Nodup ∧
      ∀ x ∈ ((l.filterMap fun k => (getKw k.toList f.groups).map fun g => (k.toList, J.dict (parseGroup g))).map Prod.fst),
        x ∈ l.map String.toList := by
    intro l
    induction l with
    | nil => intro _; simp
    | cons a l ih =>
      intro h
      simp only [List.map_cons, List.nodup_cons] at h
      obtain ⟨i1, i2⟩ := ih h.2
      simp only [List.filterMap_cons]
      cases hg : getKw a.toList f.groups with
      | none =>
        simp only [Option.map_none]
        exact ⟨i1, fun x hx => List.mem_cons_of_mem _ (i2 x hx)⟩
      | some g =>
        simp only [Option.map_some, List.map_cons, List.nodup_cons]
        refine ⟨⟨fun hm => h.1 (i2 _ hm), i1⟩, ?_⟩
        intro x hx
        rcases List.mem_cons.1 hx with rfl | hx
        · exact List.mem_cons_self ..
        · exact List.mem_cons_of_mem _ (i2 x hx)
  exact (hs _ (by decide)).1

theorem parseEntries_some : ∀ e : Dict, parseEntries (e.map fun p => (p.1, some p.2)) = some e
  | [] => rfl
  | (k, v) :: e => by simp [parseEntries, parseEntries_some e]

theorem parseGroup_readable {g : List (Text × Node)} {d : Dict} (h : Readable g d) : parseGroup g = d := by
  induction h with
  | nil => rfl
  | dset k j _ ih => simp [parseGroup, ih]
  | group k e _ ih => simp [parseGroup, parseEntries_some, ih]

theorem getKw_filterMap (f : File) (k : Text) : ∀ l : List String, (l.map String.toList).Nodup →
    getKw k (l.filterMap fun k => (getKw k.toList f.groups).map fun g => (k.toList, J.dict (parseGroup g))) =
      if k ∈ l.map String.toList then (getKw k f.groups).map fun g => J.dict (parseGroup g) else none
  | [], _ => by simp [getKw]
  | a :: l, h => by
    simp only [List.map_cons, List.nodup_cons] at h
    have ih := getKw_filterMap f k l h.2
    simp only [List.filterMap_cons, List.map_cons, List.mem_cons]
    cases hg : getKw a.toList f.groups with
    | none =>
      simp only [Option.map_none]
      rw [ih]
      by_cases hk : k = a.toList
      · subst hk
        rw [if_neg h.1, if_pos (Or.inl rfl), hg]
        rfl
      · simp [hk]
    | some g =>
      simp only [Option.map_some, getKw]
      by_cases hk : k = a.toList
      · subst hk
        simp [hg]
      · have hk' : ¬ a.toList = k := fun e => hk e.symm
        simp [hk, hk', ih]

theorem getKw_groups {f : File} {groups : Text → Option J} (h : GroupsOf f groups) (k : Text) :
    getKw k (parseGroups f) = groups k := by
  have h0 : parseGroups f = groupNames.filterMap fun k =>
      (getKw k.toList f.groups).map fun g => (k.toList, J.dict (parseGroup g)) := rfl
  rw [h0, getKw_filterMap f k groupNames (by decide)]
  have hk := h k
  rw [entry_eq] at hk
  cases hg : getKw k f.groups with
  | none =>
    simp only [hg] at hk
    simp [hk]
  | some g =>
    simp only [hg] at hk
    by_cases hm : k ∈ groupNames.map String.toList
    · rw [if_pos hm] at hk ⊢
      obtain ⟨d, hr, ho⟩ := hk
      rw [ho, Option.map_some, parseGroup_readable hr]
    · rw [if_neg hm] at hk ⊢
      exact hk.symm

theorem groups_none {f : File} {groups : Text → Option J} (h : GroupsOf f groups) {k : Text}
    (hk : k ∉ groupNames.map String.toList) : groups k = none := by
  have := h k
  rw [entry_eq] at this
  cases hg : getKw k f.groups with
  | none => simpa [hg] using this
  | some g =>
    simp only [hg] at this
    rwa [if_neg hk] at this

/-- The original metadata agree with those of the dataset outside the groups of the file. -/
theorem getKw_merged {f : File} {groups : Text → Option J} (h : GroupsOf f groups) {k : Text} (d : Dict)
    (hk : k ∉ groupNames.map String.toList) : getKw k (update d (parseGroups f)) = getKw k d := by
  rw [getKw_update _ _ (groups_nodup f), getKw_groups h, groups_none h hk]
  rfl

/-- Metadata that agree where the reader looks. -/
def Agree (om d : Dict) : Prop :=
  getKw "BinaryResult".toList om = getKw "BinaryResult".toList d ∧ getKw "Detectors".toList om = getKw "Detectors".toList d ∧
  getKw "Scan".toList om = getKw "Scan".toList d ∧ getKw "Acquisition".toList om = getKw "Acquisition".toList d ∧
  getKw "CustomProperties".toList om = getKw "CustomProperties".toList d

theorem agree_merged {f : File} {groups : Text → Option J} (h : GroupsOf f groups) (d : Dict) :
    Agree (update d (parseGroups f)) d :=
  ⟨getKw_merged h d (by decide), getKw_merged h d (by decide), getKw_merged h d (by decide),
    getKw_merged h d (by decide), getKw_merged h d (by decide)⟩

section
variable {om d : Dict} (h : Agree om d)
include h

theorem pixelOf_agree {env : Env} {p : Pixel} : PixelOf env om p ↔ PixelOf env d p := by
  simp only [PixelOf, IsDict, Num, value_eq h.1]

theorem pixelGiven_agree {env : Env} {p : Pixel} : PixelGiven env om p ↔ PixelGiven env d p := by
  simp only [PixelGiven, Num, value_eq h.1]

theorem frameTime_agree {env : Env} {q : ℚ} : FrameTime env om q ↔ FrameTime env d q := by
  simp only [FrameTime, Num, IsDict, value_eq h.1, value_eq h.2.2.1, look_eq h.2.1]

theorem detectorList_agree {ds : List (Text × Dict × Text)} : DetectorList om ds ↔ DetectorList d ds := by
  simp only [DetectorList, value_eq h.2.1]

theorem energyOf_agree {env : Env} {a b : ℚ} : EnergyOf env om a b ↔ EnergyOf env d a b := by
  simp only [EnergyOf, value_eq h.1, detectorList_agree h]

theorem stamp_agree {env : Env} {r : Option ℚ} : Stamp env om r ↔ Stamp env d r := by
  cases r <;> simp only [Stamp, Num, IsDict, value_eq h.2.2.2.1, value_eq h.2.2.2.2]

theorem dateOf_agree {env : Env} {r : Option (Text × Text × Text)} : DateOf env om r ↔ DateOf env d r := by
  simp only [DateOf, stamp_agree h]

theorem detectorOf_agree {env : Env} {r : Option J} : DetectorOf env om r ↔ DetectorOf env d r := by
  cases r <;> simp only [DetectorOf, IsDict, value_eq h.1, look_eq h.2.1]

theorem scan_agree {env : Env} {q : ℚ} : Num env om ["Scan", "FrameTime"] q ↔ Num env d ["Scan", "FrameTime"] q := by
  simp only [Num, value_eq h.2.2.1]
end

/-! ### Units -/

theorem convertScale_ok {env : Env} {v : J} {q : ℚ} {u u' : Text} {r : ℚ} {n : Nat} (hv : env.float v = .ok q)
    (hu : env.compact ((n : ℚ) / 2 * q) u = .ok u') (hr : env.ratio u u' = .ok r) (hn : n ≠ 0) :
    convertScale env v u n = .ok (q * r, u') := by
  have hn' : (n : ℚ) / 2 ≠ 0 := by
    have : (n : ℚ) ≠ 0 := by exact_mod_cast hn
    simpa using this
  unfold convertScale
  simp only [bind, Except.bind, hv, hu, hr, if_neg hn', pure, Except.pure]
  congr 2
  have : (n : ℚ) ≠ 0 := by exact_mod_cast hn
  field_simp

theorem convertUnits_ok {env : Env} {q : ℚ} {u u' : Text} {r : ℚ} (hr : env.ratio u u' = .ok r) :
    convertUnits env q u u' = .ok (q * r) := by
  simp [convertUnits, hr, bind, Except.bind, pure, Except.pure]

/-- A number at a path below a dictionary. -/
theorem num_three {env : Env} {d : Dict} {a b c : String} {q : ℚ} (h : Num env d [a, b, c] q) :
    ∃ x y z, sub a.toList d = .ok x ∧ x.get b.toList = .ok y ∧ y.get c.toList = .ok z ∧ env.float z = .ok q ∧
      value [a] d = some x ∧ value [a, b] d = some y := by
  obtain ⟨j, hj, hf⟩ := h
  unfold value at hj
  simp only [List.map_cons, List.map_nil] at hj
  obtain ⟨x, h1, h2⟩ := sub_look hj
  obtain ⟨y, h3, h4⟩ := get_look h2
  have h5 := get_look1 h4
  have g1 : value [a] d = some x := by
    obtain ⟨w, e1, e2⟩ := look_dict hj
    have : w = x := by
      simp only [sub, e1] at h1
      exact Except.ok.inj h1
    subst this
    simp [value, look, entry_eq, e1]
  refine ⟨x, y, j, h1, h3, h5, hf, g1, ?_⟩
  have : value [a, b] d = look [b.toList] x := by
    unfold value at g1 ⊢
    simp only [List.map_cons, List.map_nil] at g1 ⊢
    exact look_append g1
  rw [this]
  obtain ⟨e, w, rfl, e1, e2⟩ := look_cons h2
  simp only [J.get, e1] at h3
  cases h3
  simp [look, entry_eq, e1]

/-! ### Frame times and energies -/

theorem frameTime_ok {env : Env} {om : Dict} {q : ℚ} (h : FrameTime env om q) :
    ∃ j, frameTime env om = .ok j ∧ env.float j = .ok q := by
  rcases h with ⟨j, hj, hf⟩ | ⟨⟨e, he⟩, hn, i, hi, j, hj, hf⟩
  · refine ⟨j, ?_, hf⟩
    obtain ⟨w, h1, h2⟩ := sub_look hj
    obtain ⟨e, w', rfl, h3, h4⟩ := look_cons h2
    have h5 : w' = j := Option.some.inj h4
    subst h5
    simp only [frameTime, h1, J.opt, h3, bind, Except.bind, pure, Except.pure]
  · refine ⟨j, ?_, hf⟩
    have h1 := sub_look1 he
    have hn' : look ["FrameTime".toList] (.dict e) = none := by
      rw [← hn]
      exact (look_two he).symm
    obtain ⟨w, h2, h3⟩ := sub_look hi
    have h3' := get_look1 h3
    obtain ⟨w2, h4, h5⟩ := sub_look hj
    obtain ⟨w3, h6, h7⟩ := get_look h5
    have h7' := get_look1 h7
    unfold frameTime
    simp only [h1, bind, Except.bind]
    rw [opt_look, hn']
    simp only [h2, h3', h4, h6, h7']

theorem inJ_str {k t : Text} : inJ (.str k) (.str t) = .ok (decide (k <:+: t)) := rfl

theorem dispersionLoop_ok {env : Env} {om : Dict} {rebin : Nat} {name : Text} {disp off : ℚ}
    (hn : value ["BinaryResult", "Detector"] om = some (.str name)) {e : Text × Dict × Text} {post : List (Text × Dict × Text)}
    (he : name <:+: e.2.2) (hd : Num env e.2.1 ["Dispersion"] disp) (ho : Num env e.2.1 ["OffsetEnergy"] off)
    (hen : value ["DetectorName"] e.2.1 = some (.str e.2.2)) :
    ∀ pre : List (Text × Dict × Text), (∀ p ∈ pre, ¬ name <:+: p.2.2) →
      (∀ p ∈ pre, value ["DetectorName"] p.2.1 = some (.str p.2.2)) →
      dispersionLoop env rebin om ((pre ++ e :: post).map fun p => (p.1, J.dict p.2.1)) =
        .ok (some (disp / 1000 * rebin, off / 1000)) := by
  obtain ⟨w, h1, h2⟩ := sub_look hn
  have h3 := get_look1 h2
  intro pre
  induction pre with
  | nil =>
    intro _ _
    obtain ⟨j1, a1, a2⟩ := hd
    obtain ⟨j2, b1, b2⟩ := ho
    simp only [List.nil_append, List.map_cons, dispersionLoop, h1, bind, Except.bind, h3, get_look1 hen, inJ_str,
      get_look1 a1, get_look1 b1, a2, b2, pure, Except.pure, decide_eq_true he, if_true]
  | cons p pre ih =>
    intro hp hp'
    have hname := hp' p (List.mem_cons_self ..)
    have hno := hp p (List.mem_cons_self ..)
    have ih' := ih (fun q hq => hp q (List.mem_cons_of_mem _ hq)) (fun q hq => hp' q (List.mem_cons_of_mem _ hq))
    simp only [List.cons_append, List.map_cons, dispersionLoop, h1, bind, Except.bind, h3, get_look1 hname, inJ_str,
      decide_eq_false hno]
    simpa using ih'

theorem dispersion_ok {env : Env} {om : Dict} {rebin : Nat} {disp off : ℚ} (h : EnergyOf env om disp off) :
    dispersion env rebin om = .ok (.num (disp / 1000 * rebin), .num (off / 1000), some "keV".toList) := by
  obtain ⟨name, ds, pre, e, post, hn, ⟨hds, hnames⟩, rfl, hpre, he, hd, ho⟩ := h
  have h1 := sub_look1 hds
  have h2 := dispersionLoop_ok (rebin := rebin) (post := post) hn he hd ho (hnames e (by simp)) pre hpre
    (fun p hp => hnames p (by simp [hp]))
  unfold dispersion
  simp only [h1, bind, Except.bind, J.items, h2]

/-! ### Dates -/

theorem unixTime_ok {env : Env} {om : Dict} {r : Option ℚ} (h : Stamp env om r) : unixTime env om = .ok r := by
  cases r with
  | some q =>
    rcases h with ⟨j, hj, hf⟩ | ⟨⟨e, he⟩, hn, v, hv, rfl⟩
    · obtain ⟨w, h1, h2⟩ := sub_look hj
      obtain ⟨e, w', rfl, h3, h4⟩ := look_cons h2
      have h5 := get_look1 h4
      have hh := has_key h3
      have hg := get_key h3
      unfold unixTime
      simp only [h1, bind, Except.bind, hh, hg, if_true, h5, hf, pure, Except.pure]
    · have h1 := sub_look1 he
      obtain ⟨x, y, z, g1, g2, g3, g4, _, _⟩ := num_three hv
      have hn' : look ["AcquisitionStartDatetime".toList] (.dict e) = none := by
        rw [← hn]; exact (look_two he).symm
      obtain ⟨e', w', rfl, k1, k2⟩ := get_dict g2
      have hh := has_key k1
      unfold unixTime
      simp only [h1, bind, Except.bind]
      rw [has_look, hn']
      simp only [Option.isSome_none, Bool.false_eq_true, if_false, g1, hh, if_true, g2, g3, g4, pure, Except.pure]
  | none =>
    obtain ⟨⟨e, he⟩, hn, hc⟩ := h
    have h1 := sub_look1 he
    have hn' : look ["AcquisitionStartDatetime".toList] (.dict e) = none := by
      rw [← hn]; exact (look_two he).symm
    unfold unixTime
    simp only [h1, bind, Except.bind]
    rw [has_look, hn']
    simp only [Option.isSome_none, Bool.false_eq_true, if_false]
    rcases hc with ⟨t, ht⟩ | ⟨⟨e', he'⟩, hn2⟩
    · have h2 := sub_look1 ht
      simp only [h2, pure, Except.pure]
    · have h2 := sub_look1 he'
      have hn2' : look ["Detectors[BM-Ceta].TimeStamp".toList] (.dict e') = none := by
        rw [← hn2]; exact (look_two he').symm
      simp only [h2]
      rw [has_look, hn2']
      simp [pure, Except.pure]

theorem dateTime_ok {env : Env} {q : ℚ} {date time rest : Text} (h : env.iso q = date ++ 'T' :: time ++ rest)
    (h1 : 'T' ∉ date) (h2 : '+' ∉ date) (h3 : 'T' ∉ time) (h4 : '+' ∉ time) (h5 : rest = [] ∨ ∃ z, rest = '+' :: z) :
    dateTime env q = .ok (date, time, env.zone) := by
  have hp : '+' ∉ date ++ 'T' :: time := by
    simp only [List.mem_append, List.mem_cons, not_or]
    exact ⟨h2, by decide, h4⟩
  have hs : (splitChar '+' (env.iso q)).headD [] = date ++ 'T' :: time := by
    rw [h]
    rcases h5 with rfl | ⟨z, rfl⟩
    · rw [List.append_nil, splitChar_none hp]
      rfl
    · rw [splitChar_append hp]
      rfl
  unfold dateTime
  rw [hs, splitChar_append h1, splitChar_none h3]

theorem baseName_ok {path base : Text} (h : IsBase path base) : baseName path = base := by
  obtain ⟨hb, rfl | ⟨d, rfl⟩⟩ := h
  · simp [baseName, splitChar_none hb]
  · have : ∀ d : Text, (splitChar '/' (d ++ '/' :: base)).getLastD [] = base := by
      intro d
      induction d with
      | nil =>
        have := splitChar_append (c := '/') (s := []) (t := base) (by simp)
        simp only [List.nil_append] at this ⊢
        rw [this, splitChar_none hb]
        rfl
      | cons c d ih =>
        have hne := splitChar_ne_nil '/' (d ++ '/' :: base)
        have hlen : 1 < (splitChar '/' (d ++ '/' :: base)).length := by
          clear ih
          clear hne
          induction d with
          | nil =>
            have := splitChar_append (c := '/') (s := []) (t := base) (by simp)
            simp only [List.nil_append] at this ⊢
            rw [this, splitChar_none hb]
            simp
          | cons c' d ih2 =>
            simp only [List.cons_append]
            conv => rhs; unfold splitChar
            split
            · simp
              omega
            · cases hsp : splitChar '/' (d ++ '/' :: base) with
              | nil => simp [hsp] at ih2
              | cons a as => simpa [hsp] using ih2
        simp only [List.cons_append]
        unfold splitChar
        cases hsp : splitChar '/' (d ++ '/' :: base) with
        | nil => exact absurd hsp hne
        | cons a as =>
          rw [hsp] at ih hlen
          split
          · simpa using ih
          · cases as with
            | nil => simp at hlen
            | cons b bs => simpa using ih
    exact this d

theorem metadata_ok {env : Env} {name base : Text} {det : Option J} {om : Dict} {r : Option (Text × Text × Text)}
    (hb : IsBase name base) (h : DateOf env om r) : metadata env name det om = .ok ⟨base, det, r, []⟩ := by
  unfold metadata
  rcases h with ⟨hs, rfl⟩ | ⟨q, date, time, rest, hs, hi, h1, h2, h3, h4, h5, rfl⟩
  · simp only [unixTime_ok hs, bind, Except.bind, pure, Except.pure, baseName_ok hb]
  · simp only [unixTime_ok hs, bind, Except.bind, pure, Except.pure, baseName_ok hb, dateTime_ok hi h1 h2 h3 h4 h5]

/-! ### Detectors -/

theorem detectorInformation_ok {env : Env} {om : Dict} {r : Option J} (h : DetectorOf env om r) :
    detectorInformation env om = .ok r := by
  cases r with
  | some j =>
    obtain ⟨i, hi, hj⟩ := h
    obtain ⟨w, h1, h2⟩ := sub_look hj
    have h3 := get_look1 h2
    unfold detectorInformation
    rcases hi with ⟨hi, hnull⟩ | ⟨hn, rfl⟩
    · obtain ⟨v, g1, g2⟩ := look_dict hi
      obtain ⟨e, w', rfl, g3, g4⟩ := look_cons g2
      have g5 : w' = i := Option.some.inj g4
      subst g5
      simp only [g1, J.opt, g3, bind, Except.bind]
      cases w' with
      | null => exact absurd rfl hnull
      | _ => simp only [h1, h3, pure, Except.pure]
    · have hn' := value_none hn
      simp only [hn', bind, Except.bind, pure, Except.pure, h1, h3]
  | none =>
    obtain ⟨⟨e, he⟩, hd⟩ := h
    obtain ⟨v, g1, g2⟩ := look_dict he
    have g5 : v = .dict e := Option.some.inj g2
    subst g5
    unfold detectorInformation
    simp only [g1, bind, Except.bind]
    rw [opt_look]
    have h2 : value ["BinaryResult", "DetectorIndex"] om = look ["DetectorIndex".toList] (.dict e) := look_two he
    rw [← h2]
    rcases hd with hd | hd <;> rw [hd] <;> rfl

theorem detectorMetadata_ok {n m : J} : ∀ {ds : List (Text × Dict × Text)},
    (∀ e ∈ ds, value ["DetectorName"] e.2.1 = some (.str e.2.2)) → DetectorMeta ds n m →
    detectorMetadata (sameText n) (ds.map fun e => (e.1, J.dict e.2.1)) = .ok m := by
  have hsame : ∀ (a : J) (t : Text), sameText a (.str t) = true ↔ a = .str t := by
    intro a t
    cases a <;> simp [sameText]
  intro ds
  induction ds with
  | nil =>
    intro _ h
    rcases h with ⟨pre, e, post, h1, _⟩ | ⟨_, rfl⟩
    · simp at h1
    · rfl
  | cons p ds ih =>
    intro hn h
    have hp := get_look1 (hn p (List.mem_cons_self ..))
    simp only [List.map_cons, detectorMetadata, hp, bind, Except.bind]
    rcases h with ⟨pre, e, post, h1, h2, h3, h4⟩ | ⟨h2, rfl⟩
    · cases pre with
      | nil =>
        simp only [List.nil_append] at h1
        obtain ⟨rfl, rfl⟩ := List.cons.inj h1
        rw [if_pos ((hsame n p.2.2).2 h3), h4]
        rfl
      | cons q pre =>
        simp only [List.cons_append] at h1
        obtain ⟨rfl, rfl⟩ := List.cons.inj h1
        rw [if_neg (fun hs => h2 p (List.mem_cons_self ..) ((hsame n p.2.2).1 hs))]
        exact ih (fun e he => hn e (List.mem_cons_of_mem _ he))
          (Or.inl ⟨pre, e, post, rfl, fun q hq => h2 q (List.mem_cons_of_mem _ hq), h3, h4⟩)
    · rw [if_neg (fun hs => h2 p (List.mem_cons_self ..) ((hsame n p.2.2).1 hs))]
      exact ih (fun e he => hn e (List.mem_cons_of_mem _ he))
        (Or.inr ⟨fun q hq => h2 q (List.mem_cons_of_mem _ hq), rfl⟩)

end Verif.EmdVelox
