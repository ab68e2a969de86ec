import Verif.Lemmas.EmdVeloxStream
/-!
Lemmas about `Model/EmdVelox.lean`: labels, EELS spectrum images and whole files.
-/
namespace Verif.EmdVelox
open Verif Verif.Spec.EmdVelox Verif.Fei Verif.FeiSpec

/-! ### Labels -/

theorem lastPart_ok {path key : Text} (h : EndsIn path key) : lastPart path = key :=
  baseName_ok (path := path) (base := key) h

/-- Entering labels one after the other. -/
def enter (ls acc : List (Text × J)) : List (Text × J) := ls.foldl (fun a p => setKw p.1 p.2 a) acc

theorem labelsOld_ok : ∀ {l : List (Text × Entry)} {ls : List (Text × J)} {acc : List (Text × J)},
    List.Forall₂ (fun (e : Text × Entry) r => DisplayOld e.2 r) l ls → labelsOld l acc = .ok (enter ls acc)
  | [], _, _, h => by
    cases h
    rfl
  | (n, v) :: l, _, acc, h => by
    cases h with
    | @cons _ r _ ls h1 h2 =>
      obtain ⟨j, path, h3, h4, h5, h6⟩ := h1
      simp only at h3
      subst h3
      obtain ⟨w, g1, g2⟩ := get_look h6
      simp only [labelsOld, get_look1 h4, J.text, g1, get_look1 g2, bind, Except.bind, lastPart_ok h5]
      exact labelsOld_ok h2

theorem labelsNew_ok {f : File} : ∀ {l : Dict} {os : List (Option (Text × J))} {acc : List (Text × J)},
    List.Forall₂ (fun (e : Text × J) o => DisplayNew f e.2 o) l os → labelsNew f l acc = .ok (enter (os.filterMap id) acc)
  | [], _, _, h => by
    cases h
    rfl
  | (n, v) :: l, _, acc, h => by
    cases h with
    | @cons _ r _ os h1 h2 =>
      cases r with
      | none =>
        obtain ⟨d, h3, h4⟩ := h1
        simp only at h3
        subst h3
        rw [entry_eq] at h4
        have : (J.dict d).opt "data".toList = .ok none := by simp only [J.opt, h4]
        simp only [labelsNew, this, bind, Except.bind]
        rw [List.filterMap_cons_none rfl]
        exact labelsNew_ok h2
      | some r =>
        obtain ⟨p, j, path, h3, h4, h5, h6, h7⟩ := h1
        simp only at h3 h7
        obtain ⟨d, w, rfl, e1, e2⟩ := look_cons h3
        have e3 : w = .str p := Option.some.inj e2
        subst e3
        have : (J.dict d).opt "data".toList = .ok (some (.str p)) := by simp only [J.opt, e1]
        simp only [labelsNew, this, bind, Except.bind, J.text, h4, get_look1 h5, get_look1 h7, lastPart_ok h6]
        exact labelsNew_ok h2

theorem parseLabels_ok {f : File} {groups : Text → Option J} {ls : List (Text × J)} (hg : GroupsOf f groups)
    (h : Displays f groups ls) : parseLabels f (parseGroups f) = .ok (enter ls []) := by
  unfold Displays at h
  unfold parseLabels
  split at h
  · rename_i hv
    obtain ⟨g, d, os, h1, h2, h3, rfl⟩ := h
    rw [if_pos hv]
    rw [← getKw_groups hg] at h1
    have : sub "Displays".toList (parseGroups f) = .ok g := by simp only [sub, h1]
    simp only [this, get_look1 h2, J.items, bind, Except.bind]
    exact labelsNew_ok h3
  · rename_i hv
    obtain ⟨l, h1, h2⟩ := h
    rw [if_neg hv, h1]
    exact labelsOld_ok h2

theorem getKw_enter {key : Text} : ∀ (ls acc : List (Text × J)), (∀ p ∈ ls, p.1 ≠ key) →
    getKw key (enter ls acc) = getKw key acc
  | [], _, _ => rfl
  | (k, v) :: ls, acc, h => by
    have ih := getKw_enter ls (setKw k v acc) fun p hp => h p (List.mem_cons_of_mem _ hp)
    have hk := h (k, v) (List.mem_cons_self ..)
    simp only at hk
    simp only [enter, List.foldl_cons] at ih ⊢
    rw [ih, getKw_setKw, if_neg (fun e => hk e.symm)]

theorem last_occurrence {key : Text} : ∀ {ls : List (Text × J)}, (∃ p ∈ ls, p.1 = key) →
    ∃ pre post j, ls = pre ++ (key, j) :: post ∧ ∀ p ∈ post, p.1 ≠ key
  | [], h => by
    obtain ⟨p, hp, _⟩ := h
    cases hp
  | q :: ls, h => by
    by_cases h' : ∃ p ∈ ls, p.1 = key
    · obtain ⟨pre, post, j, e1, e2⟩ := last_occurrence h'
      exact ⟨q :: pre, post, j, by rw [e1]; rfl, e2⟩
    · obtain ⟨p, hp, hk⟩ := h
      rcases List.mem_cons.1 hp with rfl | hm
      · exact ⟨[], ls, p.2, by rw [← hk]; rfl, fun r hr e => h' ⟨r, hr, e⟩⟩
      · exact absurd ⟨p, hm, hk⟩ h'

theorem labelOf_enter (ls : List (Text × J)) (key : Text) : LabelOf ls key (entry key (enter ls [])) := by
  rw [entry_eq]
  by_cases h : ∃ p ∈ ls, p.1 = key
  · have := last_occurrence h
    obtain ⟨pre, post, j, rfl, h2⟩ := this
    have : getKw key (enter (pre ++ (key, j) :: post) []) = some j := by
      have he : enter (pre ++ (key, j) :: post) [] = enter post (setKw key j (enter pre [])) := by
        simp [enter]
      rw [he, getKw_enter _ _ h2, getKw_setKw, if_pos rfl]
    rw [this]
    exact ⟨pre, post, rfl, h2⟩
  · have hn : ∀ p ∈ ls, p.1 ≠ key := fun p hp e => h ⟨p, hp, e⟩
    rw [getKw_enter _ _ hn]
    exact hn

/-! ### EELS -/

theorem eelsCalibration_ok {env : Env} {f : File} {two : Bool} {x : EelsFacts} (h : EelsPixel env f two x) :
    eelsCalibration env f = .ok ((x.pix.w * x.r, x.pix.ox * x.r),
      (if two then some (x.pix.h * x.ry, x.pix.oy * x.ry) else none), x.unit) := by
  obtain ⟨k, s, l, o, hsi, hoff, hw, hx, hu, hc, hr, ht⟩ := h
  obtain ⟨br, pix, jw, a1, a2, a3, a4, a5, a6⟩ := num_three hw
  obtain ⟨br1, off, jx, b1, b2, b3, b4, b5, b6⟩ := num_three hx
  have e1 : br1 = br := by rw [a1] at b1; exact (Except.ok.inj b1).symm
  subst e1
  have e2 : off = .dict o := by rw [b6] at hoff; exact Option.some.inj hoff
  subst e2
  obtain ⟨w, g1, g2⟩ := sub_look hu
  have e3 : w = br1 := by rw [a1] at g1; exact (Except.ok.inj g1).symm
  subst e3
  have k1 := convertScale_ok (n := 1) a4 (by simpa using hc) hr (by decide)
  have k2 := convertUnits_ok (q := x.pix.ox) hr
  have hx' : ['x'] = "x".toList := rfl
  have hy' : ['y'] = "y".toList := rfl
  unfold eelsCalibration
  rw [hsi]
  simp only [a1, a2, a3, b2, bind, Except.bind, pure, Except.pure, get_look1 g2, J.text, k1, k2, hx', hy', b3, b4]
  cases two with
  | false =>
    simp only [Bool.false_eq_true, if_false] at ht ⊢
    rw [if_neg ht]
  | true =>
    simp only [if_true] at ht ⊢
    obtain ⟨h1, h2, h3, h4, h5⟩ := ht
    rw [if_pos h1]
    obtain ⟨br2, pix2, jh, c1, c2, c3, c4, c5, c6⟩ := num_three h2
    obtain ⟨br3, off3, jy, d1, d2, d3, d4, d5, d6⟩ := num_three h3
    have e4 : br2 = w := by rw [a1] at c1; exact (Except.ok.inj c1).symm
    subst e4
    have e5 : br3 = br2 := by rw [a1] at d1; exact (Except.ok.inj d1).symm
    subst e5
    have e6 : pix2 = pix := by rw [a2] at c2; exact (Except.ok.inj c2).symm
    subst e6
    have e7 : off3 = .dict o := by rw [b2] at d2; exact (Except.ok.inj d2).symm
    subst e7
    obtain ⟨w', g3, g4⟩ := sub_look h4
    have e8 : w' = br3 := by rw [a1] at g3; exact (Except.ok.inj g3).symm
    subst e8
    have k3 := convertUnits_ok (q := x.pix.h) h5
    have k4 := convertUnits_ok (q := x.pix.oy) h5
    simp only [c3, c4, get_look1 g4, d3, d4, k3, k4]

theorem readEels1_ok {f : File} {two : Bool} {x : EelsFacts} {e : Eels} (h : EelsOk two e) :
    ∃ s, readEels1 f ((x.pix.w * x.r, x.pix.ox * x.r),
      (if two then some (x.pix.h * x.ry, x.pix.oy * x.ry) else none), x.unit) e = .ok s ∧ ShowsEels f two x e s := by
  obtain ⟨hl, off, scale, ho, hs⟩ := h
  obtain ⟨w, g1, g2⟩ := sub_look ho
  obtain ⟨w', g3, g4⟩ := sub_look hs
  have e3 : w' = w := by rw [g1] at g3; exact (Except.ok.inj g3).symm
  subst e3
  cases two with
  | true =>
    simp only [if_true] at hl
    match hsh : e.shape, hl with
    | [a, b, c], _ =>
      refine ⟨_, by
        unfold readEels1
        simp only [hsh, if_true, g1, get_look1 g2, get_look1 g4, bind, Except.bind, pure, Except.pure]
        rfl, ⟨?_, (fun h => by cases h), rfl, rfl, rfl⟩⟩
      intro _ a' b' c' he
      rw [hsh] at he
      simp only [List.cons.injEq, and_true] at he
      obtain ⟨rfl, rfl, rfl⟩ := he
      exact ⟨rfl, fun _ _ _ => rfl, _, ⟨off, scale, ho, hs, rfl⟩, rfl⟩
  | false =>
    simp only [Bool.false_eq_true, if_false] at hl
    match hsh : e.shape, hl with
    | [a, b], _ =>
      refine ⟨_, by
        unfold readEels1
        simp only [hsh, Bool.false_eq_true, if_false, g1, get_look1 g2, get_look1 g4, bind, Except.bind, pure, Except.pure]
        rfl, ⟨(fun h => by cases h), ?_, rfl, rfl, rfl⟩⟩
      intro _ a' b' he
      rw [hsh] at he
      simp only [List.cons.injEq, and_true] at he
      obtain ⟨rfl, rfl⟩ := he
      exact ⟨rfl, fun _ _ => rfl, _, ⟨off, scale, ho, hs, rfl⟩, rfl⟩

theorem mapM_shows {α β : Type} {g : α → Py β} {P : α → β → Prop} : ∀ {l : List α}, (∀ a ∈ l, ∃ b, g a = .ok b ∧ P a b) →
    ∃ bs, l.mapM g = .ok bs ∧ List.Forall₂ P l bs
  | [], _ => ⟨[], rfl, List.Forall₂.nil⟩
  | a :: l, h => by
    obtain ⟨b, h1, h2⟩ := h a (List.mem_cons_self ..)
    obtain ⟨bs, h3, h4⟩ := mapM_shows (l := l) fun c hc => h c (List.mem_cons_of_mem _ hc)
    exact ⟨b :: bs, by simp only [List.mapM_cons, h1, h3, bind, Except.bind, pure, Except.pure], List.Forall₂.cons h2 h4⟩

theorem eelsPart_ok {env : Env} {f : File} {two : Bool} {x : EelsFacts}
    (h : ∀ l, f.eels = some l → EelsPixel env f two x ∧ ∀ p ∈ l, EelsOk two p.2) :
    ∃ ss, eelsPart env f = .ok ss ∧ List.Forall₂ (fun (p : Text × Eels) s => ShowsEels f two x p.2 s) (f.eels.getD []) ss := by
  unfold eelsPart
  cases he : f.eels with
  | none => exact ⟨[], rfl, List.Forall₂.nil⟩
  | some l =>
    obtain ⟨h1, h2⟩ := h l he
    simp only [readEels, eelsCalibration_ok h1, bind, Except.bind, Option.getD_some]
    exact mapM_shows fun p hp => readEels1_ok (h2 p hp)

/-! ### Spectrum images -/

theorem numberOfFrames_ok {env : Env} {f : File} {n : Option Nat} (h : FileFrames env f n) : numberOfFrames env f = n := by
  cases n with
  | some n =>
    obtain ⟨k, s, l, j, v, h1, h2, h3, h4⟩ := h
    simp only [numberOfFrames, h1, h2, get_look1 h3, h4, bind, Except.bind]
  | none =>
    rcases h with h | ⟨k, s, l, h1, h2 | ⟨d, h2, h3⟩⟩
    · simp only [numberOfFrames, h]
    · simp only [numberOfFrames, h1, h2]
    · rw [entry_eq] at h3
      simp only [numberOfFrames, h1, h2, J.get, h3, bind, Except.bind]

/-- The last frame before the streams are read. -/
def lastOf (given known : Option Nat) : Option Nat := given.or known

theorem endFrame_ok {st : St} (h : FramesExist st.last st.number) :
    endFrame st = .ok { st with last := lastOf st.last st.number } := by
  unfold endFrame
  cases hl : st.last with
  | none =>
    simp only [lastOf, Option.none_or]
  | some k =>
    cases hn : st.number with
    | none =>
      simp only [lastOf, Option.some_or]
      rw [← hl, ← hn]
    | some n =>
      have := h k n hl hn
      simp only [lastOf, Option.some_or]
      rw [if_neg (by omega), ← hl, ← hn]

theorem counts_eq {streams : List (List Nat)} {c : Scan} {m : Nat} {sf : Bool} {cube : Cube}
    (h : Has (· % m) none sf c streams cube) :
    (sf = true → ∀ y x b, y < c.ny → x < c.nx → b < c.channels / c.rebin → cube.val [y, x, b] = countsSum streams c m y x b) ∧
    (sf = false → ∀ t y x b, t < c.last - c.first → y < c.ny → x < c.nx → b < c.channels / c.rebin →
      cube.val [t, y, x, b] = counts streams c m t y x b) := by
  cases cube with
  | sum a =>
    obtain ⟨h1, _, _, _, _, h5⟩ := h
    refine ⟨fun _ y x b hy hx hb => h5 y x b hy hx hb, fun h => ?_⟩
    rw [h1] at h
    cases h
  | frames a =>
    obtain ⟨h1, _, _, _, _, _, h5⟩ := h
    refine ⟨fun h => ?_, fun _ t y x b ht hy hx hb => h5 t y x b ht hy hx hb⟩
    rw [h1] at h
    cases h

theorem agree_set {k : Text} {v : J} {d : Dict} (hk : k = "ImportedDataParameter".toList) : Agree (setKw k v d) d := by
  subst hk
  refine ⟨?_, ?_, ?_, ?_, ?_⟩ <;> rw [getKw_setKw, if_neg (by decide)]

theorem agree_trans {a b c : Dict} (h : Agree a b) (h' : Agree b c) : Agree a c :=
  ⟨h.1.trans h'.1, h.2.1.trans h'.2.1, h.2.2.1.trans h'.2.2.1, h.2.2.2.1.trans h'.2.2.2.1, h.2.2.2.2.trans h'.2.2.2.2⟩

theorem saysMap_agree {env : Env} {om d : Dict} {sf : Bool} {x : MapFacts} (h : Agree om d) :
    SaysMap env om sf x ↔ SaysMap env d sf x := by
  simp only [SaysMap, detectorOf_agree h, pixelGiven_agree h, energyOf_agree h, dateOf_agree h, scan_agree h]

theorem original_param {f : File} {groups : Text → Option J} (h : GroupsOf f groups) (v : J) (d : Dict) :
    Original groups d [("ImportedDataParameter".toList, v)] (update (setKw "ImportedDataParameter".toList v d) (parseGroups f)) := by
  intro k
  rw [entry_eq, entry_eq, entry_eq, getKw_update _ _ (groups_nodup f), getKw_groups h, getKw_setKw]
  by_cases hk : "ImportedDataParameter".toList = k
  · subst hk
    have := groups_none h (k := "ImportedDataParameter".toList) (by decide)
    rw [this]
    simp [getKw]
  · rw [if_neg (fun e => hk e.symm)]
    have : getKw k [("ImportedDataParameter".toList, v)] = none := by
      simp only [getKw]
      rw [if_neg hk]
    rw [this, Option.none_or]

theorem mapping_eq {v : Nat} {b : Bool} : getMapping v true b = ⟨b, some (elements v)⟩ := by
  simp only [getMapping, elements, if_true]

theorem forall₂_head {α β : Type} {P : α → β → Prop} {a : α} {l : List α} {bs : List β} (h : List.Forall₂ P (a :: l) bs) :
    ∃ b bs', bs = b :: bs' ∧ P a b := by
  cases h with
  | cons h1 _ => exact ⟨_, _, rfl, h1⟩

theorem parts_head (sd : Bool) (s : Stream) (l : List Stream) : ∃ t rest, parts sd s l = (s, t) :: rest := by
  unfold parts
  cases sd
  · exact ⟨[s.data], l.map fun t => (t, [t.data]), by simp⟩
  · exact ⟨_, [], by simp only [if_true]; rfl⟩

theorem parts_shown (sd : Bool) (k : Text) (s : Stream) (l : List (Text × Stream)) :
    shownStreams sd ((k, s) :: l) = (parts sd s (l.map Prod.snd)).map fun p => (p.1.md, p.2) := by
  unfold shownStreams parts
  cases sd
  · simp [Function.comp_def]
  · simp [Function.comp_def]

theorem streamSignals_ok {env : Env} {cfg : Config} {f : File} {groups : Text → Option J} {st : St} {c : Scan} {m : Nat}
    {dt base : Text} {x : MapFacts} {s : Stream} {l : List (Text × Stream)} {k : Text} {ds : List StreamData} (hc : ScanOk c) (hf : For cfg c)
    (hg : GroupsOf f groups) (hst : st.om = parseGroups f) (hb : IsBase f.name base) (hdet : st.detector = some (.str "EDS".toList))
    (hdt : st.dtype = some dt) (hx : SaysMap env s.md cfg.sumFrames x)
    (h : List.Forall₂ (fun (p : Stream × List (List Nat)) (d : StreamData) =>
        d.om = setKw "ImportedDataParameter".toList (parameters c) p.1.md ∧
          Has (· % m) none cfg.sumFrames c p.2 d.cube) (parts cfg.sumDetectors s (l.map Prod.snd)) ds) :
    ∃ ss, streamSignals env cfg f st ds = .ok ss ∧
      List.Forall₂ (fun (p : Dict × List (List Nat)) t => ShowsMap env f groups cfg.sumFrames p.2 p.1 c m dt x base t)
        (shownStreams cfg.sumDetectors ((k, s) :: l)) ss := by
  obtain ⟨t0, rest, hp⟩ := parts_head cfg.sumDetectors s (l.map Prod.snd)
  have h' := h
  rw [hp] at h'
  obtain ⟨d0, ds', rfl, h1, h2⟩ := forall₂_head h'
  have ha : Agree (update d0.om st.om) s.md := by
    rw [hst, h1]
    exact agree_trans (agree_merged hg _) (agree_set rfl)
  have hx' := (saysMap_agree (sf := cfg.sumFrames) (x := x) ha).2 hx
  obtain ⟨axes, e1, e2⟩ := streamAxes_ok hc hf hx'
  rw [← has_shape h2] at e1
  have e3 := metadata_ok (det := st.detector) hb hx'.2.2.2.2.1
  unfold streamSignals
  simp only [e1, e3, bind, Except.bind, pure, Except.pure]
  refine ⟨_, rfl, ?_⟩
  rw [parts_shown, List.forall₂_map_left_iff, List.forall₂_map_right_iff]
  refine h.imp fun p d ⟨g1, g2⟩ => ?_
  obtain ⟨v1, v2⟩ := counts_eq g2
  refine ⟨has_shape g2, ?_, ?_, by simp [hdt], ?_, ?_, ?_, ?_⟩
  · intro hs y x b hy hx hb
    simp only [v1 hs y x b hy hx hb]
  · intro hs t y x b ht hy hx hb
    simp only [v2 hs t y x b ht hy hx hb]
  · exact e2
  · simp only [hdet]
  · simp only [g1, hst]
    exact original_param hg _ _
  · simp only [mapping_eq]

theorem readSpectrumStream_ok {env : Env} {cfg : Config} {f : File} {x : Content} {st : St} (hi : InFile env cfg f x)
    (hm : HasMaps f) (hst : st.om = parseGroups f) (hlast : st.last = cfg.last) (hdt : st.dtype = cfg.dtype)
    (hsp : ∀ sp i is, f.images = some (i :: is) → (∀ p ∈ i :: is, (p.2.ny, p.2.nx) = sp) → st.spatial = some sp) :
    ∃ s3 s4 st', readSpectrumStream env cfg f true st = .ok st' ∧ st'.out = st.out ++ s3 ++ s4 ∧
      ShowsEelsAll f x s3 ∧ ShowsMaps env cfg f x s4 := by
  obtain ⟨s3, e1, e2⟩ := eelsPart_ok (hi.eels hm)
  obtain ⟨hk, hfe⟩ := hi.known hm
  have e3 := numberOfFrames_ok hk
  have e4 := endFrame_ok (st := { st with out := st.out ++ s3, detector := some (.str "EDS".toList), number := x.known })
    (by rw [hlast]; exact hfe)
  unfold readSpectrumStream
  simp only [Bool.not_true, Bool.false_eq_true, if_false, e1, e3, e4, bind, Except.bind, pure, Except.pure]
  cases hs : f.streams with
  | none =>
    exact ⟨s3, [], _, rfl, by simp, e2, by simp [ShowsMaps, hs, shownStreams]⟩
  | some l =>
    cases l with
    | nil =>
      exact ⟨s3, [], _, rfl, by simp, e2, by simp [ShowsMaps, hs, shownStreams]⟩
    | cons p l =>
      obtain ⟨k, s⟩ := p
      have hS := hi.streams hm k s l hs
      have hc : ScanOk x.scan := ⟨hS.size.1, hS.size.2, by rw [hS.rebin.1]; exact hS.rebin.2.1, hS.frames.2⟩
      have hf : For cfg x.scan := ⟨hS.first.symm, hS.rebin.1.symm⟩
      obtain ⟨i, is, hi1, hi2⟩ := hS.images
      have hr : Ready env ⟨some (.str "EDS".toList), st.om, st.labels, st.spatial, lastOf st.last x.known, x.known, st.dtype,
          st.out ++ s3⟩ x.scan x.dtype x.values s := by
        refine ⟨hsp _ i is hi1 hi2, ?_, by rw [hdt]; exact hS.dtype, hS.values.1⟩
        have := hS.frames.1
        unfold FramesRule at this
        simp only [hlast]
        cases hl : cfg.last with
        | some k =>
          rw [hl] at this
          simp only at this
          exact Or.inl ⟨by simp [lastOf, this.1], this.2.symm⟩
        | none =>
          cases hn : x.known with
          | some n =>
            rw [hl, hn] at this
            simp only at this
            exact Or.inl ⟨by simp [lastOf, this.1], this.2.symm⟩
          | none =>
            rw [hl, hn] at this
            simp only at this
            exact Or.inr ⟨by simp [lastOf], this⟩
      obtain ⟨ds, r1, r2⟩ := readStreams_ok (cfg := cfg) (l := l.map Prod.snd) hc hf hS.values.2 hr
        (by rw [hS.rebin.1]; exact hS.rebin.2.2)
        ⟨hS.channels, hS.events (k, s) (List.mem_cons_self ..)⟩
        (by
          intro t ht
          obtain ⟨p, hp, rfl⟩ := List.mem_map.1 ht
          exact hS.events p (List.mem_cons_of_mem _ hp))
        (by
          intro hsum t ht
          obtain ⟨p, hp, rfl⟩ := List.mem_map.1 ht
          exact hS.others hsum p hp)
      simp only [r1]
      obtain ⟨s4, t1, t2⟩ := streamSignals_ok (env := env) (k := k) (l := l)
        (st := ⟨some (.str "EDS".toList), st.om, st.labels, st.spatial, some x.scan.last, x.scan.number, some x.dtype,
          st.out ++ s3⟩)
        hc hf hi.groups hst hi.base rfl rfl hS.told r2
      simp only [t1]
      exact ⟨s3, s4, _, rfl, by simp, e2, by unfold ShowsMaps; rw [hs]; exact t2⟩

/-! ### Files -/

theorem kind_image {f : File} : kind f = .image ↔ f.images.isSome ∧ f.specImages.isNone := by
  unfold kind
  cases f.images <;> cases f.specImages <;> simp

theorem allFrames_eq {cfg : Config} {f : File} : (cfg.stack || decide (kind f = .image)) = allFrames cfg f := by
  unfold allFrames
  congr 1
  rw [Bool.eq_iff_iff]
  simp only [decide_eq_true_eq, kind_image, Bool.and_eq_true]

theorem readSpectra_ok {env : Env} {cfg : Config} {f : File} {x : Content} {st : St} (hi : Legible env cfg f x)
    (hst : st.om = parseGroups f) :
    ∃ ss det, readSpectra env cfg f true st = .ok { st with detector := det, out := st.out ++ ss } ∧ ShowsSpectra cfg f x ss := by
  unfold readSpectra ShowsSpectra
  have h := hi.spectra
  cases hs : f.spectra with
  | none =>
    exact ⟨[], st.detector, by simp, by simp⟩
  | some l =>
    rw [hs] at h
    simp only [Option.getD_some] at h ⊢
    simp only [Bool.not_true, Bool.false_eq_true, if_false]
    have key : ∀ (l : List (Text × Spectrum)) (ys : List ((Nat × Option Nat) × SpecFacts)),
        List.Forall₂ (fun (p : Text × Spectrum) y => p.2.shape = (match y.1.2 with | none => [y.1.1] | some m => [y.1.1, m]) ∧
          SaysSpectrum env p.2.md y.2) l ys →
        ∃ ss, (l.mapM fun p => readSpectrum env cfg f { st with detector := some (.str "EDS".toList) } p.2) = .ok ss ∧
          List.Forall₂ (fun (q : (Text × Spectrum) × ((Nat × Option Nat) × SpecFacts)) s =>
            ShowsSpectrum f x.groups q.1.2 q.2.1.1 q.2.1.2 cfg.rebin q.2.2 x.base s) (l.zip ys) ss := by
      intro l ys h
      induction h with
      | nil => exact ⟨[], rfl, List.Forall₂.nil⟩
      | @cons p y l ys h1 _ ih =>
        obtain ⟨ss, i1, i2⟩ := ih
        obtain ⟨s, e1, e2⟩ := readSpectrum_ok (cfg := cfg) (st := { st with detector := some (.str "EDS".toList) })
          hi.groups hst hi.base rfl h1.1 h1.2
        exact ⟨s :: ss, by simp only [List.mapM_cons, e1, i1, bind, Except.bind, pure, Except.pure], List.Forall₂.cons e2 i2⟩
    obtain ⟨ss, k1, k2⟩ := key l x.spectra h
    exact ⟨ss, some (.str "EDS".toList), by simp only [k1, bind, Except.bind, pure, Except.pure], k2⟩

theorem readImages_ok {env : Env} {cfg : Config} {f : File} {x : Content} {st : St} (hi : Legible env cfg f x)
    (hst : st.om = parseGroups f) (hl : st.labels = enter x.labels []) {load si : Bool} :
    ∃ ss st', readImages env cfg f load si st = .ok st' ∧ st'.out = st.out ++ ss ∧ st'.om = st.om ∧ st'.last = st.last ∧
      st'.dtype = st.dtype ∧
      ((load || si) = true → ∀ sp i is, f.images = some (i :: is) → (∀ p ∈ i :: is, (p.2.ny, p.2.nx) = sp) → st'.spatial = some sp) ∧
      (if load then ShowsPictures env cfg f x ss else ss = []) := by
  have h := hi.images
  rw [← allFrames_eq] at h
  unfold readImages
  cases load with
  | false =>
    cases si with
    | false => exact ⟨[], st, by simp, by simp, rfl, rfl, rfl, by simp, by simp⟩
    | true =>
      simp only [Bool.not_false, Bool.not_true, Bool.and_false, Bool.false_eq_true, if_false]
      cases hf : f.images with
      | none => exact ⟨[], st, rfl, by simp, rfl, rfl, rfl, by simp, rfl⟩
      | some l =>
        rw [hf] at h
        simp only [Option.getD_some] at h ⊢
        generalize x.images = xs at h
        cases h with
        | nil => exact ⟨[], st, rfl, by simp, rfl, rfl, rfl, by simp, rfl⟩
        | @cons p y l ys h1 h2 =>
          obtain ⟨s, e1, e2⟩ := readImage_ok (st := st) hi.floats hi.groups hst hi.base h1.1 h1.2.1 h1.2.2
          obtain ⟨k, g⟩ := p
          refine ⟨[], { st with detector := some y.name, spatial := some (g.ny, g.nx) }, by simp only [imageLoop, e1, bind, Except.bind, Bool.not_false, if_true, pure, Except.pure], by simp, rfl, rfl, rfl, ?_, rfl⟩
          intro _ sp i is he hp
          simp only [Option.some.injEq, List.cons.injEq] at he
          rw [← he.1] at hp
          exact congrArg some (hp (k, g) (List.mem_cons_self ..))
  | true =>
    simp only [Bool.not_true, Bool.false_and, Bool.false_eq_true, if_false, if_true]
    unfold ShowsPictures
    rw [← allFrames_eq]
    cases hf : f.images with
    | none => exact ⟨[], st, rfl, by simp, rfl, rfl, rfl, by simp, by simp⟩
    | some l =>
      rw [hf] at h
      simp only [Option.getD_some] at h ⊢
      obtain ⟨ss, st', i1, i2, i3, i4, i5, i6, i7, i8, i9⟩ := imageLoop_ok hi.floats hi.groups hi.base l x.images st hst h
      refine ⟨ss, st', i1, i2, i3, i5, i7, ?_, i9.imp fun q s hq => ⟨_, labelOf_enter _ _, by rw [← hl]; exact hq⟩⟩
      intro _ sp i is he hp
      simp only [Option.some.injEq] at he
      subst he
      exact i8 sp hp (by simp)

end Verif.EmdVelox
