import Verif.Lemmas.EmdVeloxName
/-!
Lemmas about `Model/EmdVelox.lean`: pictures and single spectra.
-/
namespace Verif.EmdVelox
open Verif Verif.Spec.EmdVelox

/-! ### Pictures -/

theorem optPair_given {env : Env} {d e : Dict} {k a b : String} {v qa qb : ℚ} (he : value ["BinaryResult"] d = some (.dict e))
    (ha : Num env d ["BinaryResult", k, a] qa) (hb : Num env d ["BinaryResult", k, b] qb) (a' b' : String) :
    ∃ pix ja jb, optPair (.dict e) k a' b' v = .ok pix ∧ pix.get a.toList = .ok ja ∧ pix.get b.toList = .ok jb ∧
      env.float ja = .ok qa ∧ env.float jb = .ok qb := by
  obtain ⟨x, y, z, h1, h2, h3, h4, h5, h6⟩ := num_three ha
  obtain ⟨x', y', z', g1, g2, g3, g4, g5, g6⟩ := num_three hb
  have hxy : y' = y := by
    rw [h6] at g6
    exact (Option.some.inj g6).symm
  subst hxy
  have hx : x = .dict e := by
    rw [he] at h5
    exact (Option.some.inj h5).symm
  subst hx
  refine ⟨y', z, z', ?_, h3, g3, h4, g4⟩
  obtain ⟨d', w, hd, k1, k2⟩ := get_dict h2
  cases hd
  unfold optPair
  simp only [J.opt, k1, bind, Except.bind, pure, Except.pure, Option.getD_some, k2]

theorem optPair_none {d e : Dict} {k a b : String} {v : ℚ} (he : value ["BinaryResult"] d = some (.dict e))
    (h : value ["BinaryResult", k] d = none) :
    optPair (.dict e) k a b v = .ok (.dict [(a.toList, .num v), (b.toList, .num v)]) := by
  unfold optPair
  rw [opt_look]
  have : look [k.toList] (.dict e) = none := by
    rw [← h]
    exact (look_two he).symm
  rw [this]
  rfl

theorem imageAxes_ok {env : Env} {om : Dict} {p : Pixel} {ny nx n : Nat} {q : ℚ} (hf : Floats env) (hp : PixelOf env om p)
    (hu : Known env p.unit) (hnx : nx ≠ 0) (hn0 : n ≠ 0) (ht : n ≠ 1 → FrameTime env om q ∧ Known env ['s']) :
    ∃ plane, PlaneAxes env p ((nx : ℚ) / 2 * p.w) ny nx (if n = 1 then 0 else 1) false plane ∧
      ∃ axes, imageAxes env om ny nx n = .ok axes ∧
        if n = 1 then axes = plane else ∃ t, TimeAxis env q ((n : ℚ) * q) n t ∧ axes = t :: plane := by
  obtain ⟨⟨e, he⟩, hpix, hoff, hunit⟩ := hp
  have h0 := sub_look1 he
  -- pixels
  have h1 : ∃ pix jw jh, optPair (.dict e) "PixelSize" "height" "width" 1 = .ok pix ∧ pix.get "width".toList = .ok jw ∧
      pix.get "height".toList = .ok jh ∧ env.float jw = .ok p.w ∧ env.float jh = .ok p.h := by
    rcases hpix with ⟨a, b, c⟩ | ⟨a, b⟩
    · refine ⟨_, .num 1, .num 1, optPair_none he a, ?_, ?_, by rw [hf, b], by rw [hf, c]⟩ <;> simp [J.get, getKw]
    · exact optPair_given he a b "height" "width"
  have h2 : ∃ off jx jy, optPair (.dict e) "Offset" "x" "y" 0 = .ok off ∧ off.get ['x'] = .ok jx ∧
      off.get ['y'] = .ok jy ∧ env.float jx = .ok p.ox ∧ env.float jy = .ok p.oy := by
    rcases hoff with ⟨a, b, c⟩ | ⟨a, b⟩
    · refine ⟨_, .num 0, .num 0, optPair_none he a, ?_, ?_, by rw [hf, b], by rw [hf, c]⟩ <;> simp [J.get, getKw]
    · exact optPair_given (a := "x") (b := "y") he a b "x" "y"
  have h3 : ∃ o, (J.dict e).opt "PixelUnitX".toList = .ok o ∧ (o.getD (.str [])).text = .ok p.unit := by
    refine ⟨value ["BinaryResult", "PixelUnitX"] om, ?_, ?_⟩
    · rw [opt_look]
      congr 1
      exact (look_two he).symm
    · rcases hunit with ⟨a, b⟩ | a
      · rw [a, b]
        rfl
      · rw [a]
        rfl
  obtain ⟨pix, jw, jh, a1, a2, a3, a4, a5⟩ := h1
  obtain ⟨off, jx, jy, b1, b2, b3, b4, b5⟩ := h2
  obtain ⟨o, c1, c2⟩ := h3
  obtain ⟨u, r, d1, d2⟩ := hu ((nx : ℚ) / 2 * p.w)
  have e1 := convertScale_ok a4 d1 d2 hnx
  have e2 := convertUnits_ok (q := p.h) d2
  have e3 := convertUnits_ok (q := p.ox) d2
  have e4 := convertUnits_ok (q := p.oy) d2
  refine ⟨_, ⟨u, r, d1, d2, rfl⟩, ?_⟩
  by_cases hn : n = 1
  · refine ⟨_, ?_, by rw [if_pos hn]⟩
    unfold imageAxes
    simp only [h0, a1, b1, c1, c2, bind, Except.bind, if_pos hn, pure, Except.pure, a2, a3, a5, b2, b3, b4, b5, e1, e2, e3, e4,
      List.nil_append]
  · obtain ⟨ht1, ht2⟩ := ht hn
    obtain ⟨j, f1, f2⟩ := frameTime_ok ht1
    have hfac : (((2 * n : Nat) : ℚ)) / 2 * q = (n : ℚ) * q := by
      push_cast
      ring
    obtain ⟨u', r', g1, g2⟩ := ht2 (((2 * n : Nat) : ℚ) / 2 * q)
    have f3 := convertScale_ok f2 g1 g2 (show 2 * n ≠ 0 by omega)
    refine ⟨_, ?_, by rw [if_neg hn]; exact ⟨_, ⟨u', r', by rw [← hfac]; exact g1, g2, rfl⟩, rfl⟩⟩
    unfold imageAxes
    simp only [h0, a1, b1, c1, c2, bind, Except.bind, if_neg hn, pure, Except.pure, f1, f3, a2, a3, a5, b2, b3, b4, b5, e1, e2,
      e3, e4, List.cons_append, List.nil_append]

theorem sample_ok {env : Env} {cfg : Config} {g : Image} {y x t : Nat} :
    IsSample env cfg.lazy g.dtype (g.val y x t) (sample env cfg g y x t) := by
  unfold IsSample sample
  cases g.dtype with
  | pair => rfl
  | num n =>
    cases cfg.lazy
    · exact ⟨rfl, rfl⟩
    · exact ⟨rfl, rfl⟩

/-- The original metadata of a signal. -/
theorem original_merged {f : File} {groups : Text → Option J} (h : GroupsOf f groups) (d : Dict) :
    Original groups d [] (update d (parseGroups f)) := by
  intro k
  rw [entry_eq, entry_eq, entry_eq, getKw_update _ _ (groups_nodup f), getKw_groups h]
  rfl

theorem original_set {groups : Text → Option J} {own om : Dict} (h : Original groups own [] om) (k : Text) (v : J) :
    Original groups own [(k, v)] (setKw k v om) := by
  intro k'
  have := h k'
  rw [entry_eq, entry_eq, entry_eq] at this ⊢
  rw [getKw_setKw, this]
  by_cases hk : k' = k
  · simp [hk, getKw]
  · have hk' : ¬ k = k' := fun e => hk e.symm
    simp [hk, hk', getKw]

theorem readImage_ok {env : Env} {cfg : Config} {f : File} {groups : Text → Option J} {st : St} {key : Text} {g : Image}
    {x : Facts} {base : Text} (hf : Floats env) (hg : GroupsOf f groups) (hst : st.om = parseGroups f) (hb : IsBase f.name base)
    (hnx : g.nx ≠ 0) (hnf : g.nf ≠ 0)
    (hs : Says env groups key g.md (shown (cfg.stack || decide (kind f = .image)) g) x) :
    ∃ s, readImage env cfg f st key g =
        .ok ({ st with detector := some x.name, spatial := some (g.ny, g.nx) }, s) ∧
      ShowsPicture env groups cfg.lazy (entry key st.labels) g (shown (cfg.stack || decide (kind f = .image)) g) x base s := by
  obtain ⟨hp, hu, ht, hname, hdate, hds, hdm⟩ := hs
  have ha : Agree (update g.md st.om) g.md := by
    rw [hst]
    exact agree_merged hg g.md
  have h1 := imageDetector_ok (st := st) (fun k => by rw [hst]; exact getKw_groups hg k) ha hname
  have hn0 : shown (cfg.stack || decide (kind f = .image)) g ≠ 0 := by
    unfold shown
    split
    · exact hnf
    · omega
  obtain ⟨plane, h2, axes, h3, h4⟩ := imageAxes_ok (ny := g.ny) hf ((pixelOf_agree ha).2 hp) hu hnx hn0
    (fun h => ⟨(frameTime_agree ha).2 (ht h).1, (ht h).2⟩)
  have h5 := metadata_ok (det := some x.name) hb ((dateOf_agree ha).2 hdate)
  obtain ⟨hd1, hd2⟩ := (detectorList_agree ha).2 hds
  have h6 := sub_look1 hd1
  have h7 := detectorMetadata_ok hd2 hdm
  have hsh : (if (cfg.stack || decide (kind f = .image)) = true then g.nf else min 1 g.nf) =
      shown (cfg.stack || decide (kind f = .image)) g := rfl
  unfold readImage
  simp only [h1, bind, Except.bind, hsh, h3, h5, h6, J.items, h7, pure, Except.pure]
  refine ⟨_, rfl, ?_⟩
  generalize hn : shown (cfg.stack || decide (kind f = .image)) g = n at *
  refine ⟨rfl, ?_, ?_, ?_, ?_, ⟨plane, h2, h4⟩, ?_, ?_, rfl⟩
  · intro h r c
    simp only [if_pos h]
    exact sample_ok
  · intro h t r c
    simp only [if_neg h]
    exact sample_ok
  · intro name hd
    simp only [imageType, hd]
  · intro hd
    simp only [imageType, hd]
  · rw [entry_eq]
    cases getKw key st.labels <;> rfl
  · rw [hst]
    exact original_set (original_merged hg g.md) _ _

/-- The pictures of a file. -/
theorem imageLoop_ok {env : Env} {cfg : Config} {f : File} {groups : Text → Option J} {base : Text} (hf : Floats env)
    (hg : GroupsOf f groups) (hb : IsBase f.name base) :
    ∀ (l : List (Text × Image)) (xs : List Facts) (st : St), st.om = parseGroups f →
      List.Forall₂ (fun p x => p.2.nx ≠ 0 ∧ p.2.nf ≠ 0 ∧
        Says env groups p.1 p.2.md (shown (cfg.stack || decide (kind f = .image)) p.2) x) l xs →
      ∃ ss st', imageLoop env cfg f true l st = .ok st' ∧ st'.out = st.out ++ ss ∧ st'.om = st.om ∧ st'.labels = st.labels ∧
        st'.last = st.last ∧ st'.number = st.number ∧ st'.dtype = st.dtype ∧
        (∀ sp, (∀ p ∈ l, (p.2.ny, p.2.nx) = sp) → l ≠ [] → st'.spatial = some sp) ∧
        List.Forall₂ (fun (q : (Text × Image) × Facts) s => ShowsPicture env groups cfg.lazy (entry q.1.1 st.labels) q.1.2
          (shown (cfg.stack || decide (kind f = .image)) q.1.2) q.2 base s) (l.zip xs) ss
  | [], xs, st, _, h => by
    cases h
    exact ⟨[], st, rfl, by simp, rfl, rfl, rfl, rfl, rfl, fun _ _ h => absurd rfl h, List.Forall₂.nil⟩
  | p :: l, _, st, hst, h => by
    cases h with
    | @cons _ x _ xs h1 h2 =>
      obtain ⟨a, b, c⟩ := h1
      obtain ⟨s, e1, e2⟩ := readImage_ok (st := st) hf hg hst hb a b c
      obtain ⟨ss, st', i1, i2, i3, i4, i5, i6, i7, i8, i9⟩ := imageLoop_ok hf hg hb l xs
        { { st with detector := some x.name, spatial := some (p.2.ny, p.2.nx) } with out := st.out ++ [s] } hst h2
      refine ⟨s :: ss, st', ?_, ?_, i3, i4, i5, i6, i7, ?_, ?_⟩
      · obtain ⟨k, g⟩ := p
        simp only [imageLoop, e1, bind, Except.bind, Bool.not_true, Bool.false_eq_true, if_false]
        exact i1
      · rw [i2]
        simp
      · intro sp hsp _
        cases l with
        | nil =>
          cases h2
          have : st' = { { st with detector := some x.name, spatial := some (p.2.ny, p.2.nx) } with out := st.out ++ [s] } := by
            simp only [imageLoop, Except.ok.injEq] at i1
            exact i1.symm
          rw [this]
          simp only
          rw [hsp p (by simp)]
        | cons p' l' =>
          exact i8 sp (fun q hq => hsp q (List.mem_cons_of_mem _ hq)) (by simp)
      · exact List.Forall₂.cons e2 i9

/-! ### Single spectra -/

theorem readSpectrum_ok {env : Env} {cfg : Config} {f : File} {groups : Text → Option J} {st : St} {a : Spectrum}
    {x : SpecFacts} {base : Text} {n : Nat} {k : Option Nat} (hg : GroupsOf f groups) (hst : st.om = parseGroups f)
    (hb : IsBase f.name base) (hdet : st.detector = some (.str "EDS".toList))
    (hsh : a.shape = match k with | none => [n] | some m => [n, m]) (hs : SaysSpectrum env a.md x) :
    ∃ s, readSpectrum env cfg f st a = .ok s ∧ ShowsSpectrum f groups a n k cfg.rebin x base s := by
  obtain ⟨⟨o, ho⟩, he, hd⟩ := hs
  have ha : Agree (update a.md st.om) a.md := by
    rw [hst]
    exact agree_merged hg a.md
  have h1 := detectorInformation_ok ((detectorOf_agree ha).2 ho)
  have h2 := dispersion_ok (rebin := cfg.rebin) ((energyOf_agree ha).2 he)
  have h3 := metadata_ok (det := st.detector) hb ((dateOf_agree ha).2 hd)
  have h4 : Original groups a.md [] (update a.md st.om) := by
    rw [hst]
    exact original_merged hg a.md
  have hel : (getMapping f.version true true) = ⟨true, some (elements f.version)⟩ := by
    simp only [getMapping, elements, if_true]
  unfold readSpectrum
  simp only [h1, h2, bind, Except.bind]
  cases k with
  | none =>
    simp only at hsh
    simp only [hsh]
    simp only [List.length_singleton, List.getLast?_singleton, h3, pure, Except.pure]
    refine ⟨_, rfl, ⟨fun _ => ⟨rfl, fun c => rfl⟩, fun h => by simp at h, fun m h => by simp at h, rfl, ?_, h4, ?_⟩⟩
    · rw [hdet]
    · simp only [hel]
  | some m =>
    simp only at hsh
    simp only [hsh]
    by_cases hm : m = 1
    · subst hm
      simp only [List.length_cons, List.length_nil, List.getLast?_cons_cons, List.getLast?_singleton, h3, pure, Except.pure,
        and_self, decide_true, if_true, List.dropLast_cons_cons, List.dropLast_singleton]
      refine ⟨_, rfl, ⟨fun h => by simp at h, fun _ => ⟨rfl, fun c => rfl⟩, fun m h h' => ?_, rfl, ?_, h4, ?_⟩⟩
      · simp at h
        omega
      · rw [hdet]
      · simp only [hel]
    · have hm' : ¬ (some m = some 1) := by simpa using hm
      simp only [List.length_cons, List.length_nil, List.getLast?_cons_cons, List.getLast?_singleton, h3, pure, Except.pure,
        hm', and_false, decide_false, Bool.false_eq_true, if_false, List.reverse_cons, List.reverse_nil, List.nil_append,
        List.singleton_append]
      refine ⟨_, rfl, ⟨fun h => by simp at h, fun h => absurd h hm', fun m' h h' => ?_, ?_, ?_, h4, ?_⟩⟩
      · simp only [Option.some.injEq] at h
        subst h
        exact ⟨rfl, fun i c => rfl⟩
      · simp [hm]
      · rw [hdet]
      · simp only [hel]

end Verif.EmdVelox
