import Verif.Lemmas.EmdVeloxFile
/-!
C114 and C115: files of Velox.
-/
namespace Verif.Props.EmdVelox
open Verif Verif.EmdVelox Verif.Spec.EmdVelox

/-- The words for the parts of a file. -/
def Asked (select : Option Text) : Prop :=
  select = none ∨ select = some "single_spectrum".toList ∨ select = some "images".toList ∨
    select = some "spectrum_image".toList

theorem selection_eq {s : Option Text} (h : Asked s) :
    selection s = .ok (decide (Wants s "images"), decide (Wants s "spectrum_image"), decide (Wants s "single_spectrum")) := by
  rcases h with rfl | rfl | rfl | rfl
  · simp [selection, Wants]
  · decide +kernel
  · decide +kernel
  · decide +kernel

theorem spectraIf_ok {env : Env} {cfg : Config} {f : File} {x : Content} {st : St} (hi : Legible env cfg f x)
    (hst : st.om = parseGroups f) (b : Prop) [Decidable b] :
    ∃ ss det, readSpectra env cfg f (decide b) st = .ok { st with detector := det, out := st.out ++ ss } ∧
      (if b then ShowsSpectra cfg f x ss else ss = []) := by
  by_cases h : b
  · simp only [h, decide_true, if_true]
    exact readSpectra_ok hi hst
  · simp only [h, decide_false, if_false]
    exact ⟨[], st.detector, by simp [readSpectra], rfl⟩

theorem kind_eq {f : File} : kind f = if HasMaps f then .stream else if f.images.isSome then .image else .spectrum := by
  have h : ∀ (a : Option (List (Text × Image))) (b : Option (List (Text × SpecImage))),
      (match a, b with | some _, some _ => Kind.stream | some _, none => .image | none, _ => .spectrum) =
      if (a.isSome = true ∧ b.isSome = true) then Kind.stream else if a.isSome = true then .image else .spectrum := by
    intro a b
    cases a <;> cases b <;> simp
  exact (h f.images f.specImages).trans (by congr)

/-- The state when the pictures have been read. -/
theorem before_streams {env : Env} {cfg : Config} {f : File} {x : Content} (hi : Legible env cfg f x) (hs : Asked cfg.select)
    (hm : HasMaps f) :
    ∃ st s1 s2, read env cfg f = (do return (← readSpectrumStream env cfg f (decide (Wants cfg.select "spectrum_image")) st).out) ∧
      st.out = s1 ++ s2 ∧ st.om = parseGroups f ∧ st.last = cfg.last ∧ st.dtype = cfg.dtype ∧
      (Wants cfg.select "spectrum_image" → ∀ sp i is, f.images = some (i :: is) → (∀ p ∈ i :: is, (p.2.ny, p.2.nx) = sp) →
        st.spatial = some sp) ∧
      (if Wants cfg.select "single_spectrum" then ShowsSpectra cfg f x s1 else s1 = []) ∧
      (if Wants cfg.select "images" then ShowsPictures env cfg f x s2 else s2 = []) := by
  have hk : kind f = .stream := by rw [kind_eq, if_pos hm]
  have hl := hi.labels
  rw [if_pos hm] at hl
  have h1 := parseLabels_ok hi.groups hl
  have h2 := selection_eq hs
  obtain ⟨s1, det, h3, h4⟩ := spectraIf_ok (st := ⟨none, parseGroups f, enter x.labels [], none, cfg.last, none, cfg.dtype, []⟩) hi rfl
    (Wants cfg.select "single_spectrum")
  obtain ⟨s2, st, h5, h6, h7, h8, h9, h10, h11⟩ := readImages_ok
    (st := ⟨det, parseGroups f, enter x.labels [], none, cfg.last, none, cfg.dtype, [] ++ s1⟩) hi rfl rfl
    (load := decide (Wants cfg.select "images")) (si := decide (Wants cfg.select "spectrum_image"))
  refine ⟨st, s1, s2, ?_, by rw [h6]; simp, h7, h8, h9, ?_, h4, ?_⟩
  · unfold EmdVelox.read
    simp only [hk, if_true, h1, h2, bind, Except.bind, h3, h5]
  · intro hw
    exact h10 (by simp [hw])
  · by_cases hw : Wants cfg.select "images"
    · rw [if_pos hw]
      rw [if_pos (by simpa using hw)] at h11
      exact h11
    · rw [if_neg hw]
      rw [if_neg (by simpa using hw)] at h11
      exact h11

theorem read_ok {env : Env} {cfg : Config} {f : File} {x : Content} (hi : InFile env cfg f x) (hs : Asked cfg.select) :
    ∃ ss, read env cfg f = .ok ss ∧ ShowsFile env cfg f x ss := by
  by_cases hm : HasMaps f
  · obtain ⟨st, s1, s2, h1, h2, h3, h4, h5, h6, h7, h8⟩ := before_streams hi.toLegible hs hm
    rw [h1]
    have hss : f.images.isSome → f.specImages.isSome := fun _ => hm.2
    by_cases hw : Wants cfg.select "spectrum_image"
    · obtain ⟨s3, s4, st', e1, e2, e3, e4⟩ := readSpectrumStream_ok hi hm h3 h4 h5 (h6 hw)
      simp only [decide_true, hw, e1, bind, Except.bind, pure, Except.pure]
      refine ⟨_, rfl, s1, s2, s3, s4, by rw [e2, h2], ?_, h8, ?_⟩
      · have : (Wants cfg.select "single_spectrum" ∧ (f.images.isSome = true → f.specImages.isSome = true)) ↔
          Wants cfg.select "single_spectrum" := ⟨fun h => h.1, fun h => ⟨h, hss⟩⟩
        simp only [this]
        exact h7
      · rw [if_pos ⟨hw, hm⟩]
        exact ⟨e3, e4⟩
    · simp only [decide_false, hw, readSpectrumStream, Bool.not_false, if_true, bind, Except.bind, pure, Except.pure]
      refine ⟨_, rfl, s1, s2, [], [], by rw [h2]; simp, ?_, h8, ?_⟩
      · have : (Wants cfg.select "single_spectrum" ∧ (f.images.isSome = true → f.specImages.isSome = true)) ↔
          Wants cfg.select "single_spectrum" := ⟨fun h => h.1, fun h => ⟨h, hss⟩⟩
        simp only [this]
        exact h7
      · rw [if_neg (fun h => hw h.1)]
        exact ⟨rfl, rfl⟩
  · have hl := hi.labels
    rw [if_neg hm] at hl
    have h2 := selection_eq hs
    have hk : kind f ≠ .stream := by
      rw [kind_eq, if_neg hm]
      split <;> simp
    by_cases him : f.images.isSome
    · have hk' : kind f = .image := by rw [kind_eq, if_neg hm, if_pos him]
      have hns : ¬ f.specImages.isSome := fun h => hm ⟨him, h⟩
      obtain ⟨s2, st, h5, h6, h7, h8, h9, h10, h11⟩ := readImages_ok
        (st := ⟨none, parseGroups f, [], none, cfg.last, none, cfg.dtype, []⟩) hi.toLegible rfl (by rw [hl]; rfl)
        (load := decide (Wants cfg.select "images")) (si := decide (Wants cfg.select "spectrum_image"))
      unfold EmdVelox.read
      simp only [hk', h2, bind, Except.bind, pure, Except.pure, h5]
      refine ⟨_, rfl, [], s2, [], [], by rw [h6]; simp, ?_, ?_, ?_⟩
      · rw [if_neg (fun h => hns (h.2 him))]
      · by_cases hw : Wants cfg.select "images"
        · rw [if_pos hw]
          rw [if_pos (by simpa using hw)] at h11
          exact h11
        · rw [if_neg hw]
          rw [if_neg (by simpa using hw)] at h11
          exact h11
      · rw [if_neg (fun h => hm h.2)]
        exact ⟨rfl, rfl⟩
    · have hk' : kind f = .spectrum := by rw [kind_eq, if_neg hm, if_neg him]
      obtain ⟨s1, det, h3, h4⟩ := spectraIf_ok (st := ⟨none, parseGroups f, [], none, cfg.last, none, cfg.dtype, []⟩)
        hi.toLegible rfl (Wants cfg.select "single_spectrum")
      have hn : f.images = none := by simpa using him
      obtain ⟨s2, st, h5, h6, h7, h8, h9, h10, h11⟩ := readImages_ok
        (st := ⟨det, parseGroups f, [], none, cfg.last, none, cfg.dtype, [] ++ s1⟩) hi.toLegible rfl (by rw [hl]; rfl)
        (load := decide (Wants cfg.select "images")) (si := decide (Wants cfg.select "spectrum_image"))
      unfold EmdVelox.read
      simp only [hk', h2, bind, Except.bind, pure, Except.pure, h3, h5]
      refine ⟨_, rfl, s1, s2, [], [], by rw [h6]; simp, ?_, ?_, ?_⟩
      · have : (Wants cfg.select "single_spectrum" ∧ (f.images.isSome = true → f.specImages.isSome = true)) ↔
          Wants cfg.select "single_spectrum" := ⟨fun h => h.1, fun h => ⟨h, fun h => absurd h him⟩⟩
        simp only [this]
        exact h4
      · by_cases hw : Wants cfg.select "images"
        · rw [if_pos hw]
          rw [if_pos (by simpa using hw)] at h11
          exact h11
        · rw [if_neg hw]
          rw [if_neg (by simpa using hw)] at h11
          exact h11
      · rw [if_neg (fun h => hm h.2)]
        exact ⟨rfl, rfl⟩

/-! ### C114: what is read -/

/-- C114. From a file that can be read come, in this order: its single spectra, its pictures, its EELS spectrum images, its
spectrum images; each of these if nothing or it is asked for. Every signal has the values of its dataset (a spectrum image the
number of events of its streams) and calibrated axes. Missing: files with metadata that are not complete, HDF5, and the
external functions in `Env`. -/
theorem C114_file_partial {env : Env} {cfg : Config} {f : File} {x : Content} (hi : InFile env cfg f x) (hs : Asked cfg.select) :
    ∃ ss, EmdVelox.read env cfg f = .ok ss ∧ ShowsFile env cfg f x ss := read_ok hi hs

/-- C114. Other words for the part to read are rejected. -/
theorem C114_rejects_select {env : Env} {cfg : Config} {f : File} {x : Content} (hi : Legible env cfg f x)
    (hs : ¬ Asked cfg.select) : EmdVelox.read env cfg f = .error .valueError := by
  have h : selection cfg.select = .error .valueError := by
    cases hc : cfg.select with
    | none => exact absurd (Or.inl hc) hs
    | some t =>
      rw [hc] at hs
      unfold Asked at hs
      simp only [reduceCtorEq, Option.some.injEq, false_or, not_or] at hs
      unfold selection
      simp only
      rw [if_neg hs.1, if_neg hs.2.1, if_neg hs.2.2]
  unfold EmdVelox.read
  have hl := hi.labels
  by_cases hm : HasMaps f
  · rw [if_pos hm] at hl
    have hk : kind f = .stream := by rw [kind_eq, if_pos hm]
    simp only [hk, if_true, parseLabels_ok hi.groups hl, h, bind, Except.bind]
  · have hk : kind f ≠ .stream := by
      rw [kind_eq, if_neg hm]
      split <;> simp
    simp only [hk, if_false, h, bind, Except.bind, pure, Except.pure]

/-- C114. More frames than there are in the file are rejected. -/
theorem C114_rejects_frames {env : Env} {cfg : Config} {f : File} {x : Content} (hi : Legible env cfg f x)
    (hs : Wants cfg.select "spectrum_image") (hm : HasMaps f)
    (he : ∀ l, f.eels = some l → EelsPixel env f x.two x.eels ∧ ∀ p ∈ l, EelsOk x.two p.2) {n k : Nat}
    (hn : FileFrames env f (some n)) (hk : cfg.last = some k) (h0 : n ≠ 0) (hlt : n < k) :
    EmdVelox.read env cfg f = .error .valueError := by
  have ha : Asked cfg.select := hs.imp id fun h => Or.inr (Or.inr h)
  obtain ⟨st, s1, s2, h1, h2, h3, h4, h5, h6, h7, h8⟩ := before_streams hi ha hm
  obtain ⟨s3, e1, e2⟩ := eelsPart_ok he
  rw [h1]
  have : readSpectrumStream env cfg f (decide (Wants cfg.select "spectrum_image")) st = .error .valueError := by
    unfold readSpectrumStream
    simp only [hs, decide_true, Bool.not_true, Bool.false_eq_true, if_false, e1, numberOfFrames_ok hn, bind, Except.bind,
      endFrame, h4, hk]
    rw [if_pos ⟨h0, hlt⟩]
  simp only [this, bind, Except.bind]

/-- C114. A number that does not divide the number of channels is rejected. -/
theorem C114_rejects_rebin {env : Env} {cfg : Config} {f : File} {x : Content} (hi : Legible env cfg f x)
    (hs : Wants cfg.select "spectrum_image") (hm : HasMaps f) (hfr : FileFrames env f x.known ∧ FramesExist cfg.last x.known)
    (he : ∀ l, f.eels = some l → EelsPixel env f x.two x.eels ∧ ∀ p ∈ l, EelsOk x.two p.2) {k : Text} {s : Stream}
    {l : List (Text × Stream)} (hst : f.streams = some ((k, s) :: l)) {n : Nat} (hn : Channels env s n) (h0 : cfg.rebin ≠ 0)
    (hd : ¬ cfg.rebin ∣ n) : EmdVelox.read env cfg f = .error .valueError := by
  have ha : Asked cfg.select := hs.imp id fun h => Or.inr (Or.inr h)
  obtain ⟨st, s1, s2, h1, h2, h3, h4, h5, h6, h7, h8⟩ := before_streams hi ha hm
  obtain ⟨s3, e1, e2⟩ := eelsPart_ok he
  obtain ⟨j, j1, j2⟩ := hn
  have hmod : n % cfg.rebin ≠ 0 := fun h => hd (Nat.dvd_of_mod_eq_zero h)
  have hrs : ∀ st, readStream env cfg st s = .error .valueError := by
    intro st
    unfold readStream
    simp only [get_look1 j1, j2, bind, Except.bind]
    rw [if_neg h0, if_pos hmod]
  have hss : ∀ st, readStreams env cfg st s (l.map Prod.snd) = .error .valueError := by
    intro st
    unfold readStreams someStreams
    cases cfg.sumDetectors
    · simp only [Bool.false_eq_true, if_false, eachStream, hrs, bind, Except.bind]
    · simp only [if_true, hrs, bind, Except.bind]
  rw [h1]
  have e4 := endFrame_ok (st := { st with out := st.out ++ s3, detector := some (.str "EDS".toList), number := x.known })
    (by rw [h4]; exact hfr.2)
  have : readSpectrumStream env cfg f (decide (Wants cfg.select "spectrum_image")) st = .error .valueError := by
    unfold readSpectrumStream
    simp only [hs, decide_true, Bool.not_true, Bool.false_eq_true, if_false, e1, numberOfFrames_ok hfr.1, bind, Except.bind,
      e4, hst, hss]
  simp only [this, bind, Except.bind]

/-! ### C115: names and metadata -/

/-- What the signals say about themselves. -/
structure Named (s : Signal) (filename : Text) (title : J) (date : Option (Text × Text × Text)) (signalType : Text) : Prop where
  general : s.md = ⟨filename, some title, date, signalType⟩

/-- C115. Every picture has the name of the file, the label of the last display that shows it, otherwise the name of its
detector or operation, and the date of its acquisition; single spectra and spectrum images are called EDS, EELS spectrum
images EELS. The original metadata are those of the file and of the dataset, with the metadata of the detector of a picture
and the parameters of the import of a spectrum image. -/
theorem C115_metadata_partial {env : Env} {cfg : Config} {f : File} {x : Content} (hi : InFile env cfg f x) (hs : Asked cfg.select) :
    ∃ s1 s2 s3 s4, EmdVelox.read env cfg f = .ok (s1 ++ s2 ++ s3 ++ s4) ∧
      (if Wants cfg.select "single_spectrum" ∧ (f.images.isSome → f.specImages.isSome) then
        List.Forall₂ (fun (q : (Text × Spectrum) × ((Nat × Option Nat) × SpecFacts)) s =>
          Named s x.base (.str "EDS".toList) q.2.2.date "EDS_TEM".toList ∧ Original x.groups q.1.2.md [] s.om)
          ((f.spectra.getD []).zip x.spectra) s1 else s1 = []) ∧
      (if Wants cfg.select "images" then
        List.Forall₂ (fun (q : (Text × Image) × Facts) s => ∃ label, LabelOf x.labels q.1.1 label ∧
          Named s x.base (label.getD q.2.name) q.2.date [] ∧
          Original x.groups q.1.2.md [("DetectorMetadata".toList, q.2.det)] s.om)
          ((f.images.getD []).zip x.images) s2 else s2 = []) ∧
      (if Wants cfg.select "spectrum_image" ∧ HasMaps f then
        List.Forall₂ (fun (p : Text × Eels) s => Named s f.name (.str "EELS".toList) none "EELS".toList ∧ s.om = p.2.md)
          (f.eels.getD []) s3 ∧
        List.Forall₂ (fun (p : Dict × List (List Nat)) s =>
          Named s x.base (.str "EDS".toList) x.maps.date "EDS_TEM".toList ∧
          Original x.groups p.1 [("ImportedDataParameter".toList, parameters x.scan)] s.om)
          (shownStreams cfg.sumDetectors (f.streams.getD [])) s4 else s3 = [] ∧ s4 = []) := by
  obtain ⟨ss, h, s1, s2, s3, s4, rfl, h1, h2, h3⟩ := read_ok hi hs
  refine ⟨s1, s2, s3, s4, h, ?_, ?_, ?_⟩
  · split
    · rename_i hc
      rw [if_pos hc] at h1
      exact h1.imp fun q s hq => ⟨⟨hq.general⟩, hq.om⟩
    · rename_i hc
      rw [if_neg hc] at h1
      exact h1
  · split
    · rename_i hc
      rw [if_pos hc] at h2
      exact h2.imp fun q s ⟨label, hl, hq⟩ => ⟨label, hl, ⟨hq.general⟩, hq.om⟩
    · rename_i hc
      rw [if_neg hc] at h2
      exact h2
  · split
    · rename_i hc
      rw [if_pos hc] at h3
      exact ⟨h3.1.imp fun q s hq => ⟨⟨hq.general⟩, hq.om⟩, h3.2.imp fun q s hq => ⟨⟨hq.general⟩, hq.om⟩⟩
    · rename_i hc
      rw [if_neg hc] at h3
      exact h3

end Verif.Props.EmdVelox
