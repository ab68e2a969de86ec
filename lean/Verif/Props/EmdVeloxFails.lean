import Verif.Props.EmdVelox
/-!
C114 and C115: an example of a file, and what does not hold.
-/
namespace Verif.Props.EmdVelox
open Verif Verif.EmdVelox Verif.Spec.EmdVelox

/-! ### An example -/

/-- External functions of the example: no unit is changed. -/
def exEnv : Env where
  float := fun | .num q => .ok q | _ => .error .typeError
  nat := fun | .num q => .ok q.num.toNat | _ => .error .typeError
  fmt := fun _ => ['0']
  compact := fun _ u => .ok u
  ratio := fun _ _ => .ok 1
  f64 := id
  iso := fun _ => "2020-01-01T10:00:00+00:00".toList
  zone := "UTC".toList
  values := fun _ => .ok 65536

/-- An entry of a dictionary. -/
def e (k : String) (v : J) : Text × J := (k.toList, v)

/-- The metadata of the detector. -/
def exDetector : Dict := [e "DetectorName" (.str ['A']), e "Dispersion" (.num 5), e "OffsetEnergy" (.num (-10))]

/-- Metadata of all datasets of the example. -/
def exMd : Dict :=
  [e "BinaryResult" (.dict [e "DetectorIndex" (.num 0), e "Detector" (.str ['A']),
      e "PixelSize" (.dict [e "width" (.num 2), e "height" (.num 3)]), e "Offset" (.dict [e "x" (.num 1), e "y" (.num 4)]),
      e "PixelUnitX" (.str ['m']), e "PixelUnitY" (.str ['m'])]),
   e "Detectors" (.dict [e "Detector-0" (.dict exDetector)]),
   e "Scan" (.dict [e "FrameTime" (.num 7)]),
   e "Acquisition" (.dict [e "AcquisitionStartDatetime" (.dict [e "DateTime" (.num 9)])])]

/-- A picture of the example. -/
def exImage (ny nx : Nat) : Image := ⟨ny, nx, 1, .num "uint16".toList, fun r c _ => ⟨10 * r + c, 0⟩, exMd⟩

/-- A stream of the example: two frames with two pixels. -/
def exStream : Stream :=
  ⟨.dict [e "bincount" (.num 4), e "StreamEncoding" (.str "uint16".toList)], [1, 65535, 3, 3, 65535, 65535, 0, 65535], exMd⟩

/-- A file with a picture, a spectrum, an EELS spectrum image and a spectrum image. -/
def exFile : File where
  name := "d/a.emd".toList
  version := 10
  groups := []
  images := some [(['k'], exImage 1 2)]
  spectra := some [(['s'], ⟨[3], fun i => i.headD 0, exMd⟩)]
  specImages := some [(['i'], ⟨some (.dict [e "endFramePosition" (.num 2)]), exMd⟩)]
  streams := some [(['t'], exStream), (['u'], exStream)]
  eels := some [(['l'], ⟨[2, 5, 1], fun i => i.headD 0,
    [e "Data" (.dict [e "offset" (.num 100), e "dispersion" (.num 1)])], []⟩)]
  lookup := fun _ => .error .keyError
  displays := some [(['d'], some (.dict [e "dataPath" (.str "/Data/Image/k".toList),
    e "display" (.dict [e "label" (.str "Picture".toList)])]))]

/-- The defaults. -/
def exConfig : Config := ⟨none, 0, none, true, true, 1, none, false, false⟩

/-- The date of the example. -/
def exDate : Option (Text × Text × Text) := some ("2020-01-01".toList, "10:00:00".toList, "UTC".toList)

/-- The pixels of the example. -/
def exPixel : Pixel := ⟨2, 3, 1, 4, ['m']⟩

/-- What is in the file of the example. -/
def exContent : Content where
  base := "a.emd".toList
  groups := fun _ => none
  spectra := [((3, none), ⟨5, -10, exDate⟩)]
  labels := [(['k'], .str "Picture".toList)]
  images := [⟨exPixel, 7, .str ['A'], exDate, [("Detector-0".toList, exDetector, ['A'])], .dict exDetector⟩]
  known := some 2
  two := true
  eels := ⟨exPixel, ['m'], ['m'], 1, 1⟩
  scan := ⟨1, 2, 4, 0, 2, 1, some 2⟩
  dtype := "uint16".toList
  values := 65536
  maps := ⟨exPixel, 5, -10, exDate, 7⟩

theorem exNum {path : List String} {q : ℚ} (h : value path exMd = some (.num q)) : Num exEnv exMd path q := ⟨_, h, rfl⟩

theorem exKnown (u : Text) : Known exEnv u := fun _ => ⟨u, 1, rfl, rfl⟩

theorem exDetectorOf : DetectorOf exEnv exMd (some (.dict exDetector)) :=
  ⟨.num 0, Or.inl ⟨rfl, by intro h; cases h⟩, rfl⟩

theorem exDetectorList : DetectorList exMd [("Detector-0".toList, exDetector, ['A'])] := by
  refine ⟨rfl, ?_⟩
  intro x hx
  simp only [List.mem_singleton] at hx
  subst hx
  rfl

theorem exEnergyOf : EnergyOf exEnv exMd 5 (-10) :=
  ⟨['A'], _, [], ("Detector-0".toList, exDetector, ['A']), [], rfl, exDetectorList, rfl, by simp, List.infix_refl _,
    ⟨_, rfl, rfl⟩, ⟨_, rfl, rfl⟩⟩

theorem exDateOf : DateOf exEnv exMd exDate :=
  Or.inr ⟨9, "2020-01-01".toList, "10:00:00".toList, "+00:00".toList, Or.inl (exNum rfl), by decide +kernel, by decide +kernel,
    by decide +kernel, by decide +kernel, by decide +kernel, Or.inr ⟨"00:00".toList, rfl⟩, rfl⟩

theorem exPixelGiven : PixelGiven exEnv exMd exPixel := ⟨exNum rfl, exNum rfl, exNum rfl, exNum rfl, rfl⟩

theorem exLegible : Legible exEnv exConfig exFile exContent where
  floats := fun _ => rfl
  base := ⟨by decide +kernel, Or.inr ⟨['d'], rfl⟩⟩
  groups := fun _ => rfl
  spectra := by
    refine List.Forall₂.cons ⟨rfl, ⟨_, exDetectorOf⟩, exEnergyOf, exDateOf⟩ List.Forall₂.nil
  images := by
    refine List.Forall₂.cons ⟨by decide, by decide, ?_⟩ List.Forall₂.nil
    refine ⟨⟨⟨_, rfl⟩, Or.inr ⟨exNum rfl, exNum rfl⟩, Or.inr ⟨exNum rfl, exNum rfl⟩, Or.inr rfl⟩, exKnown _,
      fun h => absurd rfl h, Or.inr ⟨rfl, _, exDetectorOf, rfl⟩, exDateOf, exDetectorList, Or.inl ⟨[], _, [], rfl, by simp, rfl, rfl⟩⟩
  labels := by
    rw [if_pos ⟨rfl, rfl⟩]
    unfold Displays
    rw [if_neg (by decide)]
    refine ⟨_, rfl, List.Forall₂.cons ⟨_, _, rfl, rfl, ⟨by decide, Or.inr ⟨"/Data/Image".toList, rfl⟩⟩, rfl⟩ List.Forall₂.nil⟩

theorem exInRange : FeiSpec.InRange exStream.data 1 2 1 0 2 (4 / 1) := by
  intro f y x _ hf hy hx
  obtain rfl : y = 0 := by omega
  have h1 : f = 0 ∨ f = 1 := by omega
  have h2 : x = 0 ∨ x = 1 := by omega
  rcases h1 with rfl | rfl <;> rcases h2 with rfl | rfl <;> decide

theorem exInFile : InFile exEnv exConfig exFile exContent where
  toLegible := exLegible
  known := fun _ => ⟨⟨_, _, _, _, _, rfl, rfl, rfl, rfl⟩, fun _ _ h => by cases h⟩
  eels := by
    intro _ l hl
    cases hl
    refine ⟨⟨_, _, _, _, rfl, rfl, exNum rfl, exNum rfl, rfl, rfl, rfl, rfl, exNum rfl, exNum rfl, rfl, rfl⟩, ?_⟩
    intro p hp
    simp only [List.mem_singleton] at hp
    subst hp
    exact ⟨rfl, _, _, rfl, rfl⟩
  streams := by
    intro _ k s l h
    simp only [exFile, Option.some.injEq, List.cons.injEq, Prod.mk.injEq] at h
    obtain ⟨⟨rfl, rfl⟩, rfl⟩ := h
    refine ⟨⟨by decide, by decide⟩, ⟨_, _, rfl, ?_⟩, rfl, ⟨rfl, by decide, by decide⟩, ⟨⟨rfl, rfl⟩, by decide⟩,
      Or.inr ⟨rfl, rfl⟩, ⟨rfl, by decide⟩, ⟨_, rfl, rfl⟩, (fun h => by cases h), ?_,
      ⟨⟨_, exDetectorOf⟩, exPixelGiven, exKnown _, exEnergyOf, exDateOf, (fun h => by cases h)⟩⟩
    · intro p hp
      simp only [List.mem_singleton] at hp
      subst hp
      rfl
    · intro p hp
      simp only [List.mem_cons, List.not_mem_nil, or_false] at hp
      rcases hp with rfl | rfl <;> exact exInRange

/-- The hypotheses of `C114_file_partial` and `C115_metadata_partial` can be met: a file with a picture, a spectrum, an EELS
spectrum image and two streams. -/
example : InFile exEnv exConfig exFile exContent ∧ Asked exConfig.select ∧ HasMaps exFile := ⟨exInFile, Or.inl rfl, by decide⟩

/-- The shapes read from it. -/
example : (EmdVelox.read exEnv exConfig exFile).map (·.map Signal.shape) = .ok [[3], [1, 2], [1, 2, 5], [1, 2, 4]] := by
  decide +kernel

/-- The hypotheses of `C114_rejects_select` can be met. -/
example : Legible exEnv { exConfig with select := some "picture".toList } exFile exContent ∧ ¬ Asked (some "picture".toList) :=
  ⟨⟨exLegible.floats, exLegible.base, exLegible.groups, exLegible.spectra, exLegible.images, exLegible.labels⟩, by
    unfold Asked
    decide +kernel⟩

/-- The hypotheses of `C114_rejects_frames` can be met: frame 3 of 2. -/
example : Legible exEnv { exConfig with last := some 3 } exFile exContent ∧ FileFrames exEnv exFile (some 2) :=
  ⟨⟨exLegible.floats, exLegible.base, exLegible.groups, exLegible.spectra, exLegible.images, exLegible.labels⟩,
    ⟨_, _, _, _, _, rfl, rfl, rfl, rfl⟩⟩

/-- The hypotheses of `C114_rejects_rebin` can be met: 3 and 4 channels. -/
example : Channels exEnv exStream 4 ∧ ¬ 3 ∣ 4 := ⟨⟨_, rfl, rfl⟩, by decide⟩

/-! ### What does not hold -/

/-- The number in a value. -/
def num : J → Option ℚ
  | .num q => some q
  | _ => none

/-- The text in a value. -/
def str : J → Option Text
  | .str t => some t
  | _ => none

/-- C114. The axes of an EELS spectrum image do not fit its array: the axis `y` has the length of the first dimension and
says it is the second, `x` the other way round. -/
theorem C114_fails_eels_axes {f : File} {x : EelsFacts} {d : Eels} {s : Signal} {a b c : Nat} (h : ShowsEels f true x d s)
    (hs : d.shape = [a, b, c]) (hne : a ≠ c) :
    ∃ ay ax en, s.axes = [ay, ax, en] ∧ ay.index = some 1 ∧ s.shape[1]? ≠ some ay.size ∧
      ax.index = some 0 ∧ s.shape[0]? ≠ some ax.size := by
  obtain ⟨h1, _, en, _, h2⟩ := h.cube rfl a b c hs
  refine ⟨_, _, en, h2, rfl, ?_, rfl, ?_⟩
  · rw [h1]
    simpa using hne
  · rw [h1]
    simpa using fun h => hne h.symm

/-- C114. The shape of a spectrum image is that of the last picture read: with pictures of different shapes it depends on
what is asked for. -/
theorem C114_fails_shape : ∃ f : File,
    (EmdVelox.read exEnv { exConfig with select := some "spectrum_image".toList } f).map (·.map Signal.shape) = .ok [[1, 2, 4]] ∧
    (EmdVelox.read exEnv exConfig f).map (·.map Signal.shape) = .ok [[1, 2], [2, 1], [2, 1, 4]] :=
  ⟨{ exFile with images := some [(['k'], exImage 1 2), (['m'], exImage 2 1)], spectra := none, eels := none },
    by decide +kernel, by decide +kernel⟩

/-- C114. The scale of the energy axis of a single spectrum is multiplied with `rebin_energy` although its channels are not
merged. -/
theorem C114_fails_rebin : ∃ (f : File) (cfg : Config), cfg.rebin = 2 ∧
    (EmdVelox.read exEnv cfg f).map (·.map fun s => (s.shape, s.axes.map fun a => num a.scale)) = .ok [([3], [some (1 / 100)])] ∧
    (EmdVelox.read exEnv exConfig f).map (·.map fun s => (s.shape, s.axes.map fun a => num a.scale)) = .ok [([3], [some (1 / 200)])] :=
  ⟨{ exFile with images := none, specImages := none }, { exConfig with rebin := 2 }, rfl, by decide +kernel, by decide +kernel⟩

/-- C114. A single spectrum without calibration has the unit keV and the scale 1. -/
theorem C114_fails_uncalibrated : ∃ f : File,
    (EmdVelox.read exEnv exConfig f).map (·.map fun s => s.axes.map fun a => (num a.scale, a.units)) =
      .ok [[(some 1, some "keV".toList)]] :=
  ⟨{ exFile with
      images := none
      specImages := none
      spectra := some [(['s'], ⟨[3], fun i => i.headD 0,
        [e "BinaryResult" (.dict [e "Detector" (.str ['A'])]), e "Detectors" (.dict [e "Detector-0" (.dict [e "DetectorName" (.str ['A'])])]),
         e "Acquisition" (.dict [e "AcquisitionStartDatetime" (.dict [e "DateTime" (.num 9)])])]⟩)] }, by decide +kernel⟩

/-- C114. Nothing is read from a file with spectrum streams but without pictures. -/
theorem C114_fails_no_pictures : ∃ f : File, f.streams.isSome ∧ f.specImages.isSome ∧
    (EmdVelox.read exEnv exConfig f).map List.length = .ok 0 :=
  ⟨{ exFile with images := none, spectra := none }, rfl, rfl, by decide +kernel⟩

/-- C114. Single spectra are not read from a file with pictures and without spectrum images, even if asked for. -/
theorem C114_fails_spectra : ∃ f : File, f.spectra.map List.length = some 1 ∧
    (EmdVelox.read exEnv { exConfig with select := some "single_spectrum".toList } f).map List.length = .ok 0 :=
  ⟨{ exFile with specImages := none }, by decide +kernel, by decide +kernel⟩

/-- C114. The type of a picture depends on `lazy`. -/
theorem C114_fails_lazy : ∃ f : File,
    (EmdVelox.read exEnv exConfig f).map (·.map Signal.dtype) = .ok ["float64".toList] ∧
    (EmdVelox.read exEnv { exConfig with lazy := true } f).map (·.map Signal.dtype) = .ok ["uint16".toList] :=
  ⟨{ exFile with specImages := none }, by decide +kernel, by decide +kernel⟩

/-- C114. If the streams of detectors are added, the number of channels of the others is not looked at: events in channels
the first does not have are outside of the array. -/
theorem C114_fails_channels : ∃ f : File,
    (EmdVelox.read exEnv { exConfig with sumDetectors := false } f).map (·.map Signal.shape) = .ok [[1, 2], [1, 2, 4], [1, 2, 8]] ∧
    (EmdVelox.read exEnv exConfig f).map (·.map Signal.shape) = .error .indexError :=
  ⟨{ exFile with
      images := some [(['k'], exImage 1 2)]
      spectra := none
      eels := none
      streams := some [(['t'], exStream), (['u'], ⟨.dict [e "bincount" (.num 8)], [7, 65535, 65535, 65535, 65535], exMd⟩)] },
    by decide +kernel, by decide +kernel⟩

/-- C115. The name of the file in the metadata is without directories, but not for EELS spectrum images. -/
theorem C115_fails_filename : ∃ f : File, f.name = "d/a.emd".toList ∧
    (EmdVelox.read exEnv { exConfig with select := some "spectrum_image".toList } f).map (·.map fun s => s.md.filename) =
      .ok ["d/a.emd".toList, "a.emd".toList] :=
  ⟨exFile, rfl, by decide +kernel⟩

/-- C115. Whether the entries of single detectors are in the mapping of spectrum images depends on `sum_frames`, not on
`sum_EDS_detectors`. -/
theorem C115_fails_individual : ∃ f : File,
    (EmdVelox.read exEnv { exConfig with select := some "spectrum_image".toList, sumDetectors := false } f).map
      (·.map fun s => s.mapping.map Mapping.individual) = .ok [some false, some false] ∧
    (EmdVelox.read exEnv { exConfig with select := some "spectrum_image".toList, sumFrames := false } f).map
      (·.map fun s => s.mapping.map Mapping.individual) = .ok [some true] :=
  ⟨{ exFile with eels := none }, by decide +kernel, by decide +kernel⟩

/-- C115. A picture without number of its detector, in a file without operations, has the name of the detector of the picture
before. -/
theorem C115_fails_stale_name : ∃ f : File,
    (EmdVelox.read exEnv exConfig f).map (·.map fun s => s.md.title.bind str) = .ok [some ['A'], some ['A']] :=
  ⟨{ exFile with
      specImages := none
      images := some [(['k'], exImage 1 2),
        (['m'], { exImage 1 2 with
          md := [e "BinaryResult" (.dict []), e "Detectors" (.dict []),
            e "Acquisition" (.dict [e "AcquisitionStartDatetime" (.dict [e "DateTime" (.num 9)])])] })] }, by decide +kernel⟩

/-- C115. A difference to UTC with a minus sign stays in the time. -/
theorem C115_fails_zone : ∃ (env : Env) (f : File), env.iso 9 = "2020-01-01T05:00:00-05:00".toList ∧
    (EmdVelox.read env exConfig f).map (·.map fun s => s.md.dateTime.map fun d => d.2.1) = .ok [some "05:00:00-05:00".toList] :=
  ⟨{ exEnv with iso := fun _ => "2020-01-01T05:00:00-05:00".toList }, { exFile with specImages := none }, rfl, by decide +kernel⟩

/-- C115. A picture without start of its acquisition and without custom properties is an error. -/
theorem C115_fails_no_date : ∃ f : File, (EmdVelox.read exEnv exConfig f).map List.length = .error .keyError :=
  ⟨{ exFile with
      specImages := none
      images := some [(['k'], { exImage 1 2 with
        md := [e "BinaryResult" (.dict []), e "Detectors" (.dict []), e "Acquisition" (.dict [])] })] }, by decide +kernel⟩

end Verif.Props.EmdVelox
