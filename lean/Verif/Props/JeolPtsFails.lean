import Verif.Props.JeolPts
/-! C127: a file that meets the hypotheses, and counterexamples. -/
namespace Verif.Props.JeolPtsFails
open Verif Verif.Jeol Verif.Props.Jeol Verif.Props.JeolPts

/-- A frame of 2 x 2 pixels with an event in the first and the last one. -/
def frame22 (e : Nat) : List Nat := [row 0, col 0, ev e, col 2048, row 2048, col 0, col 2048, ev 9]

def fs3 : List (List Nat) := [frame22 7, frame22 7, frame22 8]

def head22 : PtsHeader := ⟨"2x2".toList, 1, 1, 1 / 100, 0, 2, 10, 2⟩

def plain : Opts := ⟨1, true, 255, none, .one 1, true, none, none, none⟩

theorem frames3 : Frames (frame22 7 ++ (frame22 7 ++ (frame22 8 ++ []))) fs3 := by
  refine .cons (by decide) ?_ (.cons (by decide) ?_ (.cons (by decide) ?_ .nil))
  · refine ⟨by decide +kernel, ?_⟩
    intro w t e
    obtain ⟨rfl, -⟩ := List.cons.inj e
    exact ⟨by decide, 2048, by decide +kernel, by decide⟩
  · refine ⟨by decide +kernel, ?_⟩
    intro w t e
    obtain ⟨rfl, -⟩ := List.cons.inj e
    exact ⟨by decide, 2048, by decide +kernel, by decide⟩
  · refine ⟨by decide +kernel, ?_⟩
    intro w t e
    cases e

def raw3 : List Nat := frame22 7 ++ (frame22 7 ++ (frame22 8 ++ []))

theorem ok_of_isSome {α : Type} {m : Py α} (h : m.toOption.isSome = true) : ∃ a, m = .ok a := by
  cases m with
  | ok a => exact ⟨a, rfl⟩
  | error e => cases h

theorem positioned22 (e : Nat) : Positioned (frame22 e) := by
  intro i w hi hw
  match i, hi with
  | 0, hi => cases hi; exact absurd hw (by decide)
  | 1, hi => cases hi; exact absurd hw (by decide)
  | 2, hi =>
    refine ⟨?_, ?_⟩
    · show valuesOf 9 [row 0, col 0] ≠ []
      decide
    · show valuesOf 8 [row 0, col 0] ≠ []
      decide
  | 3, hi => cases hi; exact absurd hw (by decide)
  | 4, hi => cases hi; exact absurd hw (by decide)
  | 5, hi => cases hi; exact absurd hw (by decide)
  | 6, hi => cases hi; exact absurd hw (by decide)
  | 7, hi =>
    refine ⟨?_, ?_⟩
    · show valuesOf 9 (row 0 :: _) ≠ []
      rw [valuesOf_cons, if_pos (by decide)]
      simp
    · show valuesOf 8 (row 0 :: col 0 :: _) ≠ []
      rw [valuesOf_cons, if_neg (by decide), valuesOf_cons, if_pos (by decide)]
      simp
  | n + 8, hi => cases hi

/-- The file meets the hypotheses of `C127_all`, and the counts of the three frames are added. -/
example : ∃ s m, readPts head22 plain raw3 = .ok s ∧ s.maps = [m] ∧ s.shape = [2, 2, 4096] ∧ m 0 0 7 = 2 ∧ m 0 0 8 = 1 ∧ m 1 1 9 = 3 := by
  obtain ⟨s, hs⟩ := ok_of_isSome (m := readPts head22 plain raw3) (by decide +kernel)
  have hcomp : ∀ a ∈ fs3, Complete (scanPar 2 2 1 1 1 (2 / 1 : Nat) (2 / 1 : Nat) (4096 / 1 : Nat) 0 0 0) a := by
    intro a ha
    simp only [fs3, List.mem_cons, List.not_mem_nil, or_false] at ha
    rcases ha with rfl | rfl | rfl <;> exact ⟨⟨2048, by decide +kernel, by decide +kernel⟩, Or.inl (by decide +kernel)⟩
  obtain ⟨m, h1, h2, h3⟩ := C127_all head22 plain raw3 fs3 2 2 1 1 s (by decide +kernel) frames3 (fun l hl => by cases hl) (.one 1)
    (by decide) (by decide) rfl rfl rfl (by decide) rfl (by decide) (by
      intro a ha
      simp only [fs3, List.mem_cons, List.not_mem_nil, or_false] at ha
      rcases ha with rfl | rfl | rfl <;> exact positioned22 _) hcomp hs
  refine ⟨s, m, hs, h1, h2, ?_, ?_, ?_⟩
  · exact (h3 0 0 7 (by decide) (by decide) (by decide)).trans (by decide +kernel)
  · exact (h3 0 0 8 (by decide) (by decide) (by decide)).trans (by decide +kernel)
  · exact (h3 1 1 9 (by decide) (by decide) (by decide)).trans (by decide +kernel)

/-- Shape and sizes of the axes. -/
def sizes (m : Py PtsSignal) : Option (List Int × List Int) := m.toOption.map fun s => (s.shape, s.axes.map (·.size))

/-- C127 fails for a list of frames: the size of the frame axis is the number of the last frame and one (3), not the number of frames
that are loaded (2). -/
theorem C127_fails_frame_list : sizes (readPts head22 { plain with sumFrames := false, frames := some [0, 2] } raw3) =
    some ([2, 2, 2, 4096], [3, 2, 2, 4096]) := by
  decide +kernel

/-- C127 fails for downsampling: a frame of 4 pixels of 10 ms takes 0.04 s, but the scale of the frame axis is 0.01 s when rows and columns
are downsampled by 2. -/
theorem C127_fails_frame_time :
    ((readPts head22 { plain with sumFrames := false } raw3).toOption.map fun s => (s.axes.map (·.scale)).head?) = some (some (4 / 100)) ∧
    ((readPts head22 { plain with sumFrames := false, down := .one 2 } raw3).toOption.map fun s => (s.axes.map (·.scale)).head?) =
      some (some (1 / 100)) := by
  decide +kernel

/-- C127 fails for shifts: the second frame is one row lower, so that the first row of the result is the second of the first frame; but it
is the column axis that gets an offset, of 1 µm, when a pixel is 500 µm. -/
theorem C127_fails_origin :
    ((readPts head22 { plain with frames := some [0, 1], shifts := some [[0, 0], [1, 0]] } raw3).toOption.map fun s =>
      (s.shape, s.axes.map fun a => (a.name, a.offset, a.scale))) =
      some ([1, 2, 4096], [("y".toList, 0, 500), ("x".toList, 1, 500), ("Energy".toList, -2 / 100, 1 / 100)]) := by
  decide +kernel

/-- C127 fails for the axes of the S(T)EM image: they are the same dictionaries as those of the spectrum image and become navigation axes. -/
theorem C127_fails_image_axes : ((readPts head22 plain raw3).toOption.map fun s => s.emAxes.map fun a => (a.name, a.navigate)) =
    some [("y".toList, true), ("x".toList, true)] := by
  decide +kernel

/-- C127 fails for a cut-off above the range of the detector: the array gets channels (5002) that the detector does not have. -/
theorem C127_fails_cutoff : sizes (readPts head22 { plain with cutoff := some 50 } raw3) = some ([2, 2, 5002], [2, 2, 5002]) := by
  decide +kernel

/-- C127 fails if the stream has more frames than the header says and one: the others are left out. -/
theorem C127_fails_sweeps : ((readPts { head22 with sweep := 1 } plain raw3).toOption.map fun s => s.maps.map fun m => m 1 1 9) = some [2] := by
  decide +kernel

/-- C127 fails for shifts of two numbers for all frames, if not all frames are loaded: `ValueError`. -/
theorem C127_fails_shift_list : (readPts head22 { plain with frames := some [0], shifts := some [[0, 0], [1, 0], [1, 1]] } raw3).toOption.isNone =
    true ∧ (readPts head22 { plain with frames := some [0], shifts := some [[0, 0, 0], [1, 0, 0], [1, 1, 0]] } raw3).toOption.isSome = true := by
  decide +kernel

end Verif.Props.JeolPtsFails
