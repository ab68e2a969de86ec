import Verif.Props.TofwerkFile
/-! C140, C141: examples and counterexamples for Tofwerk files. -/
namespace Verif.Props.TofwerkFile
open Verif Verif.TofwerkFile Verif.Tofwerk Verif.Spec.Tofwerk Verif.Spec.TofwerkFile

def exTable : List Peak := [⟨['a'], 5, 4, 6⟩, ⟨['n', 'o', 'm', 'i', 'n', 'a', 'l'], 1, 0, 2⟩, ⟨['b'], 3, 2, 4⟩]

/-- A file of three slices of two rows of four pixels. -/
def exTof : File where
  writes := some 3
  segments := some 2
  viewField := some (1 / 50)
  peakData := some (3, 2, 4, 3)
  events := some (3, 2, 4)
  table := some exTable
  massAxis := [-1, 0, 1, 2]
  sumLength := 4
  images := [(8, 16), (8, 16), (8, 16)]

theorem exSort : IsArgsort ((exTable.filter fun p => !isNominal p).map Peak.mass) [1, 0] := by
  refine ⟨by decide +kernel, ?_⟩
  rw [List.pairwise_cons]
  refine ⟨?_, List.pairwise_singleton _ _⟩
  intro b hb x y hx hy
  rw [List.mem_singleton] at hb
  subst hb
  have e : (exTable.filter fun p => !isNominal p).map Peak.mass = [5, 3] := by decide +kernel
  rw [e] at hx hy
  cases hx
  cases hy
  decide +kernel

/-- The hypotheses of `C140_reads_partial`: the slices from the second on, all signals. -/
example : Consistent exTof 3 2 4 ∧ IsDepth 3 (some (1, 3)) 1 3 ∧
    (∀ t, exTof.table = some t → IsArgsort ((t.filter fun p => !isNominal p).map Peak.mass) [1, 0]) ∧
    produced ⟨exTof.peakData.isSome, exTof.events.isSome, exTof.table, exTof.images.length⟩ false none none =
      .ok [.sum, .nominal, .additional, .events, .images] ∧
    (1 < exTof.images.length ∧ 1 < 3 ∧ ∃ d, ∀ i ∈ exTof.images, i = d) := by
  refine ⟨⟨rfl, rfl, ?_, ?_, rfl⟩, .inr ⟨rfl, by omega, by omega⟩, ?_, by decide +kernel, by decide, by omega, (8, 16), by decide⟩
  · intro d h
    cases h
    exact ⟨rfl, rfl, rfl⟩
  · intro d h
    cases h
    rfl
  · intro t h
    cases h
    exact exSort

example : ((reader exTof [1, 0] false 2 (some (1, 3)) none none).toOption.map fun l => l.map fun g => (g.axes.map Ax.size, g.shape)) =
    some [([3], [3]), ([2, 2, 4, 1], [2, 2, 4, 1]), ([2, 2, 4, 2], [2, 2, 4, 2]), ([2, 2, 4], [2, 2, 4]), ([2, 8, 16], [2, 8, 16])] := by
  decide +kernel

example : reader exTof [1, 0] false 2 none none (some [.events]) =
    .ok [⟨.events, [.line "depth".toList 3 (some ⟨0, 1, "slice".toList⟩) true, .line "y".toList 2 (some ⟨0, 5, "µm".toList⟩) true,
      .line "x".toList 4 (some ⟨0, 5, "µm".toList⟩) true], [3, 2, 4]⟩] := by
  decide +kernel

/-- The hypotheses of `C140_rejects`. -/
example : (∃ a b n, (some (2, 2) : Option (Int × Int)) = some (a, b) ∧ exTof.writes = some n ∧ (a < 0 ∨ b > (n : Int) ∨ a ≥ b)) :=
  ⟨2, 2, 3, rfl, rfl, .inr (.inr (le_refl _))⟩

/-- C140 fails for an acquisition that was stopped: the number of slices of the attributes is that of the axis, though the data have
fewer. -/
theorem C140_fails_writes : ((reader { exTof with writes := some 5 } [1, 0] false 2 none none (some [.nominal])).toOption.map
    fun l => l.map fun g => (g.axes.map Ax.size, g.shape)) = some [([5, 2, 4, 1], [3, 2, 4, 1])] := by
  decide +kernel

/-- C140 fails for a number of segments other than the number of rows. -/
theorem C140_fails_segments : ((reader { exTof with segments := none } [1, 0] true 2 none none (some [.events])).toOption.map
    fun l => l.map fun g => (g.axes.map Ax.size, g.shape)) = some [([3, 1, 4], [3, 2, 4])] := by
  decide +kernel

/-- C140 fails for additional peaks of an acquisition that was stopped: the last slice is repeated for the slices that are missing if
it is alone in its batch; with other batches reading fails. -/
theorem C140_fails_fill :
    ((reader { exTof with writes := some 4 } [1, 0] false 2 none none (some [.additional])).toOption.map
      fun l => l.map fun g => g.shape) = some [[4, 2, 4, 2]] ∧
    reader { exTof with writes := some 4 } [1, 0] false 4 none none (some [.additional]) = .error .valueError := by
  decide +kernel

/-- C140 fails for images of fewer slices: reading from a slice on for which there is none fails for all signals. -/
theorem C140_fails_images :
    reader { exTof with images := [(8, 16)] } [1, 0] false 2 (some (1, 3)) none none = .error .valueError := by
  decide +kernel

/-- C140 fails for the position of the slices: the depth axis of the slices from the second on starts at zero. -/
theorem C140_fails_offset : ((reader exTof [1, 0] false 2 (some (1, 3)) none (some [.events])).toOption.map
    fun l => l.map fun g => g.axes[0]?) = some [some (.line "depth".toList 2 (some ⟨0, 1, "slice".toList⟩) true)] := by
  decide +kernel

/-! ### C141 -/

def exMoment : Moment := ⟨2025, 1, 9, 7, 5, 0, some (-19800)⟩

def exParsers : Parsers := ⟨fun t => if t = "log".toList then some exMoment else none,
  fun t => if t = "attr".toList then some { exMoment with year := 824, offset := none } else none⟩

/-- The hypotheses of `C141_time`. -/
example : exParsers.iso "log".toList = some exMoment ∧ Calendar exMoment ∧
    creationTime exParsers (some "log".toList) none = ("2025-01-09".toList, "07:05:00".toList, "-05:30".toList) ∧
    creationTime exParsers none (some "attr".toList) = ("0824-01-09".toList, "07:05:00".toList, []) ∧
    creationTime exParsers none none = ([], [], []) := by
  refine ⟨rfl, ⟨by decide, by decide, by decide, by decide, by decide, by decide, ?_⟩, by decide +kernel, by decide +kernel,
    by decide +kernel⟩
  intro s h
  cases h
  decide

/-- The hypotheses of `C141_masses`. -/
example : massRange exTof = (1, 5) ∧ massRange { exTof with peakData := none } = (1, 2) := by
  decide +kernel

/-- The hypotheses of `C141_pixel_partial`: as many segments as pixels. -/
example : Consistent { exTof with segments := some 4, peakData := some (3, 4, 4, 3), events := none } 3 4 4 ∧
    metaPixel { exTof with segments := some 4 } = some 5 := by
  refine ⟨⟨rfl, rfl, ?_, ?_, rfl⟩, by decide +kernel⟩
  · intro d h
    cases h
    exact ⟨rfl, rfl, rfl⟩
  · intro d h
    cases h

/-- C141 fails for the pixel size of the metadata, which is computed from the number of rows: here it is twice that of the axes. -/
theorem C141_fails_pixel : metaPixel exTof = some 10 ∧ pixelSize exTof (width exTof) = some 5 := by
  decide +kernel

/-- The hypotheses of `C141_channels_partial`. -/
example : Config [('1', 1), ('3', 1)] ("\nCh1Record=1Ch3Record=1".toList) ∧
    activeChannels "[TOFParameter]\nCh1FullScale=2\nCh1Record=1\nCh2Record=0\nCh3Record=1".toList = 2 := by
  refine ⟨?_, by decide +kernel⟩
  refine .other ?_ (.channel (c := '1') (v := 1) (by decide) (by decide) (.channel (c := '3') (v := 1) (by decide) (by decide) .nil))
  rintro ⟨c, v, rest, -, -, h⟩
  cases h

/-- C141 fails for channels with a number of two digits: they are not counted. -/
theorem C141_fails_channels : activeChannels "Ch1Record=1\nCh10Record=1".toList = 1 := by
  decide +kernel

/-- C141 fails for numbers other than 0 and 1: one channel counts for several. -/
theorem C141_fails_values : activeChannels "Ch1Record=3\nCh2Record=0".toList = 3 := by
  decide +kernel

example : clockRatio (some (1 / 1000)) (some (3 / 1000)) = 3 := by decide +kernel

/-- C141 fails for a clock without the interval of samples, which is then taken as one second. -/
theorem C141_fails_interval : clockRatio (some (1 / 1000000000)) none = 1000000000 := by
  decide +kernel

end Verif.Props.TofwerkFile
