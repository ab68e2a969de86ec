import Verif.Props.Bruker
/-! Signals of Bruker files: cases, and where C135 to C137 do not hold. -/
namespace Verif.Props.Bruker
open Verif Verif.Bruker
open Verif.Xml (V)

/-- An image of 2 rows of 3 pixels of 2 bytes. -/
def image1 : ImageNode :=
  ⟨3, 2, 2, [⟨"AQACAAMA\nBAAFAAYB".toList, some "SE".toList⟩, ⟨"AAAAAAAAAAAAAAAA".toList, some "blank".toList⟩]⟩

def header1 : Header :=
  { name := some "Map".toList
    date := "2019-03-12".toList
    time := "09:05:00".toList
    version := 2
    hv := some 20
    dx := some (1 / 2)
    dy := some (1 / 2)
    mag := some 2000
    lineCounter := [1, 1]
    lineAverage := 1
    pixelAverage := 2
    pixelTime := 16
    images := [(some "Ref".toList, image1), (none, image1), (some "Other".toList, image1)]
    overviews := [image1]
    regions := [("O".toList, some "K".toList), ("Au".toList, some "LA1".toList), ("Al".toList, none)] }

def spectrum1 : Spectrum :=
  { amplification := 40000
    detectorType := "XFlash 6|10".toList
    hv := some 20
    elevation := 35
    azimuth := some 45
    realTime := some 5000
    lifeTime := some 4000
    stamp := some ("2019-03-12".toList, "09:05:00".toList)
    offset := -1
    scale := 2
    data := [0, 1, 5, 2, 0, 0] }

/-- A decoder that gives the shape. -/
def parse1 (_ : Nat) (shape : List Nat) (ds : Nat) : Py (List Nat) := .ok (shape ++ [ds])

/-- The planes of the image, decoded. -/
def planes1 : List (Plane × List Nat) :=
  [(⟨"AQACAAMA\nBAAFAAYB".toList, some "SE".toList⟩, [1, 2, 3, 4, 5, 262]),
   (⟨"AAAAAAAAAAAAAAAA".toList, some "blank".toList⟩, [0, 0, 0, 0, 0, 0])]

/-- The hypotheses of C136 hold for this file. -/
example : IsMain header1 image1 ∧ image1.planes = planes1.map (·.1) ∧ ∀ p ∈ planes1, PlaneHolds image1 p.1 p.2 := by
  refine ⟨⟨[(some "Ref".toList, image1)], none, [(some "Other".toList, image1)], rfl, .inl rfl, ?_⟩, rfl, ?_⟩
  · intro e he
    rw [List.mem_singleton] at he
    exact ⟨_, by rw [he], by decide⟩
  · intro p hp
    simp only [planes1, List.mem_cons, List.not_mem_nil, or_false] at hp
    rcases hp with rfl | rfl
    · exact ⟨by decide, rfl, by decide, by decide +kernel⟩
    · exact ⟨by decide, rfl, by decide, by decide +kernel⟩

/-- The picture that is read, twice: for the image and for the overview. -/
def picture1 : Picture :=
  ⟨2, 3, [1, 2, 3, 4, 5, 262], some "SE".toList, 1 / 2, 1 / 2, "µm".toList, "f".toList⟩

def okIs {α : Type} [DecidableEq α] (x : Py α) (v : α) : Bool := match x with
  | .ok r => decide (r = v)
  | .error _ => false

theorem eq_of_okIs {α : Type} [DecidableEq α] {x : Py α} {v : α} (h : okIs x v = true) : x = .ok v := by
  cases x with
  | ok r => exact congrArg _ (of_decide_eq_true h)
  | error e => cases h

example : images header1 "f".toList = .ok [picture1, picture1] := eq_of_okIs (by decide +kernel)

/-- The data, sizes and scales of axes of maps, elements and lines. -/
structure Summary where
  data : List Nat
  axes : List (Nat × Rat)
  elements : List Text
  lines : List Text
deriving DecidableEq

def summary (r : Py (List (MapSignal (List Nat)))) : Py (List Summary) :=
  r.map fun l => l.map fun m => ⟨m.data, m.axes.map fun a => (a.size, a.scale), m.elements, m.lines⟩

/-- With a factor of 2 and the cut at 3.2 keV: 1 row, 2 columns, 2 channels; elements and lines are sorted. -/
example : summary (maps parse1 header1 image1 [(0, spectrum1), (1, spectrum1)] none "f".toList 2 (.at (16 / 5)) [1, 0]
    .none) = .ok [⟨[1, 2, 2, 2], [(1, 1), (2, 1), (2, 2)], ["Al".toList, "Au".toList, "O".toList],
      ["Al_Ka".toList, "Au_La".toList, "O_Ka".toList]⟩] := eq_of_okIs (by decide +kernel)

/-- The channels up to the last with counts. -/
example : summary (maps parse1 header1 image1 [(0, spectrum1), (1, spectrum1)] none "f".toList 1 .zealous [1, 0] .none)
    = .ok [⟨[2, 3, 4, 1], [(2, 1 / 2), (3, 1 / 2), (4, 2)], ["Al".toList, "Au".toList, "O".toList],
      ["Al_Ka".toList, "Au_La".toList, "O_Ka".toList]⟩] := eq_of_okIs (by decide +kernel)

/-- The hypotheses of `C135_maps_partial` and of `C135_reads` hold for this file. -/
example : header1.dx.getD 1 = header1.dy.getD 1 ∧ Chosen [1, 0] .all [1, 0] ∧ Readable header1 spectrum1 .auto := by
  refine ⟨rfl, rfl, by decide +kernel, fun v hv => ?_⟩
  injection hv with hv
  rw [← hv]
  decide +kernel

/-- C135 does not hold for maps with other steps for rows and columns: the width is scaled with the step of the height
(lines 1472-1479 use `y_res` twice). -/
theorem C135_fails_width_scale : ∃ (h : Header) (m : MapSignal (List Nat)) (ax : Axis),
    maps parse1 h image1 [(0, spectrum1)] none "f".toList 1 .none [0] .none = .ok [m] ∧ h.dx = some (1 / 4) ∧
    m.axes[1]? = some ax ∧ ax.name = "width".toList ∧ ax.scale = 1 / 2 := by
  refine ⟨{ header1 with dx := some (1 / 4) }, _, _, rfl, rfl, rfl, rfl, ?_⟩
  decide +kernel

/-- C135 does not hold for maps with numbers from ten: the last digit is the number, so that the eleventh map has that of
the first, and the number ten is refused. -/
theorem C135_fails_ten : availableIndexes ["SpectrumData0".toList, "SpectrumData10".toList] = .ok [0, 0] ∧
    selected [0, 0] (.at 10) = .error .indexError := ⟨by decide +kernel, rfl⟩

/-- C135 does not hold for elements with several lines: only the last one is kept. -/
theorem C135_fails_two_lines :
    xrayLines (elements [("Au".toList, some "L".toList), ("Au".toList, some "M".toList)] []) = ["Au_Ma".toList] := by
  decide +kernel

/-- C135 does not hold in that the cut at the beam energy never adds channels: when the amplification is larger than the last
energy of the spectrum, the map has more channels than the spectrum. -/
theorem C135_fails_auto_enlarges : ∃ s n, nChannels header1 s .auto = .ok n ∧ (s.data.length : Int) < n :=
  ⟨spectrum1, 10, eq_of_okIs (by decide +kernel), by decide⟩

/-- C136 does not hold for files in which all images are named: the reader stops with `UnboundLocalError` (here
`nameError`), even if only the maps are asked for. -/
theorem C136_fails_no_unnamed : ∃ h : Header, h.images = [(some "Ref".toList, image1)] ∧
    images h "f".toList = .error .nameError ∧
    bcfReader parse1 h ["SpectrumData0".toList] [(0, spectrum1)] none "f".toList .map 1 .none .none =
      .error .nameError := by
  refine ⟨{ header1 with images := [(some "Ref".toList, image1)] }, rfl, rfl, ?_⟩
  rfl

/-- C136 does not hold for overview images after the first: they are not read. -/
theorem C136_fails_overviews : ∃ (h : Header) (a b : ImageNode), h.version = 2 ∧ h.overviews = [a, b] ∧
    pictures h "f".toList b b.planes = .ok [picture1] ∧
    images h "f".toList = .ok [picture1] := by
  refine ⟨{ header1 with overviews := [⟨3, 2, 2, []⟩, image1] }, _, _, rfl, rfl, eq_of_okIs ?_, eq_of_okIs ?_⟩
  · decide +kernel
  · decide +kernel

/-- C136 does not hold for blank planes: no image is made of them. -/
theorem C136_fails_blank : ∃ (n : ImageNode) (p : Plane) (vs : List Nat), PlaneHolds n p vs ∧
    pictures header1 "f".toList n [p] = .ok [] :=
  ⟨image1, ⟨"AAAAAAAAAAAAAAAA".toList, some "blank".toList⟩, [0, 0, 0, 0, 0, 0],
    ⟨by decide, rfl, by decide, by decide +kernel⟩, eq_of_okIs (by decide +kernel)⟩

/-! ### Single spectra -/

example : ∃ r, spxReader (α := Unit) "f".toList (some "S".toList) spectrum1
    (some (.dict [("XmlClassName".toList, .list [.str "O".toList, .str "Al".toList])])) = .ok r ∧
    r.data = [0, 1, 5, 2, 0, 0] ∧ r.mode = "SEM".toList := by
  refine ⟨_, rfl, rfl, ?_⟩
  decide +kernel

example : channels "0, 12,5".toList = .ok [0, 12, 5] := eq_of_okIs (by decide +kernel)

example : isoStamp "12.3.2019".toList "9:05:00".toList = .ok ("2019-03-12".toList, "09:05:00".toList) :=
  eq_of_okIs (by decide +kernel)

example : ValidStamp 2020 2 29 23 59 59 := by
  refine ⟨by decide, by decide, by decide, by decide, by decide, by decide, by decide, by decide, by decide, ?_⟩
  intro _
  decide

/-- C137 does not hold for spectra without a date: the attribute `date` is used although it has not been set. -/
theorem C137_fails_no_date : ∀ (s : Spectrum), s.stamp = none → s.realTime = none →
    spxReader (α := Unit) "f".toList none s none = .error .attributeError := by
  intro s h1 h2
  unfold spxReader detectorNode
  rw [h1, h2]
  rfl

/-- C137 does not hold for spectra with a real time and no live time. -/
theorem C137_fails_no_life_time : ∀ (s : Spectrum), s.realTime.isSome → s.lifeTime = none →
    spxReader (α := Unit) "f".toList none s none = .error .keyError := by
  intro s h1 h2
  obtain ⟨r, hr⟩ := Option.isSome_iff_exists.1 h1
  unfold spxReader detectorNode
  rw [h2, hr]
  rfl

/-- C137 does not hold in that a spectrum without a name is `Undefined`: the text is misspelt. -/
theorem C137_fails_name : ∃ r, spxReader (α := Unit) "f".toList none spectrum1 none = .ok r ∧
    r.name = "Undefinded".toList := ⟨_, rfl, rfl⟩

/-- C137 does not hold for a single selected element: the elements are a text and not a list of one, since the dictionary
of one node holds its value. -/
theorem C137_fails_one_element : ∃ r, spxReader (α := Unit) "f".toList none spectrum1
    (some (.dict [("XmlClassName".toList, .str "Al".toList)])) = .ok r ∧ r.elements = some (.str "Al".toList) :=
  ⟨_, rfl, rfl⟩

end Verif.Props.Bruker
