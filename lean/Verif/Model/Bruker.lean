import Verif.Py.Float32
import Verif.Py.Bytes
import Verif.Py.Dec
import Verif.Py.Text
import Verif.Py.Ravel
import Verif.Model.Xml
/-!
Model of the signals of Bruker files, `rsciio/bruker/_api.py` (`EDXSpectrum`, `HyperHeader`, `BCF_reader`,
`spx_reader`, `bcf_reader`, lines 452-1057 and 1261-1600).

The container and the decoders of the maps are in `Model/Sfs.lean` and `Model/Hypermap.lean`; here the map of an index,
decoded for a shape and a factor, is the parameter `parse`. The XML header has been parsed and its branches turned to
dictionaries (`Model/Xml.lean`): the values used are gathered in `Header` and `Spectrum`. Numbers are exact
rationals. Left out: the layers of the detector (base64 and zlib), stage positions, markers, the copies of
the dictionaries in `original_metadata`, log messages. `np.fromstring` is modelled for numbers of decimal digits; on
other texts it is taken to raise. Dates are modelled for digits.
-/
namespace Verif.Bruker
open Verif.Xml (V)

/-! ### Base64 -/

/-- The alphabet of base64. -/
def alphabet : List Char := "ABCDEFGHIJKLMNOPQRSTUVWXYZabcdefghijklmnopqrstuvwxyz0123456789+/".toList

/-- The number of a character. -/
def sextet (c : Char) : Option Nat := alphabet.idxOf? c

/-- `binascii.a2b_base64`, used by `codecs.decode(.., "base64")`, line 672: `pos` characters of a group of four have
been read, `left` is the number of the last, `pads` the number of `=`. Other characters are skipped. -/
def decode : List Char → (pos left pads : Nat) → Py (List UInt8)
  | [], pos, _, _ => if pos = 0 then .ok [] else .error .valueError
  | c :: cs, pos, left, pads =>
    if c = '=' then
      if 2 ≤ pos then
        if 4 ≤ pos + (pads + 1) then .ok [] else decode cs pos left (pads + 1)
      else decode cs pos left pads
    else match sextet c with
      | none => decode cs pos left pads
      | some v =>
        if pos = 0 then decode cs 1 v 0
        else if pos = 1 then (decode cs 2 v 0).map (UInt8.ofNat (left * 4 + v / 16) :: ·)
        else if pos = 2 then (decode cs 3 v 0).map (UInt8.ofNat (left % 16 * 16 + v / 4) :: ·)
        else (decode cs 0 0 0).map (UInt8.ofNat (left % 4 * 64 + v) :: ·)

/-- `np.frombuffer(raw, dtype="u" + size)`: the length must be a multiple of the size. -/
def values (w : Nat) : (fuel : Nat) → List UInt8 → Py (List Nat)
  | _, [] => .ok []
  | 0, _ => .error .valueError
  | n + 1, bs => if bs.length < w then .error .valueError
      else (values w n (bs.drop w)).map (leVal (bs.take w) :: ·)

/-! ### Images -/

/-- A plane of an image: the text of `Data` and of `Description`. -/
structure Plane where
  data : Text
  description : Option Text

/-- An image node, lines 663-669. -/
structure ImageNode where
  width : Nat
  height : Nat
  itemSize : Nat
  planes : List Plane

/-- A two-dimensional signal made from a plane, lines 674-689. -/
structure Picture where
  height : Nat
  width : Nat
  values : List Nat
  title : Option Text
  scaleY : Rat
  scaleX : Rat
  units : Text
  filename : Text
deriving DecidableEq

/-- What is used of the branches `TRTSEMData`, `TRTDSPConfiguration` and of the root. -/
structure Header where
  name : Option Text
  date : Text
  time : Text
  version : Nat
  hv : Option Rat
  dx : Option Rat
  dy : Option Rat
  mag : Option Rat
  lineCounter : List Rat
  lineAverage : Rat
  pixelAverage : Rat
  pixelTime : Rat
  /-- The nodes `TRTImageData` with their attribute `Name`. -/
  images : List (Option Text × ImageNode)
  /-- The overview images. -/
  overviews : List ImageNode
  /-- The regions of the spectrum: element and, if given, line. -/
  regions : List (Text × Option Text)

/-- `self.units`, lines 596-599. -/
def units (h : Header) : Text := if h.dx.isSome then "µm".toList else "pix".toList

/-- `self.x_res`, line 600. -/
def xRes (h : Header) : Rat := h.dx.getD 1

/-- `self.y_res`, line 601. -/
def yRes (h : Header) : Rat := h.dy.getD 1

/-- The planes of an image, lines 671-690: planes of zeros give no image. -/
def pictures (h : Header) (filename : Text) (n : ImageNode) : List Plane → Py (List Picture)
  | [] => .ok []
  | p :: ps => do
    let raw ← decode p.data 0 0 0
    let vs ← values n.itemSize raw.length raw
    if vs.all (· == 0) then pictures h filename n ps
    else if vs.length = n.height * n.width then do
      let rest ← pictures h filename n ps
      .ok (⟨n.height, n.width, vs, p.description, yRes h, xRes h, units h, filename⟩ :: rest)
    else .error .valueError

/-- The image node without a name, the last one; none leaves the variable unbound, lines 695-699. -/
def unnamed : List (Option Text × ImageNode) → Option ImageNode
  | [] => none
  | (name, n) :: rest => match unnamed rest with
    | some m => some m
    | none => if name.getD [] = [] then some n else none

/-- The overview images, lines 700-712. -/
def overviewPictures (h : Header) (filename : Text) : Py (List Picture) :=
  if h.version = 2 then
    match h.overviews with
    | [] => .ok []
    | n :: _ => pictures h filename n n.planes
  else .ok []

/-- `_set_images` and `bcf_images`, lines 692-712, 1413-1423. -/
def images (h : Header) (filename : Text) : Py (List Picture) := do
  match unnamed h.images with
  | none => .error .nameError
  | some n => do
    let a ← pictures h filename n n.planes
    let b ← overviewPictures h filename
    .ok (a ++ b)

/-! ### Spectra -/

/-- What is used of a spectrum, lines 476-516. -/
structure Spectrum where
  amplification : Rat
  detectorType : Text
  /-- Is there a branch `TRTESMAHeader` or `TRTXrfHeader`: beam energy, elevation and azimuth. -/
  hv : Option Rat
  elevation : Rat
  azimuth : Option Rat
  realTime : Option Rat
  lifeTime : Option Rat
  /-- Date and time, when there are. -/
  stamp : Option (Text × Text)
  offset : Rat
  scale : Rat
  data : List Nat

/-- `np.fromstring(text, dtype="Q", sep=",")`, line 519. -/
def channels (t : Text) : Py (List Nat) :=
  (splitChar ',' t).mapM fun p =>
    let s := stripBy isSpace p
    if s ≠ [] ∧ s.all isDigit then .ok (decVal s) else .error .valueError

/-- `last_non_zero_channel`, lines 521-523. -/
def lastNonZero : List Nat → Py Nat
  | [] => .error .indexError
  | v :: vs => match lastNonZero vs with
    | .ok i => .ok (i + 1)
    | .error e => if v ≠ 0 then .ok 0 else .error e

/-- `energy_to_channel`, lines 525-533, for energies in kV. -/
def energyToChannel (s : Spectrum) (e : Rat) : Py Int :=
  if s.scale = 0 then .error .zeroDivision else .ok (roundEven ((e - s.offset) / s.scale))

/-- `get_consistent_min_channels`, lines 746-771. -/
def minChannels (h : Header) (s : Spectrum) : Py Int :=
  match h.hv with
  | some v => if 0 < v ∧ v < s.amplification / 1000 then energyToChannel s v else .ok s.data.length
  | none => .ok s.data.length

inductive Cutoff where
  | none | at (kV : Rat) | zealous | auto

/-- The number of channels, lines 967-976. -/
def nChannels (h : Header) (s : Spectrum) : Cutoff → Py Int
  | .at e => energyToChannel s e
  | .zealous => (lastNonZero s.data).map fun i => (i : Int) + 1
  | .auto => minChannels h s
  | .none => .ok s.data.length

/-- `math.ceil(n / d)`. -/
def ceilDiv (n d : Nat) : Nat := (n + d - 1) / d

/-- The shape of the map, lines 978-982; an array cannot have a negative size. -/
def mapShape (height width ds : Nat) (n : Int) : Py (List Nat) :=
  if ds = 0 then .error .zeroDivision
  else if n < 0 then .error .valueError
  else .ok [ceilDiv height ds, ceilDiv width ds, n.toNat]

/-- `guess_mode`, lines 1554-1571. -/
def guessMode (hv : Option Rat) : Text := match hv with
  | some v => if 30 < v then "TEM".toList else "SEM".toList
  | none => "SEM".toList

/-- `x in text`. -/
def contains (x : Text) : Text → Bool
  | [] => x.isEmpty
  | c :: t => x.isPrefixOf (c :: t) || contains x t

/-- `int(i[-1])` for the names with `SpectrumData`, lines 907-909. -/
def availableIndexes : List Text → Py (List Nat)
  | [] => .ok []
  | n :: ns =>
    if contains "SpectrumData".toList n then
      match n.getLast? with
      | some c => if isDigit c then (availableIndexes ns).map (decVal [c] :: ·) else .error .valueError
      | none => .error .indexError
    else availableIndexes ns

/-- `min` of a list. -/
def minimum : List Nat → Py Nat
  | [] => .error .valueError
  | [n] => .ok n
  | n :: ns => (minimum ns).map (min n)

inductive Index where
  | none | all | at (i : Nat)

/-- The maps that are read, lines 1444-1449 and 919-930. -/
def selected (available : List Nat) : Index → Py (List Nat)
  | .none => (minimum available).map fun i => [i]
  | .all => .ok available
  | .at i => if i ∈ available then .ok [i] else .error .indexError

/-- `str.upper` and `str.lower` of ASCII letters. -/
def upper (c : Char) : Char := if 'a' ≤ c ∧ c ≤ 'z' then Char.ofNat (c.toNat - 32) else c
def lower (c : Char) : Char := if 'A' ≤ c ∧ c ≤ 'Z' then Char.ofNat (c.toNat + 32) else c

/-- `str.capitalize`. -/
def capitalize : Text → Text
  | [] => []
  | c :: cs => upper c :: cs.map lower

/-- `parse_line`, lines 1531-1541. -/
def parseLine (l : Text) : Text :=
  capitalize (if l.length = 1 then l ++ ['a'] else if 2 < l.length then l.take 2 else l)

/-- `self.elements` as a dictionary, lines 714-739: element and line, `Ka` when there is none. -/
def elements : List (Text × Option Text) → List (Text × Text) → List (Text × Text)
  | [], d => d
  | (el, line) :: rest, d => elements rest (setKw el (line.getD "Ka".toList) d)

/-- Order of texts. -/
def textLe (a b : Text) : Bool := decide (a.map Char.toNat ≤ b.map Char.toNat)

/-- Put a text in its place. -/
def insertText (t : Text) : List Text → List Text
  | [] => [t]
  | u :: l => if textLe t u then t :: u :: l else u :: insertText t l

/-- `sorted`. -/
def sortTexts (l : List Text) : List Text := l.foldr insertText []

/-- `gen_elem_list`, lines 1527-1528. -/
def xrayLines (d : List (Text × Text)) : List Text := d.map fun p => p.1 ++ '_' :: parseLine p.2

/-- The detector node, lines 1574-1586: elevation, type, azimuth, real and live time. -/
structure Detector where
  elevation : Rat
  type : Text
  azimuth : Option Rat
  realTime : Option Rat
  liveTime : Option Rat
deriving DecidableEq

def detectorNode (s : Spectrum) : Py Detector := match s.realTime, s.lifeTime with
  | none, _ => .ok ⟨s.elevation, s.detectorType, s.azimuth, none, none⟩
  | some r, some l => .ok ⟨s.elevation, s.detectorType, s.azimuth, some (r / 1000), some (l / 1000)⟩
  | some _, none => .error .keyError

/-- `calc_real_time`, lines 844-854. -/
def realTime (h : Header) (width : Nat) : Rat :=
  h.lineCounter.sum * h.lineAverage * h.pixelAverage * h.pixelTime * width * (1 / 1000000)

structure Axis where
  name : Text
  size : Nat
  offset : Rat
  scale : Rat
  units : Text
  navigate : Bool
deriving DecidableEq

/-- A map, lines 1459-1523. -/
structure MapSignal (β : Type) where
  data : β
  axes : List Axis
  mode : Text
  beamEnergy : Option Rat
  magnification : Option Rat
  detector : Detector
  filename : Text
  date : Text
  time : Text
  sample : Text
  elements : List Text
  lines : List Text
  signalType : Text

/-- `get_acq_instrument_dict`, line 629 and 634-637: the beam energy of the spectrum goes first. -/
def beamEnergy (h : Header) (s : Spectrum) : Option Rat := match s.hv with
  | some v => some v
  | none => h.hv

/-- The mode, lines 610-614. -/
def modeOf (h : Header) (instrument : Option Text) : Text := instrument.getD (guessMode h.hv)

/-- The axes of a map, lines 1461-1486. -/
def mapAxes (h : Header) (s : Spectrum) (ds : Nat) (shape : List Nat) : List Axis :=
  [⟨"height".toList, shape.getD 0 0, 0, yRes h * ds, units h, true⟩,
   ⟨"width".toList, shape.getD 1 0, 0, yRes h * ds, units h, true⟩,
   ⟨"Energy".toList, shape.getD 2 0, s.offset, s.scale, "keV".toList, false⟩]

/-- One round of the loop of `bcf_hyperspectra`, lines 1453-1523, for an index; the size of the first image is that of
the map. -/
def mapOf {β : Type} (parse : Nat → List Nat → Nat → Py β) (h : Header) (img : ImageNode)
    (spectra : List (Nat × Spectrum)) (instrument : Option Text) (filename : Text) (ds : Nat) (cut : Cutoff)
    (i : Nat) : Py (MapSignal β) := do
  match spectra.lookup i with
  | none => .error .keyError
  | some s => do
    let n ← nChannels h s cut
    let shape ← mapShape img.height img.width ds n
    let data ← parse i shape ds
    let det ← detectorNode s
    let els := elements h.regions []
    let mode := modeOf h instrument
    .ok ⟨data, mapAxes h s ds shape, mode, beamEnergy h s, h.mag, { det with realTime := some (realTime h img.width) },
      filename, h.date, h.time, h.name.getD "Undefined".toList, sortTexts (els.map (·.1)), sortTexts (xrayLines els),
      "EDS_".toList ++ mode⟩

/-- `bcf_hyperspectra`, lines 1426-1524. -/
def maps {β : Type} (parse : Nat → List Nat → Nat → Py β) (h : Header) (img : ImageNode)
    (spectra : List (Nat × Spectrum)) (instrument : Option Text) (filename : Text) (ds : Nat) (cut : Cutoff)
    (available : List Nat) (index : Index) : Py (List (MapSignal β)) := do
  let is ← selected available index
  is.mapM (mapOf parse h img spectra instrument filename ds cut)

inductive Select where
  | all | image | map

/-- `bcf_reader`, lines 1355-1410, with `names` the entries of `EDSDatabase`. -/
def bcfReader {β : Type} (parse : Nat → List Nat → Nat → Py β) (h : Header) (names : List Text)
    (spectra : List (Nat × Spectrum)) (instrument : Option Text) (filename : Text) (sel : Select) (ds : Nat)
    (cut : Cutoff) (index : Index) : Py (List Picture × List (MapSignal β)) := do
  let available ← availableIndexes names
  let _ ← minimum available
  match unnamed h.images with
  | none => .error .nameError
  | some img => do
    let pics ← images h filename
    match sel with
    | .image => .ok (pics, [])
    | .map => do
      let ms ← maps parse h img spectra instrument filename ds cut available index
      .ok ([], ms)
    | .all => do
      let ms ← maps parse h img spectra instrument filename ds cut available index
      .ok (pics, ms)

/-! ### Single spectra -/

/-- The signal of an `.spx` file, lines 1027-1057. -/
structure SpxSignal (α : Type) where
  data : List Nat
  axis : Axis
  mode : Text
  beamEnergy : Option Rat
  detector : Detector
  filename : Text
  date : Text
  time : Text
  name : Text
  signalType : Text
  elements : Option (V α)

/-- `elem["XmlClassName"]`, line 1062. -/
def classNames {α : Type} : V α → Py (V α)
  | .dict d => match getKw "XmlClassName".toList d with
    | some v => .ok v
    | none => .error .keyError
  | _ => .error .typeError

/-- The selected elements, lines 1059-1062. -/
def spxElements {α : Type} : Option (V α) → Py (Option (V α))
  | none => .ok none
  | some e => (classNames e).map some

/-- `spx_reader`, lines 1010-1063; `elems` is `x2d.dictionarize(elements_xml)["ChildClassInstances"]`. Without a date the
attribute `date` does not exist. -/
def spxReader {α : Type} (filename : Text) (name : Option Text) (s : Spectrum) (elems : Option (V α)) :
    Py (SpxSignal α) := do
  let det ← detectorNode s
  match s.stamp with
  | none => .error .attributeError
  | some (date, time) => do
    let els ← spxElements elems
    .ok ⟨s.data, ⟨"Energy".toList, s.data.length, s.offset, s.scale, "keV".toList, false⟩, guessMode s.hv, s.hv, det,
      filename, date, time, name.getD "Undefinded".toList, "EDS_".toList ++ guessMode s.hv, els⟩

/-! ### Dates -/

/-- Days of a month (`datetime`). -/
def daysIn (year month : Nat) : Nat :=
  if month = 2 then (if year % 4 = 0 ∧ (year % 100 ≠ 0 ∨ year % 400 = 0) then 29 else 28)
  else if month = 4 ∨ month = 6 ∨ month = 9 ∨ month = 11 then 30 else 31

/-- A number with two digits or more (`%02d`). -/
def pad2 (n : Nat) : Text := if n < 10 then '0' :: decChars n else decChars n

/-- A field of at most `w` digits. -/
def field (w : Nat) (t : Text) : Option Nat :=
  if t ≠ [] ∧ t.length ≤ w ∧ t.all isDigit then some (decVal t) else none

/-- `gen_iso_date_time`, lines 1589-1600: `strptime(date + " " + time, "%d.%m.%Y %H:%M:%S")`; a year has four
digits. -/
def isoStamp (date time : Text) : Py (Text × Text) :=
  match splitChar '.' date, splitChar ':' time with
  | [d, m, y], [hh, mm, ss] =>
    match field 2 d, field 2 m, field 4 y, field 2 hh, field 2 mm, field 2 ss with
    | some d, some m, some y', some hh, some mm, some ss =>
      if y.length = 4 ∧ 1 ≤ y' ∧ 1 ≤ m ∧ m ≤ 12 ∧ 1 ≤ d ∧ d ≤ daysIn y' m ∧ hh < 24 ∧ mm < 60 ∧ ss < 60 then
        .ok (y ++ '-' :: pad2 m ++ '-' :: pad2 d, pad2 hh ++ ':' :: pad2 mm ++ ':' :: pad2 ss)
      else .error .valueError
    | _, _, _, _, _, _ => .error .valueError
  | _, _ => .error .valueError

end Verif.Bruker
