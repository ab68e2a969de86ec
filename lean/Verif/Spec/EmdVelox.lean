import Verif.Model.EmdVelox
import Verif.Spec.Fei
/-!
What is in a Velox file, independent of the reader: how to find a value in the metadata, what the metadata say about
pixels, frames, energies, dates and names, and what a signal showing a picture, a spectrum or a spectrum
image looks like. Of the model only the types of files and signals are used.
-/
namespace Verif.Spec.EmdVelox
open Verif.EmdVelox (J Dict Sample Image Spectrum SpecImage Stream Eels Axis Meta Mapping Signal Env Config File Node Entry DType)

/-! ### Finding values -/

/-- The entry `k` of a dictionary. -/
def entry {α : Type} (k : Text) (d : List (Text × α)) : Option α := (d.find? fun e => decide (e.1 = k)).map Prod.snd

/-- The value at a path. -/
def look : List Text → J → Option J
  | [], j => some j
  | k :: ks, .dict d => (entry k d).bind (look ks)
  | _ :: _, _ => none

/-- The value at a path given by names. -/
def value (path : List String) (d : Dict) : Option J := look (path.map String.toList) (.dict d)

/-- The number at a path. -/
def Num (env : Env) (d : Dict) (path : List String) (q : ℚ) : Prop :=
  ∃ j, value path d = some j ∧ env.float j = .ok q

/-- The dictionary at a path. -/
def IsDict (d : Dict) (path : List String) : Prop := ∃ e, value path d = some (.dict e)

/-! ### External functions -/

/-- `float` of a number is that number. -/
def Floats (env : Env) : Prop := ∀ q, env.float (.num q) = .ok q

/-- A unit `pint` knows: for every quantity it chooses a unit, and the ratio to it is known. -/
def Known (env : Env) (u : Text) : Prop :=
  ∀ v, ∃ u' r, env.compact v u = .ok u' ∧ env.ratio u u' = .ok r

/-! ### Calibration -/

/-- Width, height and position of the pixels, in a unit. -/
structure Pixel where
  w : ℚ
  h : ℚ
  ox : ℚ
  oy : ℚ
  unit : Text

/-- What the metadata of a picture say about its pixels; without an entry a pixel has width and height 1, the position
is 0 and there is no unit. -/
def PixelOf (env : Env) (d : Dict) (p : Pixel) : Prop :=
  IsDict d ["BinaryResult"] ∧
  ((value ["BinaryResult", "PixelSize"] d = none ∧ p.w = 1 ∧ p.h = 1) ∨
    (Num env d ["BinaryResult", "PixelSize", "width"] p.w ∧ Num env d ["BinaryResult", "PixelSize", "height"] p.h)) ∧
  ((value ["BinaryResult", "Offset"] d = none ∧ p.ox = 0 ∧ p.oy = 0) ∨
    (Num env d ["BinaryResult", "Offset", "x"] p.ox ∧ Num env d ["BinaryResult", "Offset", "y"] p.oy)) ∧
  ((value ["BinaryResult", "PixelUnitX"] d = none ∧ p.unit = []) ∨ value ["BinaryResult", "PixelUnitX"] d = some (.str p.unit))

/-- The same where everything is given. -/
def PixelGiven (env : Env) (d : Dict) (p : Pixel) : Prop :=
  Num env d ["BinaryResult", "PixelSize", "width"] p.w ∧ Num env d ["BinaryResult", "PixelSize", "height"] p.h ∧
  Num env d ["BinaryResult", "Offset", "x"] p.ox ∧ Num env d ["BinaryResult", "Offset", "y"] p.oy ∧
  value ["BinaryResult", "PixelUnitX"] d = some (.str p.unit)

/-- The axes `y` and `x`: all four numbers converted to one unit, the one chosen for the length `len`. -/
def PlaneAxes (env : Env) (p : Pixel) (len : ℚ) (ny nx i : Nat) (nav : Bool) (ax : List Axis) : Prop :=
  ∃ u r, env.compact len p.unit = .ok u ∧ env.ratio p.unit u = .ok r ∧
    ax = [⟨['y'], .num (p.oy * r), .num (p.h * r), ny, some u, some i, nav⟩,
      ⟨['x'], .num (p.ox * r), .num (p.w * r), nx, some u, some (i + 1), nav⟩]

/-- The time of a frame of a picture: that of the scan, otherwise the exposure time of the detector. -/
def FrameTime (env : Env) (d : Dict) (q : ℚ) : Prop :=
  Num env d ["Scan", "FrameTime"] q ∨
  (IsDict d ["Scan"] ∧ value ["Scan", "FrameTime"] d = none ∧
    ∃ i, value ["BinaryResult", "DetectorIndex"] d = some i ∧
      ∃ j, look ["Detectors".toList, "Detector-".toList ++ env.fmt i, "ExposureTime".toList] (.dict d) = some j ∧
        env.float j = .ok q)

/-- A time axis, in the unit chosen for the time `len`. -/
def TimeAxis (env : Env) (q len : ℚ) (n : Nat) (a : Axis) : Prop :=
  ∃ u r, env.compact len ['s'] = .ok u ∧ env.ratio ['s'] u = .ok r ∧
    a = ⟨"Time".toList, .num 0, .num (q * r), n, some u, some 0, true⟩

/-- The detectors with their names. -/
def DetectorList (d : Dict) (ds : List (Text × Dict × Text)) : Prop :=
  value ["Detectors"] d = some (.dict (ds.map fun e => (e.1, .dict e.2.1))) ∧
  ∀ e ∈ ds, value ["DetectorName"] e.2.1 = some (.str e.2.2)

/-- Energy of a channel and of the first channel, in eV: those of the first detector whose name contains the name given for
the data. -/
def EnergyOf (env : Env) (d : Dict) (disp off : ℚ) : Prop :=
  ∃ name ds pre e post, value ["BinaryResult", "Detector"] d = some (.str name) ∧ DetectorList d ds ∧
    ds = pre ++ e :: post ∧ (∀ p ∈ pre, ¬ name <:+: p.2.2) ∧ name <:+: e.2.2 ∧
    Num env e.2.1 ["Dispersion"] disp ∧ Num env e.2.1 ["OffsetEnergy"] off

/-! ### Metadata -/

/-- The time of the acquisition: its start, or the time stamp of the camera, or none. -/
def Stamp (env : Env) (d : Dict) : Option ℚ → Prop
  | some q =>
    Num env d ["Acquisition", "AcquisitionStartDatetime", "DateTime"] q ∨
    (IsDict d ["Acquisition"] ∧ value ["Acquisition", "AcquisitionStartDatetime"] d = none ∧
      ∃ v, Num env d ["CustomProperties", "Detectors[BM-Ceta].TimeStamp", "value"] v ∧ q = v / 1000000)
  | none => IsDict d ["Acquisition"] ∧ value ["Acquisition", "AcquisitionStartDatetime"] d = none ∧
      ((∃ t, value ["CustomProperties"] d = some (.str t)) ∨
       (IsDict d ["CustomProperties"] ∧ value ["CustomProperties", "Detectors[BM-Ceta].TimeStamp"] d = none))

/-- Date and time: those of the time in ISO format, without the difference to UTC. -/
def DateOf (env : Env) (d : Dict) (r : Option (Text × Text × Text)) : Prop :=
  (Stamp env d none ∧ r = none) ∨
  ∃ q date time rest, Stamp env d (some q) ∧ env.iso q = date ++ 'T' :: time ++ rest ∧
    'T' ∉ date ∧ '+' ∉ date ∧ 'T' ∉ time ∧ '+' ∉ time ∧ (rest = [] ∨ ∃ z, rest = '+' :: z) ∧
    r = some (date, time, env.zone)

/-- The name of the file without directories. -/
def IsBase (path base : Text) : Prop := '/' ∉ base ∧ (path = base ∨ ∃ d, path = d ++ '/' :: base)

/-- The metadata of a group of the file, completely readable. -/
inductive Readable : List (Text × Node) → Dict → Prop
  | nil : Readable [] []
  | dset (k : Text) (j : J) {l d} : Readable l d → Readable ((k, .dset (some j)) :: l) ((k, j) :: d)
  | group (k : Text) (e : Dict) {l d} : Readable l d →
      Readable ((k, .group (e.map fun p => (p.1, some p.2))) :: l) ((k, .dict e) :: d)

/-- The names of the groups with metadata of the whole file. -/
def groupNames : List String := ["Displays", "Operations", "SharedProperties", "Features"]

/-- `om` has the metadata of the whole file. -/
def GroupsOf (f : File) (om : Text → Option J) : Prop :=
  ∀ k, match entry k f.groups with
    | some g => if k ∈ groupNames.map String.toList then ∃ d, Readable g d ∧ om k = some (.dict d) else om k = none
    | none => om k = none

/-- The original metadata of a signal: those of the whole file, otherwise those of the dataset; `extra` is added. -/
def Original (groups : Text → Option J) (own : Dict) (extra : List (Text × J)) (om : Dict) : Prop :=
  ∀ k, entry k om = ((entry k extra).or (groups k)).or (entry k own)

/-! ### Names of pictures -/

/-- A text at `field` of an operation contains the key of a dataset. -/
def Mentions (key : Text) (field : String) (m : J) : Prop :=
  ∃ p, look [field.toList] m = some (.str p) ∧ key <:+: p

/-- A text at `field` of an operation does not contain the key. -/
def Omits (key : Text) (field : String) (m : J) : Prop :=
  ∃ p, look [field.toList] m = some (.str p) ∧ ¬ key <:+: p

/-- `true` makes an integrated DPC. -/
def dpc (i : J) (n : Text) : Prop :=
  (i = .str "true".toList ∧ n = "iDPC".toList) ∨ (∃ t, i = .str t ∧ t ≠ "true".toList ∧ n = "dDPC".toList)

/-- The name an operation gives to the dataset it mentions. -/
inductive OpName (key : Text) : String → J → J → Prop
  | camera {m n} : Mentions key "dataPath" m → look ["cameraName".toList] m = some n → OpName key "CameraInputOperation" m n
  | stem {m n} : Mentions key "dataPath" m → look ["detector".toList] m = some n → OpName key "StemInputOperation" m n
  | unfiltered {m i n} : Mentions key "unfilteredDataPath" m → look ["integrationMode".toList] m = some i → dpc i n →
      OpName key "SurfaceReconstructionOperation" m (.str n)
  | plain {m i n t} : (look ["unfilteredDataPath".toList] m = none ∨ Omits key "unfilteredDataPath" m) →
      Mentions key "dataPath" m → look ["integrationMode".toList] m = some i → dpc i n →
      look ["enableFilter".toList] m = some (.str t) → t ≠ "true".toList →
      OpName key "SurfaceReconstructionOperation" m (.str n)
  | filtered {m i n} : (look ["unfilteredDataPath".toList] m = none ∨ Omits key "unfilteredDataPath" m) →
      Mentions key "dataPath" m → look ["integrationMode".toList] m = some i → dpc i n →
      look ["enableFilter".toList] m = some (.str "true".toList) →
      OpName key "SurfaceReconstructionOperation" m (.str ("Filtered ".toList ++ n))
  | ac {m o l} : Mentions key "dataPath" m → look ["outputs".toList] m = some (.list (o :: l)) →
      look ["inputIndex".toList] o = some (.str "0".toList) → OpName key "MathematicsOperation" m (.str "A-C".toList)
  | bd {m o l} : Mentions key "dataPath" m → look ["outputs".toList] m = some (.list (o :: l)) →
      look ["inputIndex".toList] o = some (.str "1".toList) → OpName key "MathematicsOperation" m (.str "B-D".toList)
  | dpcOp {m} : Mentions key "dataPath" m → OpName key "DpcOperation" m (.str "DPC".toList)
  | dcfi {m} : Mentions key "dataPath" m → OpName key "IntegrationOperation" m (.str "DCFI".toList)
  | fft {m} : Mentions key "imageOutputPath" m → OpName key "FftOperation" m (.str "Half FFT".toList)

/-- An operation is about other datasets. -/
def Silent (key : Text) (kind : String) (m : J) : Prop :=
  Omits key (if kind = "FftOperation" then "imageOutputPath" else "dataPath") m ∧
  (kind = "SurfaceReconstructionOperation" →
    look ["unfilteredDataPath".toList] m = none ∧ (∃ d, m = .dict d) ∨ Omits key "unfilteredDataPath" m)

/-- Kinds of operations, in the order in which they are asked. -/
def opKinds : List String :=
  ["CameraInputOperation", "StemInputOperation", "SurfaceReconstructionOperation", "MathematicsOperation",
   "DpcOperation", "IntegrationOperation", "FftOperation"]

/-- All operations of a kind are about other datasets. -/
def SilentKind (key : Text) (ops : Dict) (kind : String) : Prop :=
  entry kind.toList ops = none ∨ ∃ d, entry kind.toList ops = some (.dict d) ∧ ∀ e ∈ d, Silent key kind e.2

/-- The name of a picture by the operations: that given by the first operation that mentions it. -/
def NamedBy (key : Text) (ops : Dict) (n : J) : Prop :=
  (∃ before kind after, opKinds = before ++ kind :: after ∧ (∀ k ∈ before, SilentKind key ops k) ∧
    ∃ pre e post, entry kind.toList ops = some (.dict (pre ++ e :: post)) ∧ (∀ p ∈ pre, Silent key kind p.2) ∧
      OpName key kind e.2 n) ∨
  ((∀ k ∈ opKinds, SilentKind key ops k) ∧ n = .str "Unrecognized_image_signal".toList)

/-- The detector with the number given in the metadata (the number 0 without `BinaryResult`); `none`: there is no number. -/
def DetectorOf (env : Env) (d : Dict) : Option J → Prop
  | some j => ∃ i, ((value ["BinaryResult", "DetectorIndex"] d = some i ∧ i ≠ .null) ∨
      (value ["BinaryResult"] d = none ∧ i = .num 0)) ∧
      look ["Detectors".toList, "Detector-".toList ++ env.fmt i] (.dict d) = some j
  | none => IsDict d ["BinaryResult"] ∧
      (value ["BinaryResult", "DetectorIndex"] d = none ∨ value ["BinaryResult", "DetectorIndex"] d = some .null)

/-- The name of a picture: by the operations of the file, or, if it has none, of the detector. -/
def PictureName (env : Env) (groups : Text → Option J) (key : Text) (d : Dict) (n : J) : Prop :=
  (∃ ops o, groups "Operations".toList = some (.dict ops) ∧ DetectorOf env d o ∧ NamedBy key ops n) ∨
  (groups "Operations".toList = none ∧ ∃ o, DetectorOf env d (some o) ∧ look ["DetectorName".toList] o = some n)

/-- The metadata of the detector whose name is the title (`none` without such a detector). -/
def DetectorMeta (ds : List (Text × Dict × Text)) (n : J) (m : J) : Prop :=
  (∃ pre e post, ds = pre ++ e :: post ∧ (∀ p ∈ pre, n ≠ .str p.2.2) ∧ n = .str e.2.2 ∧ m = .dict e.2.1) ∨
  ((∀ p ∈ ds, n ≠ .str p.2.2) ∧ m = .null)

/-! ### Pictures -/

/-- What the metadata say about a picture. -/
structure Facts where
  pix : Pixel
  time : ℚ
  name : J
  date : Option (Text × Text × Text)
  ds : List (Text × Dict × Text)
  det : J

/-- The metadata `d` say this about the picture `key` of which `n` frames are shown. -/
def Says (env : Env) (groups : Text → Option J) (key : Text) (d : Dict) (n : Nat) (x : Facts) : Prop :=
  PixelOf env d x.pix ∧ Known env x.pix.unit ∧ (n ≠ 1 → FrameTime env d x.time ∧ Known env ['s']) ∧
  PictureName env groups key d x.name ∧ DateOf env d x.date ∧ DetectorList d x.ds ∧ DetectorMeta x.ds x.name x.det

/-- Number of frames shown: all of them in a file with pictures only or if asked for, otherwise one. -/
def shown (all : Bool) (g : Image) : Nat := if all then g.nf else min 1 g.nf

/-- Value of a picture: complex numbers as they are, other numbers as doubles unless read lazily. -/
def IsSample (env : Env) (lazy : Bool) (t : DType) (a b : Sample) : Prop :=
  match t with
  | .pair => b = a
  | .num _ => b.im = 0 ∧ b.re = if lazy then a.re else env.f64 a.re

/-- A signal shows a picture. -/
structure ShowsPicture (env : Env) (groups : Text → Option J) (lazy : Bool) (label : Option J)
    (g : Image) (n : Nat) (x : Facts) (base : Text) (s : Signal) : Prop where
  shape : s.shape = if n = 1 then [g.ny, g.nx] else [n, g.ny, g.nx]
  one : n = 1 → ∀ r c, IsSample env lazy g.dtype (g.val r c 0) (s.val [r, c])
  many : n ≠ 1 → ∀ t r c, IsSample env lazy g.dtype (g.val r c t) (s.val [t, r, c])
  dtype : ∀ name, g.dtype = .num name → s.dtype = if lazy then name else "float64".toList
  dtypePair : g.dtype = .pair → s.dtype = "complex64".toList
  axes : ∃ plane, PlaneAxes env x.pix ((g.nx : ℚ) / 2 * x.pix.w) g.ny g.nx (if n = 1 then 0 else 1) false plane ∧
    if n = 1 then s.axes = plane
    else ∃ t, TimeAxis env x.time ((n : ℚ) * x.time) n t ∧ s.axes = t :: plane
  general : s.md = ⟨base, some (label.getD x.name), x.date, []⟩
  om : Original groups g.md [("DetectorMetadata".toList, x.det)] s.om
  mapping : s.mapping = some ⟨false, none⟩

/-! ### Single spectra -/

/-- What the metadata say about a spectrum. -/
structure SpecFacts where
  disp : ℚ
  off : ℚ
  date : Option (Text × Text × Text)

/-- The metadata say this about a spectrum. -/
def SaysSpectrum (env : Env) (d : Dict) (x : SpecFacts) : Prop :=
  (∃ o, DetectorOf env d o) ∧ EnergyOf env d x.disp x.off ∧ DateOf env d x.date

/-- The entry of the selected elements in `mapping`. -/
def elements (version : Nat) : Text :=
  if version ≥ 11 then "SharedProperties.EDSSpectrumQuantificationSettings".toList
  else "Operations.ImageQuantificationOperation".toList

/-- A signal shows the spectra in a dataset with `n` channels and `k` columns (`none`: one dimension). -/
structure ShowsSpectrum (f : File) (groups : Text → Option J) (a : Spectrum) (n : Nat) (k : Option Nat) (rebin : Nat)
    (x : SpecFacts) (base : Text) (s : Signal) : Prop where
  vector : k = none → s.shape = [n] ∧ ∀ c, s.val [c] = ⟨a.val [c], 0⟩
  single : k = some 1 → s.shape = [n] ∧ ∀ c, s.val [c] = ⟨a.val [c, 0], 0⟩
  many : ∀ m, k = some m → m ≠ 1 → s.shape = [m, n] ∧ ∀ i c, s.val [i, c] = ⟨a.val [c, i], 0⟩
  axes : s.axes = (match k with
      | none => []
      | some m => if m = 1 then [] else [⟨"Stack".toList, .num 0, .num 1, m, none, none, true⟩]) ++
    [⟨"Energy".toList, .num (x.off / 1000), .num (x.disp / 1000 * rebin), n, some "keV".toList, none, false⟩]
  general : s.md = ⟨base, some (.str "EDS".toList), x.date, "EDS_TEM".toList⟩
  om : Original groups a.md [] s.om
  mapping : s.mapping = some ⟨true, some (elements f.version)⟩

/-! ### Spectrum images -/

/-- What the metadata of the first detector say about spectrum images. -/
structure MapFacts where
  pix : Pixel
  disp : ℚ
  off : ℚ
  date : Option (Text × Text × Text)
  time : ℚ

/-- The metadata say this about spectrum images. -/
def SaysMap (env : Env) (d : Dict) (sumFrames : Bool) (x : MapFacts) : Prop :=
  (∃ o, DetectorOf env d o) ∧ PixelGiven env d x.pix ∧ Known env x.pix.unit ∧ EnergyOf env d x.disp x.off ∧ DateOf env d x.date ∧
  (sumFrames = false → Num env d ["Scan", "FrameTime"] x.time ∧ Known env ['s'])

/-- Number of channels of a stream. -/
def Channels (env : Env) (s : Stream) (n : Nat) : Prop :=
  ∃ j, look ["bincount".toList] s.settings = some j ∧ env.nat j = .ok n

/-- The frames `first, ..., last - 1` of a scan, with rebinned channels. -/
structure Scan where
  ny : Nat
  nx : Nat
  channels : Nat
  first : Nat
  last : Nat
  rebin : Nat
  number : Option Nat

/-- Number of events in streams, in a type with `m` values. -/
def counts (streams : List (List Nat)) (c : Scan) (m f y x b : Nat) : Nat :=
  ((streams.map fun s => FeiSpec.count s c.ny c.nx c.rebin (c.first + f) y x b).sum) % m

/-- The same, summed over frames. -/
def countsSum (streams : List (List Nat)) (c : Scan) (m y x b : Nat) : Nat :=
  ((streams.map fun s => FeiSpec.countSum s c.ny c.nx c.rebin c.first c.last y x b).sum) % m

/-- The entry with the parameters of the scan. -/
def parameters (c : Scan) : J := .dict
  [("First_frame".toList, .num c.first), ("Last_frame".toList, .num c.last),
   ("Number_of_frames".toList, match c.number with | none => .null | some n => .num n),
   ("Rebin_energy".toList, .num c.rebin), ("Number_of_channels".toList, .num c.channels)]

/-- A signal shows the events in some streams; `own` are the metadata of the (first) stream. -/
structure ShowsMap (env : Env) (f : File) (groups : Text → Option J) (sumFrames : Bool) (streams : List (List Nat)) (own : Dict)
    (c : Scan) (m : Nat) (dtype : Text) (x : MapFacts) (base : Text) (s : Signal) : Prop where
  shape : s.shape = (if sumFrames then [] else [c.last - c.first]) ++ [c.ny, c.nx, c.channels / c.rebin]
  sum : sumFrames = true → ∀ y x b, y < c.ny → x < c.nx → b < c.channels / c.rebin →
    s.val [y, x, b] = ⟨countsSum streams c m y x b, 0⟩
  frames : sumFrames = false → ∀ t y x b, t < c.last - c.first → y < c.ny → x < c.nx → b < c.channels / c.rebin →
    s.val [t, y, x, b] = ⟨counts streams c m t y x b, 0⟩
  dtype : s.dtype = dtype
  axes : ∃ plane, PlaneAxes env x.pix (((if sumFrames then c.nx else c.ny : Nat) : ℚ) / 2 * x.pix.w) c.ny c.nx
      (if sumFrames then 0 else 1) true plane ∧
    ∃ t, (if sumFrames then t = [] else ∃ a, TimeAxis env x.time (((c.last - c.first : Nat) : ℚ) / 2 * x.time) (c.last - c.first) a ∧ t = [a]) ∧
      s.axes = t ++ plane ++ [⟨"X-ray energy".toList, .num (x.off / 1000), .num (x.disp / 1000 * c.rebin), c.channels / c.rebin,
        some "keV".toList, some (if sumFrames then 2 else 3), false⟩]
  general : s.md = ⟨base, some (.str "EDS".toList), x.date, "EDS_TEM".toList⟩
  om : Original groups own [("ImportedDataParameter".toList, parameters c)] s.om
  mapping : s.mapping = some ⟨!sumFrames, some (elements f.version)⟩

/-- The number of frames in a file, as given with its first spectrum image (`none`: not given). -/
def FileFrames (env : Env) (f : File) : Option Nat → Prop
  | some n => ∃ k s l j v, f.specImages = some ((k, s) :: l) ∧ s.settings = some j ∧
      look ["endFramePosition".toList] j = some v ∧ env.nat v = .ok n
  | none => f.specImages = some [] ∨ ∃ k s l, f.specImages = some ((k, s) :: l) ∧
      (s.settings = none ∨ ∃ d, s.settings = some (.dict d) ∧ entry "endFramePosition".toList d = none)

/-- Where the frames to read end, and how many there are: asked for (not more than there are), or all there are by the file,
or as many as the markers of pixels in the first stream fill. -/
def FramesRule (given known : Option Nat) (ny nx : Nat) (data : List Nat) (last : Nat) (number : Option Nat) : Prop :=
  match given, known with
  | some k, n => last = k ∧ number = n
  | none, some n => last = n ∧ number = some n
  | none, none => (last - 1) * (ny * nx) < data.count 65535 ∧ data.count 65535 ≤ last * (ny * nx) ∧ number = some last

/-- No more frames are asked for than the file has (a file with the number 0 is not asked). -/
def FramesExist (given known : Option Nat) : Prop :=
  ∀ k n, given = some k → known = some n → n = 0 ∨ k ≤ n

/-! ### EELS spectrum images -/

/-- What the metadata of the first spectrum image say about EELS spectrum images: pixels, the unit of the height, and the
unit used with the ratios of both units to it. -/
structure EelsFacts where
  pix : Pixel
  unitY : Text
  unit : Text
  r : ℚ
  ry : ℚ

/-- The metadata say this about EELS spectrum images; `two`: the scan has two dimensions. -/
def EelsPixel (env : Env) (f : File) (two : Bool) (x : EelsFacts) : Prop :=
  ∃ k s l o, f.specImages = some ((k, s) :: l) ∧ value ["BinaryResult", "Offset"] s.md = some (.dict o) ∧
    Num env s.md ["BinaryResult", "PixelSize", "width"] x.pix.w ∧ Num env s.md ["BinaryResult", "Offset", "x"] x.pix.ox ∧
    value ["BinaryResult", "PixelUnitX"] s.md = some (.str x.pix.unit) ∧
    env.compact (1 / 2 * x.pix.w) x.pix.unit = .ok x.unit ∧ env.ratio x.pix.unit x.unit = .ok x.r ∧
    if two then o.length = 2 ∧ Num env s.md ["BinaryResult", "PixelSize", "height"] x.pix.h ∧
      Num env s.md ["BinaryResult", "Offset", "y"] x.pix.oy ∧
      value ["BinaryResult", "PixelUnitY"] s.md = some (.str x.unitY) ∧ env.ratio x.unitY x.unit = .ok x.ry
    else o.length ≠ 2

/-- The energy axis of an EELS spectrum image. -/
def EelsEnergy (e : Eels) (n i : Nat) (a : Axis) : Prop :=
  ∃ off scale, value ["Data", "offset"] e.acq = some off ∧ value ["Data", "dispersion"] e.acq = some scale ∧
    a = ⟨"Energy-loss".toList, off, scale, n, some "eV".toList, some i, false⟩

/-- A signal shows an EELS spectrum image, stored as a cube with the axes `x`, energy, `y` if `two`, otherwise as a table
with the axes `x` and energy. -/
structure ShowsEels (f : File) (two : Bool) (x : EelsFacts) (e : Eels) (s : Signal) : Prop where
  cube : two = true → ∀ a b c, e.shape = [a, b, c] → s.shape = [c, a, b] ∧
    (∀ p q r, s.val [p, q, r] = ⟨e.val [q, r, p], 0⟩) ∧
    ∃ en, EelsEnergy e b 2 en ∧ s.axes =
      [⟨['y'], .num (x.pix.oy * x.ry), .num (x.pix.h * x.ry), c, some x.unit, some 1, true⟩,
       ⟨['x'], .num (x.pix.ox * x.r), .num (x.pix.w * x.r), a, some x.unit, some 0, true⟩, en]
  table : two = false → ∀ a b, e.shape = [a, b] → s.shape = [a, b] ∧ (∀ q r, s.val [q, r] = ⟨e.val [q, r], 0⟩) ∧
    ∃ en, EelsEnergy e b 1 en ∧ s.axes =
      [⟨['x'], .num (x.pix.ox * x.r), .num (x.pix.w * x.r), a, some x.unit, some 0, true⟩, en]
  general : s.md = ⟨f.name, some (.str "EELS".toList), none, "EELS".toList⟩
  om : s.om = e.md
  mapping : s.mapping = none

/-- The EELS spectrum images of a file can be read. -/
def EelsOk (two : Bool) (e : Eels) : Prop :=
  e.shape.length = (if two then 3 else 2) ∧
    ∃ off scale, value ["Data", "offset"] e.acq = some off ∧ value ["Data", "dispersion"] e.acq = some scale

/-! ### Labels of pictures -/

/-- The dataset at the end of a path. -/
def EndsIn (path key : Text) : Prop := '/' ∉ key ∧ (path = key ∨ ∃ p, path = p ++ '/' :: key)

/-- A display of a file of version 11 or later gives a label to a dataset (or shows none). -/
def DisplayNew (f : File) (v : J) : Option (Text × J) → Prop
  | none => ∃ d, v = .dict d ∧ entry "data".toList d = none
  | some (key, label) => ∃ p j path, look ["data".toList] v = some (.str p) ∧ f.lookup p = .ok j ∧
      look ["dataPath".toList] j = some (.str path) ∧ EndsIn path key ∧ look ["id".toList] v = some label

/-- A display of an older file. -/
def DisplayOld (v : Entry) (r : Text × J) : Prop :=
  ∃ j path, v = some j ∧ look ["dataPath".toList] j = some (.str path) ∧ EndsIn path r.1 ∧
    look ["display".toList, "label".toList] j = some r.2

/-- The labels given by the displays, in order. -/
def Displays (f : File) (groups : Text → Option J) (ls : List (Text × J)) : Prop :=
  if f.version ≥ 11 then
    ∃ g d os, groups "Displays".toList = some g ∧ look ["ImageDisplay".toList] g = some (.dict d) ∧
      List.Forall₂ (fun (e : Text × J) o => DisplayNew f e.2 o) d os ∧ ls = os.filterMap id
  else ∃ l, f.displays = some l ∧ List.Forall₂ (fun (e : Text × Entry) r => DisplayOld e.2 r) l ls

/-- The label of a dataset: that of the last display that shows it. -/
def LabelOf (ls : List (Text × J)) (key : Text) : Option J → Prop
  | none => ∀ p ∈ ls, p.1 ≠ key
  | some j => ∃ pre post, ls = pre ++ (key, j) :: post ∧ ∀ p ∈ post, p.1 ≠ key

/-! ### Files -/

/-- A part of the file is to be read: nothing or this part is asked for. -/
def Wants (select : Option Text) (part : String) : Prop := select = none ∨ select = some part.toList

instance (select : Option Text) (part : String) : Decidable (Wants select part) := by unfold Wants; infer_instance

/-- The file has pictures and spectrum images. -/
def HasMaps (f : File) : Prop := f.images.isSome ∧ f.specImages.isSome

instance (f : File) : Decidable (HasMaps f) := by unfold HasMaps; infer_instance

/-- All frames are shown: if asked for, or in a file with pictures only. -/
def allFrames (cfg : Config) (f : File) : Bool := cfg.stack || (f.images.isSome && f.specImages.isNone)

/-- What there is in a file, besides the data. -/
structure Content where
  base : Text
  groups : Text → Option J
  spectra : List ((Nat × Option Nat) × SpecFacts)
  labels : List (Text × J)
  images : List Facts
  known : Option Nat
  two : Bool
  eels : EelsFacts
  scan : Scan
  dtype : Text
  values : Nat
  maps : MapFacts

/-- The number of streams shown by each signal: all in one, or each alone. -/
def shownStreams (sumDetectors : Bool) (l : List (Text × Stream)) : List (Dict × List (List Nat)) :=
  if sumDetectors then (l.head?.map fun p => (p.2.md, l.map fun q => q.2.data)).toList
  else l.map fun p => (p.2.md, [p.2.data])

/-- The streams of a file and the scan they are of. -/
structure Streams (env : Env) (cfg : Config) (f : File) (x : Content) (k : Text) (s : Stream) (l : List (Text × Stream)) : Prop where
  size : 0 < x.scan.ny ∧ 0 < x.scan.nx
  images : ∃ i is, f.images = some (i :: is) ∧ ∀ p ∈ i :: is, (p.2.ny, p.2.nx) = (x.scan.ny, x.scan.nx)
  first : x.scan.first = cfg.first
  rebin : x.scan.rebin = cfg.rebin ∧ 0 < cfg.rebin ∧ x.scan.channels % cfg.rebin = 0
  frames : FramesRule cfg.last x.known x.scan.ny x.scan.nx s.data x.scan.last x.scan.number ∧ x.scan.first < x.scan.last
  dtype : cfg.dtype = some x.dtype ∨ (cfg.dtype = none ∧ look ["StreamEncoding".toList] s.settings = some (.str x.dtype))
  values : env.values x.dtype = .ok x.values ∧ 0 < x.values
  channels : Channels env s x.scan.channels
  others : cfg.sumDetectors = false → ∀ p ∈ l, Channels env p.2 x.scan.channels
  events : ∀ p ∈ (k, s) :: l, FeiSpec.InRange p.2.data x.scan.ny x.scan.nx x.scan.rebin x.scan.first x.scan.last
    (x.scan.channels / x.scan.rebin)
  told : SaysMap env s.md cfg.sumFrames x.maps

/-- The single spectra and the pictures of the file are these, and they can be read. -/
structure Legible (env : Env) (cfg : Config) (f : File) (x : Content) : Prop where
  floats : Floats env
  base : IsBase f.name x.base
  groups : GroupsOf f x.groups
  spectra : List.Forall₂ (fun (p : Text × Spectrum) y => p.2.shape = (match y.1.2 with | none => [y.1.1] | some m => [y.1.1, m]) ∧
    SaysSpectrum env p.2.md y.2) (f.spectra.getD []) x.spectra
  images : List.Forall₂ (fun (p : Text × Image) y => p.2.nx ≠ 0 ∧ p.2.nf ≠ 0 ∧
    Says env x.groups p.1 p.2.md (shown (allFrames cfg f) p.2) y) (f.images.getD []) x.images
  labels : if HasMaps f then Displays f x.groups x.labels else x.labels = []

/-- The file has this content, and it can be read. -/
structure InFile (env : Env) (cfg : Config) (f : File) (x : Content) : Prop extends Legible env cfg f x where
  known : HasMaps f → FileFrames env f x.known ∧ FramesExist cfg.last x.known
  eels : HasMaps f → ∀ l, f.eels = some l → EelsPixel env f x.two x.eels ∧ ∀ p ∈ l, EelsOk x.two p.2
  streams : HasMaps f → ∀ k s l, f.streams = some ((k, s) :: l) → Streams env cfg f x k s l

/-- The signals show the single spectra of the file. -/
def ShowsSpectra (cfg : Config) (f : File) (x : Content) (ss : List Signal) : Prop :=
  List.Forall₂ (fun (q : (Text × Spectrum) × ((Nat × Option Nat) × SpecFacts)) s =>
    ShowsSpectrum f x.groups q.1.2 q.2.1.1 q.2.1.2 cfg.rebin q.2.2 x.base s) ((f.spectra.getD []).zip x.spectra) ss

/-- The signals show the pictures of the file. -/
def ShowsPictures (env : Env) (cfg : Config) (f : File) (x : Content) (ss : List Signal) : Prop :=
  List.Forall₂ (fun (q : (Text × Image) × Facts) s => ∃ label, LabelOf x.labels q.1.1 label ∧
    ShowsPicture env x.groups cfg.lazy label q.1.2 (shown (allFrames cfg f) q.1.2) q.2 x.base s)
    ((f.images.getD []).zip x.images) ss

/-- The signals show the EELS spectrum images of the file. -/
def ShowsEelsAll (f : File) (x : Content) (ss : List Signal) : Prop :=
  List.Forall₂ (fun (p : Text × Eels) s => ShowsEels f x.two x.eels p.2 s) (f.eels.getD []) ss

/-- The signals show the spectrum images of the file. -/
def ShowsMaps (env : Env) (cfg : Config) (f : File) (x : Content) (ss : List Signal) : Prop :=
  List.Forall₂ (fun (p : Dict × List (List Nat)) s =>
    ShowsMap env f x.groups cfg.sumFrames p.2 p.1 x.scan x.values x.dtype x.maps x.base s)
    (shownStreams cfg.sumDetectors (f.streams.getD [])) ss

/-- The signals read: single spectra, pictures, EELS spectrum images, spectrum images, each if asked for. -/
def ShowsFile (env : Env) (cfg : Config) (f : File) (x : Content) (ss : List Signal) : Prop :=
  ∃ s1 s2 s3 s4, ss = s1 ++ s2 ++ s3 ++ s4 ∧
    (if Wants cfg.select "single_spectrum" ∧ (f.images.isSome → f.specImages.isSome) then ShowsSpectra cfg f x s1 else s1 = []) ∧
    (if Wants cfg.select "images" then ShowsPictures env cfg f x s2 else s2 = []) ∧
    (if Wants cfg.select "spectrum_image" ∧ HasMaps f then ShowsEelsAll f x s3 ∧ ShowsMaps env cfg f x s4 else s3 = [] ∧ s4 = [])

end Verif.Spec.EmdVelox
