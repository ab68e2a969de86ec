import Verif.Py.Record
import Verif.Py.Float32
import Verif.Py.Lines
import Verif.Py.Basic
/-!
Model of `rsciio/edax/_api.py`: spectra (`.spc`), spectrum images (`.spd`) and line scans (`.lsd`) with their calibration files, and of `rsciio/utils/_elements.py`.

The file system is a function from paths to contents; paths are those of POSIX systems. Simplifications: a header that is cut short is an error as soon as it is read (NumPy returns arrays without elements, which
fail when they are used as numbers); negative numbers of pixels and negative data offsets are errors; the names of bitmaps are ASCII text; the
`.csv` file is given as text, without quotation marks, and numbers in it are read by a function `num`; scales and
offsets are exact numbers; infinities and NaN are not modelled. The machine is little endian. Chunks of lazy arrays are those of `Distributed.lean`; here a lazy
array is the array it stands for. The rest of the original metadata is not modelled.
-/
namespace Verif.Edax

abbrev Bytes := List UInt8

/-- NumPy type codes `i`, `u`, `f`, and `V` or `S`. -/
inductive Kind where
  | int | uint | flt | raw
  deriving DecidableEq

/-- An entry of a structured dtype: `count` values of `width` bytes each. -/
structure Field where
  name : String
  kind : Kind
  width : Nat
  count : Nat
  deriving DecidableEq

def Field.size (fd : Field) : Nat := fd.width * fd.count

/-- `get_spd_dtype_list`, lines 49-92. -/
def spdFields : List Field := [⟨"tag", .int, 1, 16⟩, ⟨"version", .int, 4, 1⟩, ⟨"nSpectra", .int, 4, 1⟩, ⟨"nPoints", .int, 4, 1⟩,
  ⟨"nLines", .uint, 4, 1⟩, ⟨"nChannels", .uint, 4, 1⟩, ⟨"countBytes", .uint, 4, 1⟩, ⟨"dataOffset", .uint, 4, 1⟩,
  ⟨"nFrames", .uint, 4, 1⟩, ⟨"fName", .int, 1, 120⟩, ⟨"filler", .raw, 900, 1⟩]

/-- `get_spc_dtype_list` with `load_all`, lines 329-467. -/
def spcFull : List Field := [⟨"fVersion", .flt, 4, 1⟩, ⟨"aVersion", .flt, 4, 1⟩, ⟨"fileName", .int, 1, 8⟩, ⟨"collectDateYear", .int, 2, 1⟩,
  ⟨"collectDateDay", .int, 1, 1⟩, ⟨"collectDateMon", .int, 1, 1⟩, ⟨"collectTimeMin", .int, 1, 1⟩, ⟨"collectTimeHour", .int, 1, 1⟩,
  ⟨"collectTimeHund", .int, 1, 1⟩, ⟨"collectTimeSec", .int, 1, 1⟩, ⟨"fileSize", .int, 4, 1⟩, ⟨"dataStart", .int, 4, 1⟩,
  ⟨"numPts", .int, 2, 1⟩, ⟨"intersectingDist", .int, 2, 1⟩, ⟨"workingDist", .int, 2, 1⟩, ⟨"scaleSetting", .int, 2, 1⟩,
  ⟨"filler1", .raw, 24, 1⟩, ⟨"spectrumLabel", .int, 1, 256⟩, ⟨"imageFilename", .int, 1, 8⟩, ⟨"spotX", .int, 2, 1⟩,
  ⟨"spotY", .int, 2, 1⟩, ⟨"imageADC", .int, 2, 1⟩, ⟨"discrValues", .int, 4, 5⟩, ⟨"discrEnabled", .int, 1, 5⟩,
  ⟨"pileupProcessed", .int, 1, 1⟩, ⟨"fpgaVersion", .int, 4, 1⟩, ⟨"pileupProcVersion", .int, 4, 1⟩, ⟨"NB5000CFG", .int, 4, 1⟩,
  ⟨"filler2", .raw, 12, 1⟩, ⟨"evPerChan", .int, 4, 1⟩, ⟨"ADCTimeConstant", .int, 2, 1⟩, ⟨"analysisType", .int, 2, 1⟩,
  ⟨"preset", .flt, 4, 1⟩, ⟨"maxp", .int, 4, 1⟩, ⟨"maxPeakCh", .int, 4, 1⟩, ⟨"xRayTubeZ", .int, 2, 1⟩,
  ⟨"filterZ", .int, 2, 1⟩, ⟨"current", .flt, 4, 1⟩, ⟨"sampleCond", .int, 2, 1⟩, ⟨"sampleType", .int, 2, 1⟩,
  ⟨"xrayCollimator", .uint, 2, 1⟩, ⟨"xrayCapilaryType", .uint, 2, 1⟩, ⟨"xrayCapilarySize", .uint, 2, 1⟩, ⟨"xrayFilterThickness", .uint, 2, 1⟩,
  ⟨"spectrumSmoothed", .uint, 2, 1⟩, ⟨"detector_Size_SiLi", .uint, 2, 1⟩, ⟨"spectrumReCalib", .uint, 2, 1⟩, ⟨"eagleSystem", .uint, 2, 1⟩,
  ⟨"sumPeakRemoved", .uint, 2, 1⟩, ⟨"edaxSoftwareType", .uint, 2, 1⟩, ⟨"filler3", .raw, 6, 1⟩, ⟨"escapePeakRemoved", .uint, 2, 1⟩,
  ⟨"analyzerType", .uint, 4, 1⟩, ⟨"startEnergy", .flt, 4, 1⟩, ⟨"endEnergy", .flt, 4, 1⟩, ⟨"liveTime", .flt, 4, 1⟩,
  ⟨"tilt", .flt, 4, 1⟩, ⟨"takeoff", .flt, 4, 1⟩, ⟨"beamCurFact", .flt, 4, 1⟩, ⟨"detReso", .flt, 4, 1⟩,
  ⟨"detectType", .uint, 4, 1⟩, ⟨"parThick", .flt, 4, 1⟩, ⟨"alThick", .flt, 4, 1⟩, ⟨"beWinThick", .flt, 4, 1⟩,
  ⟨"auThick", .flt, 4, 1⟩, ⟨"siDead", .flt, 4, 1⟩, ⟨"siLive", .flt, 4, 1⟩, ⟨"xrayInc", .flt, 4, 1⟩,
  ⟨"azimuth", .flt, 4, 1⟩, ⟨"elevation", .flt, 4, 1⟩, ⟨"bCoeff", .flt, 4, 1⟩, ⟨"cCoeff", .flt, 4, 1⟩,
  ⟨"tailMax", .flt, 4, 1⟩, ⟨"tailHeight", .flt, 4, 1⟩, ⟨"kV", .flt, 4, 1⟩, ⟨"apThick", .flt, 4, 1⟩,
  ⟨"xTilt", .flt, 4, 1⟩, ⟨"yTilt", .flt, 4, 1⟩, ⟨"yagStatus", .uint, 4, 1⟩, ⟨"filler4", .raw, 24, 1⟩,
  ⟨"rawDataType", .uint, 2, 1⟩, ⟨"totalBkgdCount", .flt, 4, 1⟩, ⟨"totalSpectralCount", .uint, 4, 1⟩, ⟨"avginputCount", .flt, 4, 1⟩,
  ⟨"stdDevInputCount", .flt, 4, 1⟩, ⟨"peakToBack", .uint, 2, 1⟩, ⟨"peakToBackValue", .flt, 4, 1⟩, ⟨"filler5", .raw, 38, 1⟩,
  ⟨"numElem", .int, 2, 1⟩, ⟨"at", .uint, 2, 48⟩, ⟨"line", .uint, 2, 48⟩, ⟨"energy", .flt, 4, 48⟩,
  ⟨"height", .uint, 4, 48⟩, ⟨"spkht", .int, 2, 48⟩, ⟨"filler5_1", .raw, 30, 1⟩, ⟨"numRois", .int, 2, 1⟩,
  ⟨"st", .int, 2, 48⟩, ⟨"end", .int, 2, 48⟩, ⟨"roiEnable", .int, 2, 48⟩, ⟨"roiNames", .int, 1, 192⟩,
  ⟨"filler5_2", .raw, 1, 1⟩, ⟨"userID", .int, 1, 80⟩, ⟨"filler5_3", .raw, 111, 1⟩, ⟨"sRoi", .int, 2, 48⟩,
  ⟨"scaNum", .int, 2, 48⟩, ⟨"filler6", .raw, 12, 1⟩, ⟨"backgrdWidth", .int, 2, 1⟩, ⟨"manBkgrdPerc", .flt, 4, 1⟩,
  ⟨"numBkgrdPts", .int, 2, 1⟩, ⟨"backMethod", .uint, 4, 1⟩, ⟨"backStEng", .flt, 4, 1⟩, ⟨"backEndEng", .flt, 4, 1⟩,
  ⟨"bg", .int, 2, 64⟩, ⟨"bgType", .uint, 4, 1⟩, ⟨"concenKev1", .flt, 4, 1⟩, ⟨"concenKev2", .flt, 4, 1⟩,
  ⟨"concenMethod", .int, 2, 1⟩, ⟨"jobFilename", .int, 1, 32⟩, ⟨"filler7", .raw, 16, 1⟩, ⟨"numLabels", .int, 2, 1⟩,
  ⟨"label", .int, 1, 320⟩, ⟨"labelx", .int, 2, 10⟩, ⟨"labely", .int, 4, 10⟩, ⟨"zListFlag", .int, 4, 1⟩,
  ⟨"bgPercents", .flt, 4, 64⟩, ⟨"IswGBg", .int, 2, 1⟩, ⟨"BgPoints", .flt, 4, 5⟩, ⟨"IswGConc", .int, 2, 1⟩,
  ⟨"numConcen", .int, 2, 1⟩, ⟨"ZList", .int, 2, 24⟩, ⟨"GivenConc", .flt, 4, 24⟩, ⟨"filler8", .raw, 598, 1⟩,
  ⟨"s", .int, 4, 4096⟩, ⟨"longFileName", .int, 1, 256⟩, ⟨"longImageFileName", .int, 1, 256⟩]

/-- The entries added for version 0.70, lines 468-478. -/
def spcExt : List Field := [⟨"ADCTimeConstantNew", .flt, 4, 1⟩, ⟨"filler9", .raw, 60, 1⟩, ⟨"numZElements", .int, 2, 1⟩, ⟨"zAtoms", .int, 2, 48⟩,
  ⟨"zShells", .int, 2, 48⟩]

/-- `get_spc_dtype_list` without `load_all`, lines 479-503. -/
def spcShort : List Field := [⟨"filler1", .raw, 28, 1⟩, ⟨"dataStart", .int, 4, 1⟩, ⟨"numPts", .int, 2, 1⟩, ⟨"filler1_1", .raw, 350, 1⟩,
  ⟨"evPerChan", .int, 4, 1⟩, ⟨"filler2", .raw, 60, 1⟩, ⟨"startEnergy", .flt, 4, 1⟩, ⟨"endEnergy", .flt, 4, 1⟩,
  ⟨"liveTime", .flt, 4, 1⟩, ⟨"tilt", .flt, 4, 1⟩, ⟨"filler3", .raw, 8, 1⟩, ⟨"detReso", .flt, 4, 1⟩,
  ⟨"filler4", .raw, 32, 1⟩, ⟨"azimuth", .flt, 4, 1⟩, ⟨"elevation", .flt, 4, 1⟩, ⟨"filler5", .raw, 16, 1⟩,
  ⟨"kV", .flt, 4, 1⟩, ⟨"filler6", .raw, 102, 1⟩, ⟨"numElem", .int, 2, 1⟩, ⟨"at", .uint, 2, 48⟩,
  ⟨"filler7", .raw, 20004, 1⟩]

/-- `get_ipr_dtype_list`, lines 535-636. -/
def iprOld : List Field := [⟨"version", .uint, 2, 1⟩, ⟨"imageType", .uint, 2, 1⟩, ⟨"label", .raw, 8, 1⟩, ⟨"sMin", .uint, 2, 1⟩,
  ⟨"sMax", .uint, 2, 1⟩, ⟨"color", .uint, 2, 1⟩, ⟨"presetMode", .uint, 2, 1⟩, ⟨"presetTime", .uint, 4, 1⟩,
  ⟨"dataType", .uint, 2, 1⟩, ⟨"timeConstantOld", .uint, 2, 1⟩, ⟨"reserved1", .int, 2, 1⟩, ⟨"roiStartChan", .uint, 2, 1⟩,
  ⟨"roiEndChan", .uint, 2, 1⟩, ⟨"userMin", .int, 2, 1⟩, ⟨"userMax", .int, 2, 1⟩, ⟨"iADC", .uint, 2, 1⟩,
  ⟨"reserved2", .int, 2, 1⟩, ⟨"iBits", .uint, 2, 1⟩, ⟨"nReads", .uint, 2, 1⟩, ⟨"nFrames", .uint, 2, 1⟩,
  ⟨"fDwell", .flt, 4, 1⟩, ⟨"accV", .uint, 2, 1⟩, ⟨"tilt", .int, 2, 1⟩, ⟨"takeoff", .int, 2, 1⟩,
  ⟨"mag", .uint, 4, 1⟩, ⟨"wd", .uint, 2, 1⟩, ⟨"mppX", .flt, 4, 1⟩, ⟨"mppY", .flt, 4, 1⟩,
  ⟨"nTextLines", .uint, 2, 1⟩, ⟨"charText", .raw, 32, 4⟩, ⟨"reserved3", .flt, 4, 4⟩, ⟨"nOverlayElements", .uint, 2, 1⟩,
  ⟨"overlayColors", .uint, 2, 16⟩]

/-- The entries added for version 334, lines 637-646. -/
def iprExt : List Field := [⟨"timeConstantNew", .flt, 4, 1⟩, ⟨"reserved4", .flt, 4, 2⟩]

/-- `atomic_number2name`, `rsciio/utils/_elements.py`, lines 1-121. -/
def elementNames : List (Nat × String) := [(89, "Ac"), (47, "Ag"), (13, "Al"), (18, "Ar"), (33, "As"), (85, "At"), (79, "Au"), (5, "B"), (56, "Ba"), (4, "Be"), (83, "Bi"), (35, "Br"),
  (6, "C"), (20, "Ca"), (48, "Cd"), (58, "Ce"), (17, "Cl"), (27, "Co"), (24, "Cr"), (55, "Cs"), (29, "Cu"), (66, "Dy"), (68, "Er"), (63, "Eu"),
  (9, "F"), (26, "Fe"), (87, "Fr"), (31, "Ga"), (64, "Gd"), (32, "Ge"), (1, "H"), (2, "He"), (72, "Hf"), (80, "Hg"), (67, "Ho"), (53, "I"),
  (49, "In"), (77, "Ir"), (19, "K"), (36, "Kr"), (57, "La"), (3, "Li"), (71, "Lu"), (12, "Mg"), (25, "Mn"), (42, "Mo"), (7, "N"), (11, "Na"),
  (41, "Nb"), (60, "Nd"), (10, "Ne"), (28, "Ni"), (8, "O"), (76, "Os"), (15, "P"), (91, "Pa"), (82, "Pb"), (46, "Pd"), (61, "Pm"), (84, "Po"),
  (59, "Pr"), (78, "Pt"), (88, "Ra"), (37, "Rb"), (75, "Re"), (45, "Rh"), (86, "Rn"), (44, "Ru"), (16, "S"), (51, "Sb"), (21, "Sc"), (34, "Se"),
  (14, "Si"), (62, "Sm"), (50, "Sn"), (38, "Sr"), (73, "Ta"), (65, "Tb"), (43, "Tc"), (52, "Te"), (90, "Th"), (22, "Ti"), (81, "Tl"), (69, "Tm"),
  (92, "U"), (23, "V"), (74, "W"), (54, "Xe"), (39, "Y"), (70, "Yb"), (30, "Zn"), (40, "Zr"), (93, "Np"), (94, "Pu"), (95, "Am"), (96, "Cm"),
  (97, "Bk"), (98, "Cf"), (99, "Es"), (100, "Fm"), (101, "Md"), (102, "No"), (103, "Lr"), (104, "Rf"), (105, "Db"), (106, "Sg"), (107, "Bh"), (108, "Hs"),
  (109, "Mt"), (110, "Ds"), (111, "Rg"), (112, "Cp"), (113, "Uut"), (114, "Uuq"), (115, "Uup"), (116, "Uuh"), (117, "Uus"), (118, "Uuo"), (119, "Uue")]

/-- The value of `w` bytes. -/
def conv (kind : Kind) (w n : Nat) : Int := match kind with
  | .int => toSigned w n
  | _ => n

/-- The values of a field, floats as bit patterns. -/
def Field.values (big : Bool) (fd : Field) (bs : Bytes) : List Int :=
  if fd.kind = .raw then bs.map fun b => (b.toNat : Int)
  else (List.range fd.count).map fun k => conv fd.kind fd.width (fieldVal big ((bs.drop (k * fd.width)).take fd.width))

/-- The fields one after the other. -/
def decodeFields (big : Bool) : List Field → Bytes → List (String × List Int)
  | [], _ => []
  | fd :: fs, f => (fd.name, fd.values big (f.take fd.size)) :: decodeFields big fs (f.drop fd.size)

/-- `sarray2dict(np.fromfile(f, dtype=fields, count=1))`, `rsciio/utils/_array.py` lines 24-44. -/
def header (big : Bool) (fs : List Field) (f : Bytes) : Py (List (String × List Int)) :=
  if f.length < (fs.map Field.size).sum then .error .typeError else .ok (decodeFields big fs f)

/-- `header[name]`. -/
def values (h : List (String × List Int)) (name : String) : Py (List Int) := match h.lookup name with
  | some v => .ok v
  | none => .error .keyError

/-- `header[name]` of a single number. -/
def number (h : List (String × List Int)) (name : String) : Py Int := match h.lookup name with
  | some (v :: _) => .ok v
  | _ => .error .keyError

/-- `header[name]` of a single float. -/
def float (h : List (String × List Int)) (name : String) : Py Rat := match h.lookup name with
  | some (v :: _) => .ok (f32Dec v.toNat)
  | _ => .error .keyError

/-- The dtype of an `.spc` file: the version is rounded to two digits, lines 115-126, 465-477. -/
def spcFields (loadAll : Bool) (version : Nat) : List Field :=
  if loadAll then spcFull ++ (if 70 ≤ roundEven (100 * f32Dec version) then spcExt else []) else spcShort

/-- `__get_spc_header`, lines 95-130. -/
def spcHeader (big loadAll : Bool) (f : Bytes) : Py (List (String × List Int)) :=
  if f.length < 4 then .error .valueError
  else header big (spcFields loadAll (fieldVal big (f.take 4))) f

/-- `__get_ipr_header`, lines 506-531. -/
def iprHeader (big : Bool) (f : Bytes) : Py (List (String × List Int)) :=
  if f.length < 2 then .error .valueError
  else header big (iprOld ++ (if 334 ≤ toSigned 2 (fieldVal big (f.take 2)) then iprExt else [])) f

structure Meta where
  azimuth : Rat
  elevation : Rat
  resolution : Rat
  liveTime : Rat
  energy : Rat
  tilt : Rat
  elements : Option (List String)

/-- `atomic_number2name[i]`. -/
def elementName (z : Int) : Py String := match elementNames.lookup z.toNat with
  | some s => if 0 ≤ z then .ok s else .error .keyError
  | none => .error .keyError

/-- `sorted` of texts. -/
def sortNames (l : List String) : List String := l.mergeSort fun a b => decide (a ≤ b)

/-- The elements of a spectrum, lines 682-687. -/
def elements (h : List (String × List Int)) : Py (Option (List String)) := do
  let n ← number h "numElem"
  if 0 < n then
    let zs ← values h "at"
    let names ← (zs.take n.toNat).mapM elementName
    .ok (some (sortNames names))
  else .ok none

/-- `_add_spc_metadata`, lines 648-694. -/
def spcMeta (h : List (String × List Int)) : Py Meta := do
  let az ← float h "azimuth"
  let el ← float h "elevation"
  let re ← float h "detReso"
  let lt ← float h "liveTime"
  let kv ← float h "kV"
  let ti ← float h "tilt"
  let es ← elements h
  .ok ⟨az, el, re, lt, kv, ti, es⟩

/-- `np.fromfile(f, dtype, count, offset)`: a negative count stands for all. -/
def fromfile (big : Bool) (w off : Nat) (count : Int) (f : Bytes) : List Nat :=
  let avail := (f.length - off) / w
  let n := if count < 0 then avail else min count.toNat avail
  (List.range n).map fun k => fieldVal big ((f.drop (off + k * w)).take w)

/-- `memmap_distributed(f, dtype, offset, shape)`: a file that is too short cannot be mapped. -/
def memmap (big : Bool) (w off n : Nat) (f : Bytes) : Py (List Nat) :=
  if f.length < off + n * w then .error .valueError
  else .ok ((List.range n).map fun k => fieldVal big ((f.drop (off + k * w)).take w))

structure Axis where
  size : Nat
  index : Int
  name : String
  scale : Rat
  offset : Rat
  units : Option String
  navigate : Bool
  deriving DecidableEq

structure Signal where
  shape : List Nat
  data : List Nat
  axes : List Axis
  spc : Option Meta
  title : String

/-- Lines 724-736. -/
def spcData (lazy big : Bool) (off : Int) (nz : Int) (f : Bytes) : Py (List Nat) :=
  if off < 0 then .error .ioError
  else if lazy then (if nz < 0 then .error .valueError else memmap big 4 off.toNat nz.toNat f)
  else .ok (fromfile big 4 off.toNat nz f)

/-- `spc_reader`, lines 697-771. -/
def spcReader (lazy big loadAll : Bool) (f : Bytes) : Py Signal := do
  let h ← spcHeader big loadAll f
  let nz ← number h "numPts"
  let off ← number h "dataStart"
  let data ← spcData lazy big off nz f
  let ev ← number h "evPerChan"
  let start ← float h "startEnergy"
  let md ← spcMeta h
  .ok ⟨[data.length], data, [⟨data.length, 0, "Energy", (ev : Rat) / 1000, start, some "keV", false⟩], some md, "EDS Spectrum"⟩

/-! ### Paths -/

/-- `os.path.split`: the directory and the last component. -/
def splitPath (p : Text) : Text × Text :=
  let tail := (p.reverse.takeWhile (· ≠ '/')).reverse
  let head := p.take (p.length - tail.length)
  let stripped := rstripBy (· = '/') head
  (if stripped = [] then head else stripped, tail)

/-- `os.path.splitext`: the extension starts at the last dot of the last component, unless there are only dots before it. -/
def splitExt (p : Text) : Text × Text :=
  let tail := (p.reverse.takeWhile (· ≠ '/')).reverse
  if '.' ∈ tail then
    let ext := (tail.reverse.takeWhile (· ≠ '.')).reverse
    let stem := tail.take (tail.length - ext.length - 1)
    if stem.all (· = '.') then (p, []) else (p.take (p.length - ext.length - 1), '.' :: ext)
  else (p, [])

/-- `os.path.join`. -/
def joinPath (a b : Text) : Text :=
  if b.head? = some '/' then b
  else if a = [] ∨ a.getLast? = some '/' then a ++ b
  else a ++ '/' :: b

/-- The files, by their paths: contents as bytes, and as text. -/
structure Disk where
  bytes : Text → Option Bytes
  text : Text → Option Text

/-! ### Spectrum images and line scans -/

/-- `{"1": "u1", "2": "u2", "4": "u4"}[str(countBytes)]`, lines 838-840. -/
def countWidth (n : Int) : Py Nat := if n = 1 then .ok 1 else if n = 2 then .ok 2 else if n = 4 then .ok 4 else .error .keyError

/-- Lines 842-856: the counts of the map. Without `lazy` the data type has no byte order, which is that of the machine. -/
def mapData (lazy big : Bool) (w off ny nx nz : Nat) (f : Bytes) : Py (List Nat) :=
  if lazy then memmap big w off (ny * nx * nz) f
  else
    let data := fromfile false w off (ny * nx * nz : Nat) f
    if data.length = ny * nx * nz then .ok data else .error .valueError

/-- `data.squeeze()[:n, :]` of a three-dimensional array, line 910: the new shape and the number of values kept. -/
def squeezeSlice (shape : List Nat) (n : Int) : Py (List Nat × Nat) := match shape.filter (· ≠ 1) with
  | a :: b :: rest =>
    let k := if 0 ≤ n then min n.toNat a else (a + n).toNat
    .ok (k :: b :: rest, k * (b :: rest).prod)
  | _ => .error .indexError

/-- Lines 895-905: the energy axis. -/
def energyAxis (spc : Option (List (String × List Int))) (nz : Nat) : Py Axis := match spc with
  | none => .ok ⟨nz, -1, "Energy", 1, 1, none, false⟩
  | some h => do
    let ev ← number h "evPerChan"
    let start ← float h "startEnergy"
    .ok ⟨nz, -1, "Energy", (ev : Rat) / 1000, start, some "keV", false⟩

/-- A row of `csv.reader` with `skipinitialspace`: text without quotation marks. -/
def csvRow (line : Text) : List Text :=
  let l := line.filter (· ≠ '\n')
  if l = [] then [] else (splitChar ',' l).map fun c => c.dropWhile (· = ' ')

/-- `row[name]` of `csv.DictReader`: the last column of this name counts, cells that are missing are `None`. -/
def cell (names row : List Text) (name : Text) : Py Text := match (List.range names.length).reverse.find? fun i => names[i]? = some name with
  | none => .error .keyError
  | some i => match row[i]? with
    | some c => .ok c
    | none => .error .typeError

/-- `float(row["Distance (nm)"])`, line 937. -/
def distance (num : Text → Option Rat) (names row : List Text) : Py Rat := match cell names row "Distance (nm)".toList with
  | .error e => .error e
  | .ok c => match num c with
    | some r => .ok r
    | none => .error .valueError

/-- `spatial_axis[0]` and `spatial_axis[1] - spatial_axis[0]`, lines 939-940. -/
def calibration : List Rat → Py (Rat × Rat)
  | a :: b :: _ => .ok (a, b - a)
  | _ => .error .indexError

/-- Lines 917-940: offset and scale of a line scan, from the lines of the `.csv` file. -/
def csvCalibration (num : Text → Option Rat) (text : Text) : Py (Rat × Rat) :=
  let lines := fileLines text
  if lines.length < 14 then .error .stopIteration
  else match (lines.drop 14).map csvRow with
    | [] => .error .indexError
    | names :: rows => match (rows.filter (· ≠ [])).mapM (distance num names) with
      | .error e => .error e
      | .ok ds => calibration ds

/-- The default path of the `.csv` file, lines 912-914. -/
def csvPath (filename : Text) : Text := joinPath (splitPath filename).1 ((splitExt filename).1 ++ ".csv".toList)

/-- The default path of the `.spc` file, lines 865-867. -/
def spcPath (filename : Text) : Text := joinPath (splitPath filename).1 ((splitExt (splitPath filename).2).1 ++ ".spc".toList)

/-- `spd_header["fName"][0].view("S120")[0]`: without the null bytes at the end, lines 861-861; `decode` of ASCII text. -/
def bitmapName (v : List Int) : Text := ((v.reverse.dropWhile (· = 0)).reverse).map fun b => Char.ofNat (b % 256).toNat

/-- The default path of the `.ipr` file, lines 969-976. -/
def iprPath (filename bitmap : Text) : Text := joinPath (splitPath filename).1 ((splitExt (splitPath bitmap).2).1 ++ ".ipr".toList)

/-- Lines 909-964: the signal of a line scan. -/
def lineScan (num : Text → Option Rat) (csv : Option Text) (shape : List Nat) (nSpectra : Int) (data : List Nat) (energy : Axis) (md : Option Meta) : Py Signal := do
  let (sh, n) ← squeezeSlice shape nSpectra
  let (off, scale) ← (match csv with
    | none => .ok (0, 1)
    | some t => csvCalibration num t : Py (Rat × Rat))
  .ok ⟨sh, data.take n, [⟨sh.headD 0, 0, "x", scale, off, if csv.isSome then some "nm" else none, true⟩, energy], md, "EDS Line Scan"⟩

/-- Lines 967-1026: the signal of a map. -/
def mapSignal (big : Bool) (ipr : Option Bytes) (ny nx nz : Nat) (data : List Nat) (energy : Axis) (md : Option Meta) : Py Signal := do
  let (sx, sy, units) ← (match ipr with
    | none => .ok (1, 1, none)
    | some f => do
      let h ← iprHeader big f
      let sx ← float h "mppX"
      let sy ← float h "mppY"
      .ok (sx, sy, some "µm") : Py (Rat × Rat × Option String))
  .ok ⟨[ny, nx, nz], data, [⟨ny, 0, "y", sy, 0, units, true⟩, ⟨nx, 1, "x", sx, 0, units, true⟩, energy], md, "EDS Spectrum Image"⟩

/-- The `.spc` header of a map or a line scan, lines 878-893. -/
def readSpc (big loadAll : Bool) (f : Option Bytes) : Py (Option (List (String × List Int)) × Option Meta) := match f with
  | none => .ok (none, none)
  | some f => do
    let h ← spcHeader big loadAll f
    let md ← spcMeta h
    .ok (some h, some md)

structure Options where
  lazy : Bool
  big : Bool
  loadAll : Bool
  spcName : Option Text
  iprName : Option Text
  csvName : Option Text

/-- `si_reader`, lines 776-1038. -/
def siReader (num : Text → Option Rat) (disk : Disk) (o : Options) (filename : Text) : Py Signal := match disk.bytes filename with
  | none => .error .ioError
  | some f => do
    let h ← header o.big spdFields f
    let nx ← number h "nPoints"
    let ny ← number h "nLines"
    let nz ← number h "nChannels"
    let nSpectra ← number h "nSpectra"
    let off ← number h "dataOffset"
    let cb ← number h "countBytes"
    let w ← countWidth cb
    if nx < 0 then .error .valueError
    else do
      let data ← mapData o.lazy o.big w off.toNat ny.toNat nx.toNat nz.toNat f
      let fName ← values h "fName"
      let (spc, md) ← readSpc o.big o.loadAll (disk.bytes (o.spcName.getD (spcPath filename)))
      let energy ← energyAxis spc nz.toNat
      if (splitExt filename).2.map Char.toLower = ".lsd".toList then
        lineScan num (disk.text (o.csvName.getD (csvPath filename))) [ny.toNat, nx.toNat, nz.toNat] nSpectra data energy md
      else mapSignal o.big (disk.bytes (o.iprName.getD (iprPath filename (bitmapName fName)))) ny.toNat nx.toNat nz.toNat data energy md

/-- `file_reader`, lines 1044-1127. -/
def fileReader (num : Text → Option Rat) (disk : Disk) (o : Options) (filename : Text) : Py Signal :=
  let ext := (splitExt filename).2.map Char.toLower
  if ext = ".spd".toList ∨ ext = ".lsd".toList then siReader num disk o filename
  else if ext = ".spc".toList then match disk.bytes filename with
    | none => .error .ioError
    | some f => spcReader o.lazy o.big o.loadAll f
  else .error .valueError

end Verif.Edax
