import Verif.Model.Phenom
/-!
The layout of ELID files, versions 0 to 4, and what a user expects from the signals, independent of the functions of the reader.
-/
namespace Verif.Spec.Phenom
open Verif.Phenom (J Elem Tiff Env Sig Axis)

/-! ### Layout -/

/-- A float, by its bit pattern. -/
def float (x : UInt64) : List UInt8 := leBytes 8 x.toNat

/-- A number of items. -/
def count (n : Nat) : List UInt8 := leBytes 4 n

/-- A list: its length and its items. -/
def listOf (f : α → List UInt8) (l : List α) : List UInt8 := count l.length ++ l.flatMap f

/-- At most `f` groups of seven bits. -/
def lebAux : Nat → Nat → List UInt8
  | 0, _ => []
  | f + 1, n => if n < 128 then [UInt8.ofNat n] else UInt8.ofNat (128 + n % 128) :: lebAux f (n / 128)

/-- A number in groups of seven bits; the eighth bit of a byte says that more follow. -/
def leb (n : Nat) : List UInt8 := lebAux (n + 1) n

/-- A flag. -/
def flag (b : Bool) : List UInt8 := [if b then 1 else 0]

/-- A signed number. -/
def signed (i : Int) : List UInt8 := leBytes 4 (ofSigned 4 i)

/-- Metadata of a spectrum. -/
structure Eds where
  tension : UInt64
  elevation : UInt64
  azimuth : UInt64
  live : UInt64
  real : UInt64
  slow : UInt64
  fast : UInt64
  resolution : UInt64
  instrument : List UInt8
  optical : UInt64
  distance : UInt64
  area : UInt64
  detector : UInt64
  tilt : UInt64
  correction : UInt64
  detectorType : UInt8
  spectrumCorrection : UInt8

/-- Metadata of a spectrum in a file of version `v`. -/
def eds (v : Nat) (e : Eds) : List UInt8 :=
  float e.tension ++ float e.elevation ++ float e.azimuth ++ float e.live ++ float e.real ++ float e.slow ++ float e.fast ++
  float e.resolution ++ listOf (fun b => [b]) e.instrument ++
  (if 1 ≤ v then float e.optical ++ float e.distance ++ float e.area ++ float e.detector ++ float e.tilt else []) ++
  (if 3 ≤ v then float e.correction ++ [e.detectorType] ++ [e.spectrumCorrection] else [])

/-- What all analyses store. -/
structure Common where
  cutout : List UInt8
  offset : UInt64
  dispersion : UInt64
  counts : List Nat
  eds : Eds
  included : List UInt8
  excluded : List UInt8
  bins : List Int
  oxides : List (UInt8 × UInt8 × UInt8)
  auto : Bool
  order : Int
  families : List (UInt8 × UInt8)
  drift : UInt8
  ignored : List UInt8

/-- The common part of an analysis. -/
def common (v : Nat) (c : Common) : List UInt8 :=
  listOf (fun b => [b]) c.cutout ++ (float c.offset ++ float c.dispersion ++ listOf leb c.counts) ++ eds v c.eds ++
  listOf (fun b => [b]) c.included ++ listOf (fun b => [b]) c.excluded ++ listOf signed c.bins ++
  listOf (fun o => [o.1, o.2.1, o.2.2]) c.oxides ++ flag c.auto ++ signed c.order ++ listOf (fun o => [o.1, o.2]) c.families ++
  (if 2 ≤ v then [c.drift] else []) ++ (if 4 ≤ v then listOf (fun b => [b]) c.ignored else [])

/-- Times: one for each spectrum, or one for all. -/
inductive Times | each (l : List UInt64) | all (t : UInt64)

/-- Are there several times? -/
def Times.var : Times → Bool
  | .each _ => true
  | .all _ => false

/-- Bytes of the times. -/
def Times.bytes : Times → List UInt8
  | .each l => l.flatMap float
  | .all t => float t

/-- The time of a spectrum. -/
def Times.at (t : Times) (i : Nat) : Option UInt64 :=
  match t with
  | .each l => l[i]?
  | .all t => some t

/-- A line scan, besides the common part: spectra of one length. -/
structure Line where
  x1 : UInt64
  y1 : UInt64
  x2 : UInt64
  y2 : UInt64
  bins : Nat
  offset : UInt64
  dispersion : UInt64
  eds : Eds
  rows : List (List Nat)
  real : Times
  live : Times
  accurate : Bool

/-- A map, besides the common part: rows of spectra. -/
structure Map where
  left : UInt64
  top : UInt64
  right : UInt64
  bottom : UInt64
  colors : List UInt64
  width : Nat
  bins : Nat
  offset : UInt64
  dispersion : UInt64
  eds : Eds
  rows : List (List (List Nat))
  real : Times
  live : Times

/-- The analyses. -/
inductive Analysis
  | msa (c : Common)
  | spot (c : Common) (x y : UInt64)
  | line (c : Common) (l : Line)
  | map (c : Common) (m : Map)
  | difference (c : Common) (minuend subtrahend : UInt32)
  | region (c : Common) (left top right bottom : UInt64)
  | constructive (c : Common) (description : List UInt8) (sources : List (UInt32 × UInt64))

/-- A line scan in a file. -/
def line (v : Nat) (l : Line) : List UInt8 :=
  float l.x1 ++ float l.y1 ++ float l.x2 ++ float l.y2 ++ count l.rows.length ++ count l.bins ++ float l.offset ++ float l.dispersion ++
  eds v l.eds ++ flag l.real.var ++ flag l.live.var ++ l.rows.flatMap (fun r => r.flatMap leb) ++ l.real.bytes ++ l.live.bytes ++ flag l.accurate

/-- A map in a file. -/
def map (v : Nat) (m : Map) : List UInt8 :=
  float m.left ++ float m.top ++ float m.right ++ float m.bottom ++ listOf float m.colors ++ count m.width ++ count m.rows.length ++
  count m.bins ++ float m.offset ++ float m.dispersion ++ eds v m.eds ++ flag m.real.var ++ flag m.live.var ++
  m.rows.flatMap (fun r => r.flatMap fun s => s.flatMap leb) ++ m.real.bytes ++ m.live.bytes

/-- An analysis in a file. -/
def analysis (v : Nat) : Analysis → List UInt8
  | .msa c => [1] ++ common v c
  | .spot c x y => [2] ++ (common v c ++ (float x ++ float y))
  | .line c l => [3] ++ (common v c ++ line v l)
  | .map c m => [4] ++ (common v c ++ map v m)
  | .difference c m s => [5] ++ (common v c ++ (count m.toNat ++ count s.toNat))
  | .region c l t r b => [6] ++ (common v c ++ (float l ++ float t ++ float r ++ float b))
  | .constructive c d s => [7] ++ (common v c ++ (listOf (fun b => [b]) d ++ listOf (fun p => count p.1.toNat ++ float p.2) s))

/-- A picture with its analyses. -/
structure Image where
  tiff : List UInt8
  label : List UInt8
  analyses : List Analysis

/-- A picture in a file. -/
def image (v : Nat) (i : Image) : List UInt8 :=
  listOf (fun b => [b]) i.tiff ++ listOf (fun b => [b]) i.label ++ listOf (analysis v) i.analyses

/-- A project. -/
structure Project where
  images : List Image
  analyses : List Analysis
  constructive : List Analysis

/-- A project, decompressed. -/
def project (v : Nat) (p : Project) : List UInt8 :=
  [69, 73, 68, 50] ++ signed v ++ (listOf (image v) p.images ++
  (if 1 ≤ v then listOf (analysis v) p.analyses ++ listOf (analysis v) p.constructive else []))

/-- The beginning of a bzip2 file. -/
def IsBzip2 (raw : List UInt8) : Prop := ∃ a b rest, raw = [66, 90, a, b, 0x31, 0x41, 0x59, 0x26, 0x53, 0x59] ++ rest

/-- The elements, one period of the table after the other. -/
def symbols : List String :=
  ["H", "He"] ++ ["Li", "Be", "B", "C", "N", "O", "F", "Ne"] ++ ["Na", "Mg", "Al", "Si", "P", "S", "Cl", "Ar"] ++
  ["K", "Ca", "Sc", "Ti", "V", "Cr", "Mn", "Fe", "Co", "Ni", "Cu", "Zn", "Ga", "Ge", "As", "Se", "Br", "Kr"] ++
  ["Rb", "Sr", "Y", "Zr", "Nb", "Mo", "Tc", "Ru", "Rh", "Pd", "Ag", "Cd", "In", "Sn", "Sb", "Te", "I", "Xe"] ++
  ["Cs", "Ba"] ++ ["La", "Ce", "Pr", "Nd", "Pm", "Sm", "Eu", "Gd", "Tb", "Dy", "Ho", "Er", "Tm", "Yb", "Lu"] ++
  ["Hf", "Ta", "W", "Re", "Os", "Ir", "Pt", "Au", "Hg", "Tl", "Pb", "Bi", "Po", "At", "Rn"] ++
  ["Fr", "Ra"] ++ ["Ac", "Th", "Pa", "U", "Np", "Pu", "Am", "Cm", "Bk", "Cf", "Es", "Fm", "Md", "No", "Lr"] ++
  ["Rf", "Db", "Sg", "Bh", "Hs", "Mt", "Ds", "Rg", "Cn", "Nh", "Fl", "Mc", "Lv", "Ts", "Og"]

/-- The symbol of an element. -/
def symbol (z : UInt8) : Text := (symbols.getD (z.toNat - 1) "").toList

/-- The formula of an oxide. -/
def oxideName (o : UInt8 × UInt8 × UInt8) : Text :=
  symbol o.1 ++ (if o.2.1.toNat > 1 then decChars o.2.1.toNat else []) ++ ['O'] ++ (if o.2.2.toNat > 1 then decChars o.2.2.toNat else [])

/-- The lines of a spectrum. -/
def family (i : UInt8) : Text := ([["K"], ["L"], ["M"], ["N"], ["O"], ["P"]].flatten.getD (i.toNat - 1) "").toList

/-! ### What fits into the fields -/

/-- A list with a length that fits. -/
def Fits (l : List α) : Prop := l.length < 2 ^ 32

/-- A signed number that fits. -/
def Fits32 (i : Int) : Prop := -2 ^ 31 ≤ i ∧ i < 2 ^ 31

/-- Numbers of elements. -/
def Elements (l : List UInt8) : Prop := Fits l ∧ ∀ z ∈ l, 1 ≤ z.toNat ∧ z.toNat ≤ 118

/-- Metadata of a spectrum that can be stored. -/
def Eds.Ok (e : Eds) : Prop := Fits e.instrument

/-- A common part that can be stored. -/
structure Common.Ok (c : Common) : Prop where
  cutout : Fits c.cutout
  counts : Fits c.counts
  eds : c.eds.Ok
  included : Elements c.included
  excluded : Elements c.excluded
  bins : Fits c.bins ∧ ∀ i ∈ c.bins, Fits32 i
  oxides : Fits c.oxides ∧ ∀ o ∈ c.oxides, 1 ≤ o.1.toNat ∧ o.1.toNat ≤ 118
  order : Fits32 c.order
  families : Fits c.families ∧ ∀ o ∈ c.families, (1 ≤ o.1.toNat ∧ o.1.toNat ≤ 118) ∧ 1 ≤ o.2.toNat ∧ o.2.toNat ≤ 6
  ignored : Elements c.ignored

/-- Times for `n` spectra. -/
def Times.Ok (n : Nat) : Times → Prop
  | .each l => l.length = n
  | .all _ => True

/-- A line scan that can be stored. -/
structure Line.Ok (l : Line) : Prop where
  rows : Fits l.rows
  bins : l.bins < 2 ^ 32
  shape : ∀ r ∈ l.rows, r.length = l.bins
  cells : ∀ r ∈ l.rows, ∀ n ∈ r, n < 2 ^ 32
  eds : l.eds.Ok
  real : l.real.Ok l.rows.length
  live : l.live.Ok l.rows.length

/-- A map that can be stored. -/
structure Map.Ok (m : Map) : Prop where
  colors : Fits m.colors
  rows : Fits m.rows
  width : m.width < 2 ^ 32
  bins : m.bins < 2 ^ 32
  shape : ∀ r ∈ m.rows, r.length = m.width ∧ ∀ s ∈ r, s.length = m.bins
  cells : ∀ r ∈ m.rows, ∀ s ∈ r, ∀ n ∈ s, n < 2 ^ 32
  eds : m.eds.Ok
  real : m.real.Ok (m.rows.length * m.width)
  live : m.live.Ok (m.rows.length * m.width)
  some : 0 < m.rows.length ∧ 0 < m.width

/-! ### Metadata of pictures -/

/-- Names of the parts of an element. -/
def tag : Elem → Text | .mk t _ _ _ => t
def attrs : Elem → List (Text × Text) | .mk _ a _ _ => a
def text : Elem → Option Text | .mk _ _ t _ => t
def children : Elem → List Elem | .mk _ _ _ c => c

/-- The element at the end of a path; on the way no two elements have one name. -/
inductive At : List String → Elem → Elem → Prop
  | here (e : Elem) : At [] e e
  | child {k : String} {ks : List String} {e c x : Elem} (hm : c ∈ children e) (ht : tag c = k.toList)
      (hu : ∀ c' ∈ children e, tag c' = tag c → c' = c) (h : At ks c x) : At (k :: ks) e x

/-- Units of length, in metres. -/
def metres (u : Text) : Option ℚ :=
  if u = "m".toList then some 1
  else if u = "mm".toList then some (1 / 1000)
  else if u = "µm".toList ∨ u = "um".toList then some (1 / 1000000)
  else if u = "nm".toList then some (1 / 1000000000)
  else if u = "pm".toList then some (1 / 1000000000000)
  else none

/-- A length: a number in metres, or a number with a unit. -/
def Length (env : Env) (e : Elem) (q : ℚ) : Prop :=
  children e = [] ∧ ∃ t x, text e = some t ∧ env.float t = .ok x ∧
    ((attrs e = [] ∧ q = x) ∨ (∃ u f, attrs e = [("unit".toList, u)] ∧ metres u = some f ∧ q = x * f))

/-- Date and time in a picture: none, or with the letter between them. -/
def Dated (e : Elem) (r : Option (Text × Text)) : Prop :=
  (r = none ∧ ∀ c ∈ children e, tag c ≠ "time".toList) ∨
  (∃ c d t, At ["time"] e c ∧ children c = [] ∧ attrs c = [] ∧ text c = some (d ++ 'T' :: t) ∧ 'T' ∉ d ∧ 'T' ∉ t ∧ r = some (d, t))

/-- The metadata of a picture: the size of its pixels, and what the reader looks up. -/
structure Frame (env : Env) (e : Elem) (h w : ℚ) (date : Option (Text × Text)) : Prop where
  root : tag e = "FeiImage".toList
  height : ∃ x, At ["pixelHeight"] e x ∧ Length env x h
  width : ∃ x, At ["pixelWidth"] e x ∧ Length env x w
  detectors : ∃ x, At ["acquisition", "scan", "detectors"] e x ∧ children x ≠ []
  date : Dated e date

/-- A picture: pixels, with or without metadata. -/
def Picture (env : Env) (bytes : List UInt8) (t : Tiff) : Prop :=
  Fits bytes ∧ bytes ≠ [] ∧ env.tiff bytes = .ok t ∧ ∀ e, t.xml = some e → ∃ h w d, Frame env e h w d

/-- A cut-out: none, or a picture. -/
def Cutout (env : Env) (bytes : List UInt8) : Prop := bytes = [] ∨ ∃ t, Picture env bytes t

/-! ### What a user expects -/

/-- A text of a number. -/
def intText (i : Int) : Text := if i < 0 then '-' :: decChars (-i).toNat else decChars i.toNat

/-- An axis of the energy, in keV; files store eV. -/
def Energy (env : Env) (a : Axis) (name : String) (offset dispersion : UInt64) (n : Nat) : Prop :=
  a.name = name.toList ∧ a.units = "keV".toList ∧ a.navigate = false ∧ a.size = n ∧ 1000 * a.offset = env.f64 offset.toNat ∧
    1000 * a.scale = env.f64 dispersion.toNat

/-- An axis of a picture: one step is `q` metres. -/
def Place (a : Axis) (name : String) (n : Nat) (q : ℚ) : Prop :=
  a.name = name.toList ∧ a.navigate = true ∧ a.size = n ∧ a.offset = 0 ∧ ∃ f, metres a.units = some f ∧ a.scale * f = q

/-- The signal of a picture. -/
structure ShowsPicture (env : Env) (t : Tiff) (label : Text) (s : Sig) : Prop where
  shape : s.shape = [t.rows, t.cols]
  data : s.data = t.pixels
  title : s.title = label
  type : s.signalType = none
  plain : t.xml = none → s.date = none ∧ ∃ y x, s.axes = [y, x] ∧
    (y.name = "y".toList ∧ y.navigate = true ∧ y.size = t.rows ∧ y.offset = 0 ∧ y.scale = 1 ∧ y.units = "points".toList) ∧
    (x.name = "x".toList ∧ x.navigate = true ∧ x.size = t.cols ∧ x.offset = 0 ∧ x.scale = 1 ∧ x.units = "points".toList)
  calibrated : ∀ e h w d, t.xml = some e → Frame env e h w d → s.date = d ∧ ∃ y x, s.axes = [y, x] ∧ Place y "y" t.rows h ∧ Place x "x" t.cols w

/-- The signal of one spectrum. -/
def ShowsSpectrum (env : Env) (c : Common) (title : Text) (s : Sig) : Prop :=
  s.shape = [c.counts.length] ∧ s.data = c.counts ∧ s.title = title ∧ s.signalType = some "EDS_SEM".toList ∧
    ∃ a, s.axes = [a] ∧ Energy env a "Energy" c.offset c.dispersion c.counts.length

/-- The signal of a line scan. -/
def ShowsLine (env : Env) (l : Line) (title : Text) (s : Sig) : Prop :=
  s.shape = [l.rows.length, l.bins] ∧ s.data = l.rows.flatten ∧ s.title = title ∧ s.signalType = some "EDS_SEM".toList ∧
    ∃ i a, s.axes = [i, a] ∧ (i.navigate = true ∧ i.size = l.rows.length ∧ i.offset = 0 ∧ i.scale = 1 ∧ i.units = "points".toList) ∧
      Energy env a "X-ray energy" l.offset l.dispersion l.bins

/-- The signal of a map that covers `h` by `w` metres. -/
def ShowsMap (env : Env) (m : Map) (h w : ℚ) (title : Text) (s : Sig) : Prop :=
  s.shape = [m.rows.length, m.width, m.bins] ∧ s.data = (m.rows.map List.flatten).flatten ∧ s.title = title ∧
    s.signalType = some "EDS_SEM".toList ∧
    ∃ y x a, s.axes = [y, x, a] ∧ Place y "y" m.rows.length (h / m.rows.length) ∧ Place x "x" m.width (w / m.width) ∧
      Energy env a "X-ray energy" m.offset m.dispersion m.bins

/-- The parts of a picture that an analysis in it refers to, for files of version 0: the working distance and the size of the spot, if given. -/
def Old (env : Env) (e : Elem) (o : Option (ℚ × ℚ)) : Prop :=
  (o = none ∧ ∀ c ∈ children e, tag c ≠ "workingDistance".toList) ∨
  (∃ x w y t s, At ["workingDistance"] e x ∧ Length env x w ∧ At ["acquisition", "scan", "spotSize"] e y ∧ children y = [] ∧ attrs y = [] ∧
    text y = some t ∧ env.float t = .ok s ∧ o = some (w, s))

/-- The part of the picture that is scanned. -/
def ScanScale (env : Env) (e : Elem) (s : ℚ) : Prop :=
  ∃ y t, At ["acquisition", "scan", "scanScale"] e y ∧ children y = [] ∧ attrs y = [] ∧ text y = some t ∧ env.float t = .ok s

/-- A common part that can be read. -/
def CommonOk (env : Env) (c : Common) : Prop := c.Ok ∧ Cutout env c.cutout ∧ ∃ t, env.utf8 c.eds.instrument = .ok t

/-- An analysis of a picture; the spectra of line scans and maps are calibrated as their sum, and pictures of maps are square. -/
def AnalysisOk (env : Env) (t : Tiff) : Analysis → Prop
  | .msa c => CommonOk env c
  | .spot c _ _ => CommonOk env c ∧ t.xml ≠ none
  | .line c l => CommonOk env c ∧ t.xml ≠ none ∧ l.Ok ∧ (∃ t, env.utf8 l.eds.instrument = .ok t) ∧
      env.f64 l.offset.toNat = env.f64 c.offset.toNat ∧ env.f64 l.dispersion.toNat = env.f64 c.dispersion.toNat
  | .map c m => CommonOk env c ∧ m.Ok ∧ (∃ t, env.utf8 m.eds.instrument = .ok t) ∧
      env.f64 m.offset.toNat = env.f64 c.offset.toNat ∧ env.f64 m.dispersion.toNat = env.f64 c.dispersion.toNat ∧
      ∃ e h w d s, t.xml = some e ∧ Frame env e h w d ∧ h * t.rows = w * t.cols ∧ ScanScale env e s
  | .difference c _ _ => CommonOk env c ∧ t.xml ≠ none
  | .region c _ _ _ _ => CommonOk env c ∧ t.xml ≠ none
  | .constructive c d s => CommonOk env c ∧ Fits d ∧ Fits s ∧ ∃ t, env.utf8 d = .ok t

/-- What is in a picture: the pixels, the label, and for files of version 0 what analyses refer to. -/
structure Seen where
  tiff : Tiff
  label : Text
  old : Option (ℚ × ℚ)

/-- A picture with analyses that can be read. -/
structure ImageOk (env : Env) (v : Nat) (i : Image) (n : Seen) : Prop where
  picture : Picture env i.tiff n.tiff
  label : Fits i.label ∧ env.utf8 i.label = .ok n.label
  fits : Fits i.analyses
  old : v = 0 → (n.tiff.xml = none → n.old = none) ∧ ∀ e, n.tiff.xml = some e → Old env e n.old
  analyses : ∀ a ∈ i.analyses, AnalysisOk env n.tiff a

/-- An analysis that belongs to no picture. -/
def FreeOk (env : Env) : Analysis → Prop
  | .msa c => CommonOk env c
  | .constructive c d s => CommonOk env c ∧ Fits d ∧ Fits s ∧ ∃ t, env.utf8 d = .ok t
  | _ => False

/-- A title with the number of the analysis. -/
def titleOf (label : Text) (kind : String) (c : Common) : Text := label ++ ", ".toList ++ kind.toList ++ " ".toList ++ intText c.order

/-- The signal of an analysis. -/
def ShowsAnalysis (env : Env) (t : Tiff) (label : Text) : Analysis → Sig → Prop
  | .msa c, s => ShowsSpectrum env c (titleOf label "MSA" c) s
  | .spot c _ _, s => ShowsSpectrum env c (titleOf label "Spot" c) s
  | .line c l, s => ShowsLine env l (titleOf label "Line" c) s
  | .map c m, s => ∀ e h w d q, t.xml = some e → Frame env e h w d → ScanScale env e q →
      ShowsMap env m (h * t.rows * q) (w * t.cols * q) (titleOf label "Map" c) s
  | .difference c m n, s => ShowsSpectrum env c (label ++ ", Difference ".toList ++ decChars m.toNat ++ " - ".toList ++ decChars n.toNat) s
  | .region c _ _ _ _, s => ShowsSpectrum env c (titleOf label "Region" c) s
  | .constructive _ _ _, _ => False

/-- Analyses that are computed from others. -/
def isConstructive : Analysis → Bool
  | .constructive _ _ _ => true
  | _ => false

/-! ### Metadata -/

/-- An entry of nested dictionaries. -/
def look : List String → J → Option J
  | [], j => some j
  | k :: ks, .dict d => (d.find? fun e => e.1 = k.toList).bind fun e => look ks e.2
  | _ :: _, _ => none

/-- Two paths that do not meet. -/
def Apart (p q : List String) : Prop := ¬ p <+: q ∧ ¬ q <+: p

/-- Where the metadata of a spectrum is. -/
def edsAt : List String := ["acquisition", "scan", "detectors", "EDS"]

/-- Names of detectors. -/
def detectorTypes : List String := ["Empty", "FastSDD_C2", "FastSDD_C5", "FastSDD_WLS"]

/-- A number as it is stored. -/
def num (env : Env) (x : UInt64) : J := .num (env.f64 x.toNat)

/-- Files of version 0: what is stored, or estimates from the metadata of the picture. -/
def oldTable (env : Env) (e : Eds) : Option (ℚ × ℚ) → List (String × J)
  | none => [("slow_peaking_time", num env e.slow), ("fast_peaking_time", num env e.fast)]
  | some (w, s) => [("working_distance", .num w), ("slow_peaking_time", .num (if s < 9 / 2 then 112 / 10000000 else 2 / 1000000)),
      ("fast_peaking_time", .num (1 / 10000000)), ("detector_surface_area", .num (1 / 40000))]

/-- What a file stores about a spectrum, and what is known about files of old versions. -/
def edsTable (env : Env) (v : Nat) (e : Eds) (instrument : Text) (o : Option (ℚ × ℚ)) : List (String × J) :=
  [("high_tension", num env e.tension), ("detector_azimuth", num env e.azimuth), ("detector_resolution", num env e.resolution),
    ("instrument_id", .str instrument)] ++
  (if v = 0 then [("detector_elevation", .radians (env.f64 e.elevation.toNat))] ++
      oldTable env e o
    else [("detector_elevation", num env e.elevation), ("slow_peaking_time", num env e.slow), ("fast_peaking_time", num env e.fast),
      ("optical_working_distance", num env e.optical), ("working_distance", num env e.distance), ("detector_surface_area", num env e.area),
      ("detector_distance", num env e.detector), ("sample_tilt_angle", num env e.tilt)]) ++
  (if 3 ≤ v then [("ccorrection", num env e.correction), ("detector_type", .str (detectorTypes.getD e.detectorType.toNat "Unknown").toList),
      ("spectrum_correction", .str (if e.spectrumCorrection = 1 then "linearized" else if e.spectrumCorrection = 2 then "raw" else "unknown").toList)]
    else [("ccorrection", .num 0), ("detector_type", .str "FastSDD_C2".toList), ("spectrum_correction", .str "unknown".toList)])

/-- The live and the real time. -/
def timeTable (env : Env) (e : Eds) : List (String × J) := [("live_time", num env e.live), ("real_time", num env e.real)]

/-- What a file stores about the identification of elements. -/
def commonTable (env : Env) (v : Nat) (c : Common) : List (String × J) :=
  [("offset", num env c.offset), ("dispersion", num env c.dispersion),
    ("included_elements", .list (c.included.map fun z => .str (symbol z))), ("excluded_elements", .list (c.excluded.map fun z => .str (symbol z))),
    ("background_fit_bins", .list (c.bins.map fun i => .num (i : Int))), ("selected_oxides", .list (c.oxides.map fun o => .str (oxideName o))),
    ("auto_id", .bool c.auto), ("order_nr", .num c.order),
    ("family_overrides", .list (c.families.map fun f => .list [.str (symbol f.1), .str (family f.2)])),
    ("drift_correction", .str (if v < 2 then "unknown" else if c.drift = 1 then "on" else if c.drift = 2 then "off" else "unknown").toList),
    ("ignored_elements", if v < 4 then .list [] else .list (c.ignored.map fun z => .str (symbol z)))]

/-- A point. -/
def pointAt (env : Env) (x y : UInt64) : J := .dict [("x".toList, num env x), ("y".toList, num env y)]

/-- The time of each of `n` spectra. -/
def timesOf (env : Env) (n : Nat) (t : Times) : List J := (List.range n).filterMap fun i => (t.at i).map (num env)

/-- The metadata that is expected for an analysis. -/
def tableOf (env : Env) (v : Nat) (o : Option (ℚ × ℚ)) : Analysis → Text → Text → List (String × J)
  | .msa c, t, _ => edsTable env v c.eds t o ++ timeTable env c.eds ++ commonTable env v c
  | .spot c x y, t, _ => edsTable env v c.eds t o ++ timeTable env c.eds ++ commonTable env v c ++ [("position", pointAt env x y)]
  | .line c l, _, t => edsTable env v l.eds t o ++ timeTable env c.eds ++
      [("begin", pointAt env l.x1 l.y1), ("end", pointAt env l.x2 l.y2), ("offset", num env l.offset), ("dispersion", num env l.dispersion),
        ("real_time_values", .list (timesOf env l.rows.length l.real)), ("live_time_values", .list (timesOf env l.rows.length l.live)),
        ("high_accuracy_quantification", .bool l.accurate)]
  | .map c m, _, t => edsTable env v m.eds t o ++ timeTable env c.eds ++
      [("real_time_values", .list ((List.range m.rows.length).map fun y => .list ((List.range m.width).filterMap fun x => (m.real.at (y * m.width + x)).map (num env)))),
        ("live_time_values", .list ((List.range m.rows.length).map fun y => .list ((List.range m.width).filterMap fun x => (m.live.at (y * m.width + x)).map (num env))))]
  | .difference c _ _, t, _ => edsTable env v c.eds t o ++ timeTable env c.eds ++ commonTable env v c
  | .region c l u r b, t, _ => edsTable env v c.eds t o ++ timeTable env c.eds ++ commonTable env v c ++
      [("rectangle", .dict [("left".toList, num env l), ("top".toList, num env u), ("right".toList, num env r), ("bottom".toList, num env b)])]
  | .constructive _ _ _, _, _ => []

/-- The common part of an analysis. -/
def commonOf : Analysis → Common
  | .msa c | .spot c _ _ | .line c _ | .map c _ | .difference c _ _ | .region c _ _ _ _ | .constructive c _ _ => c

/-- The metadata of the spectra of a line scan or map. -/
def innerOf : Analysis → Eds
  | .line _ l => l.eds
  | .map _ m => m.eds
  | a => (commonOf a).eds

/-- A value of the XML. -/
def leafVal (x : Elem) : J := match text x with
  | none => .none
  | some t => .str t

/-- The text and the attributes of an element without children are found. -/
structure LeafShown (p : List String) (x : Elem) (j : J) : Prop where
  plain : attrs x = [] → look p j = some (leafVal x)
  value : attrs x ≠ [] → "value".toList ∉ (attrs x).map Prod.fst → look (p ++ ["value"]) j = some (leafVal x)
  attr : ((attrs x).map Prod.fst).Nodup → ∀ n u, (String.toList n, u) ∈ attrs x → look (p ++ [n]) j = some (.str u)

/-- Where the size of a picture is added. -/
def fieldAt : List String := ["acquisition", "scan", "fieldSize"]

/-- The metadata of a picture is found in that of a signal, as far as the reader adds nothing to it. -/
def Keeps (e : Elem) (j : J) : Prop :=
  ∀ p x, At p e x → children x = [] → Apart p fieldAt → Apart p edsAt → LeafShown p x j

/-- The metadata of a picture, besides its acquisition. -/
def KeepsRest (e : Elem) (j : J) : Prop :=
  ∀ p x, At p e x → children x = [] → p.head? ≠ some "acquisition" → p ≠ [] → LeafShown p x j

/-- Metadata of the signal of a picture. -/
def PictureMetadata (env : Env) (t : Tiff) (s : Sig) : Prop :=
  (t.xml = none → s.original = .dict []) ∧
  ∀ e, t.xml = some e → (∀ p x, At p e x → children x = [] → Apart p fieldAt → LeafShown p x s.original) ∧
    ∀ h w d, Frame env e h w d → look fieldAt s.original = some (.num (max (h * t.rows) (w * t.cols)))

/-- Does a cut-out have metadata? -/
def plainCutout (env : Env) (c : Common) : Prop := c.cutout = [] ∨ ∃ t, env.tiff c.cutout = .ok t ∧ t.xml = none

/-- Metadata of the signal of an analysis: that of the spectrum and that of the picture; an MSA analysis has the metadata of its cut-out. -/
def AnalysisMetadata (env : Env) (v : Nat) (n : Seen) (a : Analysis) (s : Sig) : Prop :=
  (∀ i j, env.utf8 (commonOf a).eds.instrument = .ok i → env.utf8 (innerOf a).instrument = .ok j →
    ∀ kx ∈ tableOf env v n.old a i j, look (edsAt ++ [kx.1]) s.original = some kx.2) ∧
  match a with
  | .msa c =>
    (∀ t e, c.cutout ≠ [] → env.tiff c.cutout = .ok t → t.xml = some e → Keeps e s.original) ∧
    (plainCutout env c → (n.tiff.xml = none → s.date = none) ∧
      ∀ e h w d, n.tiff.xml = some e → Frame env e h w d → KeepsRest e s.original ∧ s.date = d)
  | _ => ∀ e h w d, n.tiff.xml = some e → Frame env e h w d → Keeps e s.original ∧ s.date = d ∧
      look fieldAt s.original = some (.num (max (h * n.tiff.rows) (w * n.tiff.cols)))

/-- The signals of a picture with its analyses. -/
def ShowsImage (env : Env) (i : Image) (n : Seen) (part : List Sig) : Prop :=
  ∃ s rest, part = s :: rest ∧ ShowsPicture env n.tiff n.label s ∧
    List.Forall₂ (ShowsAnalysis env n.tiff n.label) (i.analyses.filter fun a => !isConstructive a) rest

/-- The metadata of these signals. -/
def ImageMetadata (env : Env) (v : Nat) (i : Image) (n : Seen) (part : List Sig) : Prop :=
  ∃ s rest, part = s :: rest ∧ PictureMetadata env n.tiff s ∧
    List.Forall₂ (AnalysisMetadata env v n) (i.analyses.filter fun a => !isConstructive a) rest

/-- A file with a project that can be read. -/
structure FileOk (env : Env) (v : Nat) (raw : List UInt8) (p : Project) (ns : List Seen) : Prop where
  version : v ≤ 4
  bzip2 : IsBzip2 raw
  content : ∃ rest, env.bz2 raw = project v p ++ rest
  count : Fits p.images
  images : List.Forall₂ (ImageOk env v) p.images ns
  free : 1 ≤ v → Fits p.analyses ∧ Fits p.constructive ∧ ∀ a ∈ p.analyses ++ p.constructive, FreeOk env a

end Verif.Spec.Phenom
