import Verif.Model.Tofwerk
import Verif.Py.Dec
import Verif.Py.Float32
/-!
Model of the axes, shapes and metadata that `rsciio/tofwerk/_api.py` makes of a file, and of the numbers it gives to the
reconstruction (`_reconstruction.py`).

Of the arrays only the shapes are modelled here (their values in `Verif.Model.Tofwerk`). The attributes of the file are numbers and texts,
absent or not; parsing of dates (`datetime.fromisoformat`, `strptime`) is a parameter. Quotients are exact. Of the digits of
`\d` only those of ASCII; the columns of the peaks exist in the data; no NaN.
-/
namespace Verif.TofwerkFile
open Verif.Tofwerk (Peak Sig Content nominalTable additionalTable firstValid depthRange dominant starts produced slice)

/-! ### Axes -/

/-- What the axes depend on. Images are the shapes in the order of their names. -/
structure File where
  writes : Option Nat
  segments : Option Nat
  viewField : Option Rat
  peakData : Option (Nat × Nat × Nat × Nat)
  events : Option (Nat × Nat × Nat)
  table : Option (List Peak)
  massAxis : List Rat
  sumLength : Nat
  images : List (Nat × Nat)

/-- Line 928. -/
def nWrites (f : File) : Nat := f.writes.getD 1

/-- Line 929. -/
def nSegments (f : File) : Nat := f.segments.getD 1

/-- Lines 930-936. -/
def width (f : File) : Nat :=
  match f.peakData with
  | some d => d.2.2.1
  | none => match f.events with
    | some d => d.2.2
    | none => nSegments f

/-- `_parse_pixel_size`, lines 210-230; a division by zero is caught there. -/
def pixelSize (f : File) (nx : Nat) : Option Rat :=
  if nx = 0 then none else f.viewField.map fun v => v * 1000 / nx

/-- Offset, scale and units of an axis. -/
structure Cal where
  offset : Rat
  scale : Rat
  units : Text
  deriving DecidableEq

inductive Ax
  | line (name : Text) (size : Nat) (cal : Option Cal) (navigate : Bool)
  | masses (l : List Rat)
  deriving DecidableEq

def Ax.size : Ax → Nat
  | .line _ n _ _ => n
  | .masses l => l.length

/-- The first axis, lines 247-254. -/
def depthAxis (n : Nat) : Ax := .line "depth".toList n (some ⟨0, 1, "slice".toList⟩) true

/-- An axis of the plane, lines 255-264. -/
def planeAxis (name : String) (n : Nat) (px : Option Rat) (navigate : Bool) : Ax :=
  .line name.toList n (px.map fun p => ⟨0, p, "µm".toList⟩) navigate

/-- `_build_axes_preprocessed`, lines 237-281. -/
def axesPeaks (nw ns nx : Nat) (m : List Rat) (px : Option Rat) : List Ax :=
  [depthAxis nw, planeAxis "y" ns px true, planeAxis "x" nx px true, .masses m]

/-- `_build_axes_event_list`, lines 297-333. -/
def axesEvents (nw ns nx : Nat) (px : Option Rat) : List Ax :=
  [depthAxis nw, planeAxis "y" ns px true, planeAxis "x" nx px true]

/-- `_build_axes_fib_images`, lines 336-372. -/
def axesImages (n ny nx : Nat) (px : Option Rat) : List Ax :=
  [depthAxis n, planeAxis "y" ny px false, planeAxis "x" nx px false]

/-! ### Shapes -/

/-- The number of items of `a[start:stop]`. -/
def clip (n a b : Nat) : Nat := min b n - a

/-- `target[...] = source`: a dimension has to be the same or of length one. -/
def fits (source target : Nat) : Bool := decide (source = target) || decide (source = 1)

/-- Lines 1250-1280: the arrays that are read batch by batch into an empty array. -/
def fillBatches (w s a loaded segs step : Nat) : Bool :=
  (starts loaded step).all fun w0 =>
    fits (clip w (a + w0) (a + min (w0 + step) loaded)) (min (w0 + step) loaded - w0) && fits s segs

/-- The shape of nominal peak data, lines 1139-1180. -/
def nominalShape (f : File) (a b n : Nat) : Py (List Nat) :=
  match f.peakData with
  | some d => .ok [clip d.1 a b, d.2.1, d.2.2.1, n]
  | none => match f.events with
    | some d => .ok [clip d.1 a b, d.2.1, d.2.2, n]
    | none => .error .keyError

/-- The shape of additional peak data, lines 1228-1318. -/
def additionalShape (f : File) (lazy : Bool) (mz : Option (Rat × Rat)) (step a b n : Nat) : Py (List Nat) :=
  match f.peakData with
  | some d =>
    if lazy || mz.isSome then .ok [clip d.1 a b, d.2.1, d.2.2.1, n]
    else if step = 0 then .error .valueError
    else if fillBatches d.1 d.2.1 a (b - a) (nSegments f) step then .ok [b - a, nSegments f, width f, n]
    else .error .valueError
  | none => match f.events with
    | some d => .ok [clip d.1 a b, d.2.1, d.2.2, n]
    | none => .error .keyError

/-- The shape of the event list, lines 1332-1371. -/
def eventsShape (f : File) (lazy : Bool) (a b : Nat) : Py (List Nat) :=
  match f.events with
  | none => .error .keyError
  | some d =>
    if lazy then .ok [clip d.1 a b, d.2.1, d.2.2]
    else if a = b then .ok [0, nSegments f, width f]
    else if d.1 < b then .error .indexError
    else if fits d.2.1 (nSegments f) && fits d.2.2 (width f) then .ok [b - a, nSegments f, width f]
    else .error .valueError

/-! ### Signals -/

structure Signal where
  kind : Sig
  axes : List Ax
  shape : List Nat
  deriving DecidableEq

/-- Lines 1082, 1133, 1224, 1377, 1421: what is added to the name of the file for the title. -/
def titleOf (stem : Text) : Sig → Text
  | .sum => stem ++ " (sum spectrum)".toList
  | .nominal => stem ++ " (nominal peak data)".toList
  | .additional => stem ++ " (additional peak data)".toList
  | .events => stem ++ " (event list)".toList
  | .images => stem ++ " (FIB SE images)".toList

/-- Lines 478, 1135, 1226, 1378, 1422: the type of the signal. -/
def typeOf : Sig → Text
  | .events => []
  | .images => []
  | _ => "FIB-SIMS".toList

/-- Lines 1063-1094. -/
def sumSignal (f : File) : Signal :=
  ⟨.sum, [.masses (f.massAxis.drop (firstValid f.massAxis))], [f.sumLength - firstValid f.massAxis]⟩

/-- Lines 1111-1187. -/
def nominalSignal (f : File) (a b : Nat) (mz : Option (Rat × Rat)) : Py Signal :=
  let m := (nominalTable (f.table.getD []) mz).map Peak.mass
  match nominalShape f a b m.length with
  | .ok s => .ok ⟨.nominal, axesPeaks (b - a) (nSegments f) (width f) m (pixelSize f (width f)), s⟩
  | .error e => .error e

/-- Lines 1194-1325; `σ` is `np.argsort` of the masses. -/
def additionalSignal (f : File) (σ : List Nat) (lazy : Bool) (step a b : Nat) (mz : Option (Rat × Rat)) : Py Signal :=
  match additionalTable σ (f.table.getD []) mz with
  | .error e => .error e
  | .ok t => match additionalShape f lazy mz step a b t.length with
    | .ok s => .ok ⟨.additional, axesPeaks (b - a) (nSegments f) (width f) (t.map Peak.mass) (pixelSize f (width f)), s⟩
    | .error e => .error e

/-- Lines 1330-1387. -/
def eventsSignal (f : File) (lazy : Bool) (a b : Nat) : Py Signal :=
  match eventsShape f lazy a b with
  | .ok s => .ok ⟨.events, axesEvents (b - a) (nSegments f) (width f) (pixelSize f (width f)), s⟩
  | .error e => .error e

/-- Lines 1392-1449: `np.stack` of no images is an error. -/
def imagesSignal (f : File) (a b : Nat) : Py Signal :=
  match dominant f.images f.images with
  | none => .error .valueError
  | some d =>
    let n := (slice (f.images.filter (· = d)) a b).length
    if n = 0 then .error .valueError
    else .ok ⟨.images, axesImages n d.1 d.2 (pixelSize f d.2), [n, d.1, d.2]⟩

def signalOf (f : File) (σ : List Nat) (lazy : Bool) (step a b : Nat) (mz : Option (Rat × Rat)) : Sig → Py Signal
  | .sum => .ok (sumSignal f)
  | .nominal => nominalSignal f a b mz
  | .additional => additionalSignal f σ lazy step a b mz
  | .events => eventsSignal f lazy a b
  | .images => imagesSignal f a b

def signalsOf (f : File) (σ : List Nat) (lazy : Bool) (step a b : Nat) (mz : Option (Rat × Rat)) : List Sig → Py (List Signal)
  | [] => .ok []
  | k :: l => match signalOf f σ lazy step a b mz k with
    | .error e => .error e
    | .ok s => match signalsOf f σ lazy step a b mz l with
      | .error e => .error e
      | .ok r => .ok (s :: r)

/-- Lines 956-961. -/
def mzOk : Option (Rat × Rat) → Bool
  | none => true
  | some r => decide (r.1 < r.2)

def contentOf (f : File) : Content := ⟨f.peakData.isSome, f.events.isSome, f.table, f.images.length⟩

/-- `file_reader`, lines 920-1455. -/
def reader (f : File) (σ : List Nat) (lazy : Bool) (step : Nat) (depth : Option (Int × Int)) (mz : Option (Rat × Rat))
    (want : Option (List Sig)) : Py (List Signal) := do
  let r ← depthRange (nWrites f) depth
  if mzOk mz then do
    let kinds ← produced (contentOf f) lazy mz want
    signalsOf f σ lazy step r.1 r.2 mz kinds
  else .error .valueError

/-! ### Date and time -/

structure Moment where
  year : Nat
  month : Nat
  day : Nat
  hour : Nat
  minute : Nat
  second : Nat
  /-- Seconds to add to UTC. -/
  offset : Option Int

def pad2 (n : Nat) : Text := if n < 10 then '0' :: decChars n else decChars n

/-- The year of `date.isoformat`: four digits. -/
def pad4 (n : Nat) : Text := List.replicate (4 - (decChars n).length) '0' ++ decChars n

/-- `dt.date().isoformat()`, line 187. -/
def dateText (m : Moment) : Text := pad4 m.year ++ '-' :: pad2 m.month ++ '-' :: pad2 m.day

/-- `dt.strftime("%H:%M:%S")`, line 188. -/
def timeText (m : Moment) : Text := pad2 m.hour ++ ':' :: pad2 m.minute ++ ':' :: pad2 m.second

/-- Lines 189-194. -/
def zoneText : Option Int → Text
  | none => []
  | some s => (if 0 ≤ s then '+' else '-') :: pad2 (s.natAbs / 60 / 60) ++ ':' :: pad2 (s.natAbs / 60 % 60)

/-- Parsing of dates: ISO 8601, and `DD.MM.YYYY HH:MM:SS`. -/
structure Parsers where
  iso : Text → Option Moment
  dotted : Text → Option Moment

/-- `_parse_creation_time`, lines 170-207. `log` is the time of the first entry of the log, `attr` the attribute of the file. -/
def creationTime (P : Parsers) (log attr : Option Text) : Text × Text × Text :=
  match log.bind P.iso with
  | some m => (dateText m, timeText m, zoneText m.offset)
  | none => match P.dotted (attr.getD []) with
    | some m => (dateText m, timeText m, [])
    | none => ([], [], [])

/-! ### Numbers of the metadata -/

def minOf : List Rat → Rat
  | [] => 0
  | [a] => a
  | a :: l => min a (minOf l)

def maxOf : List Rat → Rat
  | [] => 0
  | [a] => a
  | a :: l => max a (maxOf l)

/-- Lines 413-423: the range of masses; [0, 0] if there is none. -/
def massRange (f : File) : Rat × Rat :=
  match f.peakData with
  | some _ => match f.table with
    | some t => (minOf (t.map Peak.mass), maxOf (t.map Peak.mass))
    | none => (0, 0)
  | none => (minOf (f.massAxis.filter (0 < ·)), maxOf (f.massAxis.filter (0 < ·)))

/-- Lines 397-398: the pixel size of the metadata. -/
def metaPixel (f : File) : Option Rat := pixelSize f (nSegments f)

/-! ### Reconstruction -/

/-- The digit of an entry `Ch\dRecord=(\d)` at the beginning of a text, and the text behind. -/
def entryAt : Text → Option (Nat × Text)
  | 'C' :: 'h' :: c :: 'R' :: 'e' :: 'c' :: 'o' :: 'r' :: 'd' :: '=' :: v :: rest =>
    if isDigit c && isDigit v then some (v.toNat - 48, rest) else none
  | _ => none

/-- `re.findall`; `fuel` is the length of the text. -/
def findEntries : Nat → Text → List Nat
  | 0, _ => []
  | fuel + 1, s => match entryAt s with
    | some (v, rest) => v :: findEntries fuel rest
    | none => match s with
      | [] => []
      | _ :: t => findEntries fuel t

/-- `count_active_channels`, `_reconstruction.py` lines 80-117. -/
def activeChannels (ini : Text) : Nat := max (findEntries ini.length ini).sum 1

/-- Lines 653-659: the ratio of sample interval and clock period. -/
def clockRatio (clock interval : Option Rat) : Int :=
  match clock with
  | none => 1
  | some c => if c = 0 then 1 else roundEven (interval.getD 1 / c)

/-- Lines 661-664. -/
def normalization (waveforms : Option Nat) (ini : Option Text) : Nat := waveforms.getD 1 * activeChannels (ini.getD [])

end Verif.TofwerkFile
