import Verif.Py.Text
import Verif.Py.Dec
import Verif.Py.Bytes
import Verif.Py.Float32
/-!
Model of `rsciio/quadstar/_api.py`: `.sac` files (scan analog) and `.sbc` files (scan bargraph) as bytes.

Simplifications: arithmetic of 64-bit floats is exact rational arithmetic; masses are finite single-precision numbers (`f32Dec`);
intensities are bit patterns of single-precision numbers (with infinities and NaN). `10.0**e` compared with an array of single-precision
numbers is the single-precision number next to `10^e` (NumPy 2: an infinity from `10^39` on). The loop over cycles and traces collects rows
in dictionaries; here they are collected in lists. `original_metadata` is left out except for the values from which the rest is made.
-/
namespace Verif.Quadstar

abbrev Bytes := List UInt8

/-- Bytes `o` to `o + n`. -/
def chunk (f : Bytes) (o n : Nat) : Bytes := (f.drop o).take n

/-- Position in a buffer for `np.frombuffer(buf, offset=o, count=c)` with items of `w` bytes; negative counts
stand for all items (the number of items is the second result). -/
def frombuffer (f : Bytes) (o : Int) (count : Int) (w : Nat) : Py (Nat × Nat) :=
  if o < 0 ∨ (f.length : Int) < o then .error .valueError
  else if count < 0 then
    if (f.length - o.toNat) % w = 0 then .ok (o.toNat, (f.length - o.toNat) / w) else .error .valueError
  else if f.length - o.toNat < count.toNat * w then .error .valueError
  else .ok (o.toNat, count.toNat)

/-- `struct.unpack_from(fmt, buf, o)` for a number of `w` bytes: negative offsets count from the end. -/
def unpackFrom (f : Bytes) (o : Int) (w : Nat) : Py Nat :=
  let p := if o < 0 then o + f.length else o
  if p < 0 ∨ (f.length : Int) < p + w then .error .structError else .ok (leVal (chunk f p.toNat w))

/-- A signed field of a record. -/
def signedAt (f : Bytes) (o w : Nat) : Int := toSigned w (leVal (chunk f o w))

/-- An unsigned field of a record. -/
def unsignedAt (f : Bytes) (o w : Nat) : Nat := leVal (chunk f o w)

/-- A field of type `S`: null bytes at the end are lost. -/
def textAt (f : Bytes) (o w : Nat) : Bytes := ((chunk f o w).reverse.dropWhile (· = 0)).reverse

/-- `_general_header_dtype`, lines 61-78. -/
structure General where
  second : Nat
  minute : Nat
  hour : Nat
  day : Nat
  month : Nat
  year : Nat
  steps : Int
  traces : Int
  stepLength : Int
  deriving DecidableEq

/-- `_read_general_header`, lines 122-125. -/
def readGeneral (f : Bytes) : Py General := do
  let _ ← frombuffer f 0 1 110
  .ok ⟨unsignedAt f 8 1, unsignedAt f 9 1, unsignedAt f 10 1, unsignedAt f 11 1, unsignedAt f 12 1, unsignedAt f 13 1,
    signedAt f 100 4, signedAt f 104 2, signedAt f 106 4⟩

/-- `_trace_header_dtype`, lines 81-87. -/
structure Trace where
  type : Nat
  info : Int
  data : Int
  deriving DecidableEq

/-- `_read_trace_headers`, lines 128-133. -/
def readTraces (f : Bytes) (n : Int) : Py (List Trace) := do
  let (p, m) ← frombuffer f 200 n 9
  .ok ((List.range m).map fun k => ⟨unsignedAt f (p + 9 * k) 1, signedAt f (p + 9 * k + 1) 4, signedAt f (p + 9 * k + 5) 4⟩)

/-- `_trace_info_dtype`, lines 90-107. `first` is a bit pattern. -/
structure Info where
  yTitle : Bytes
  yUnit : Bytes
  xTitle : Bytes
  xUnit : Bytes
  comment : Bytes
  first : Nat
  width : Nat
  perMass : Nat
  deriving DecidableEq

/-- `_read_trace_info`, lines 136-139. -/
def readInfo (f : Bytes) (pos : Int) : Py Info := do
  let (p, _) ← frombuffer f pos 1 137
  .ok ⟨textAt f (p + 2) 13, textAt f (p + 15) 13, textAt f (p + 29) 13, textAt f (p + 42) 13, textAt f (p + 55) 59,
    unsignedAt f (p + 122) 4, unsignedAt f (p + 126) 2, unsignedAt f (p + 128) 1⟩

/-- `_decode_bytes`, lines 115-119. -/
def decodeBytes (b : Bytes) : Text :=
  stripBy isSpace (rstripBy (· = Char.ofNat 0) (b.map fun x => Char.ofNat x.toNat))

/-- `yvals > fsr`, line 242, for `fsr = 10.0**e`. -/
def above (bits : Nat) (e : Int) : Bool :=
  if 255 * 2 ^ 23 < bits % 2 ^ 31 then false                          -- NaN
  else if bits % 2 ^ 31 = 255 * 2 ^ 23 then bits < 2 ^ 31 && e < 39    -- infinities
  else e < 39 && round32 ((10 : Rat) ^ e) < f32Dec bits

/-- Line 234: `10.0**e` raises for large exponents. -/
def fsrOk (e : Int) : Py Unit := if 308 < e then .error .overflowError else .ok ()

/-- Lines 227-242: the row of a trace in a cycle, none for NaN. -/
def readRow (f : Bytes) (t : Trace) (tsOffset : Int) : Py (Info × List (Option Nat)) := do
  let info ← readInfo f t.info
  let e ← unpackFrom f (t.data + tsOffset + 4) 2
  fsrOk (toSigned 2 e)
  let (p, m) ← frombuffer f (t.data + tsOffset + 6) (info.width * info.perMass : Nat) 4
  .ok (info, (List.range m).map fun k =>
    let v := unsignedAt f (p + 4 * k) 4
    if above v (toSigned 2 e) then none else some v)

/-- Lines 216-221: the time of a cycle. -/
def readTime (f : Bytes) (base baseMs : Nat) (pos tsOffset : Int) : Py Rat := do
  let s ← unpackFrom f (pos - 6 + tsOffset) 4
  let ms ← unpackFrom f (pos - 2 + tsOffset) 2
  .ok (((base : Rat) + s) + ((baseMs : Rat) * (1 / 10) + (ms : Rat) * (1 / 10)) * (1 / 1000))

inductive Cal
  | uniform (offset scale : Rat)
  | points (axis : List Rat)
  deriving DecidableEq

structure Axis where
  name : Text
  units : Text
  cal : Cal
  size : Nat
  navigate : Bool
  index : Nat
  deriving DecidableEq

structure Signal where
  shape : List Nat
  data : List (Option Nat)
  axes : List Axis
  quantity : Text
  notes : Option Text
  date : Option (Text × Text)
  deriving DecidableEq

/-- `np.diff(x).mean()`, lines 294-301, 469-475, with the replacement of steps that are not positive. -/
def timeScale (x : List Rat) : Rat :=
  let d := (List.zipWith (fun a b => b - a) x x.tail).sum / ((x.length - 1 : Nat) : Rat)
  if 1 < x.length then (if 0 < d then d else 1) else 1

/-- Lines 284-303, 460-477: the time axis. -/
def timeAxis (uniform : Bool) (times : List Rat) : Axis :=
  let rel := times.map (· - times.headD 0)
  ⟨"Time".toList, "s".toList, if uniform then .uniform 0 (timeScale rel) else .points rel, times.length, true, 0⟩

/-- Lines 283-311, 459-485: axes and shape. -/
def assemble (uniform : Bool) (times : List Rat) (mass : Nat → Axis) (n : Nat) : List Nat × List Axis :=
  if 1 < times.length then ([times.length, n], [timeAxis uniform times, mass 1]) else ([n], [mass 0])

/-- Lines 255-348: the signal of a trace. -/
def sacSignal (uniform : Bool) (date : Option (Text × Text)) (times : List Rat) (info : Info)
    (rows : List (List (Option Nat))) : Signal :=
  let n := info.width * info.perMass
  let xTitle := decodeBytes info.xTitle
  let xUnit := decodeBytes info.xUnit
  let yTitle := decodeBytes info.yTitle
  let comment := decodeBytes info.comment
  let mass (i : Nat) : Axis := ⟨if xTitle ≠ [] then xTitle else "Mass-to-charge ratio".toList,
    if xUnit ≠ [] then xUnit else "m/z".toList,
    .uniform (f32Dec info.first) (if 0 < n then (info.width : Rat) / n else 1), n, false, i⟩
  let (shape, axes) := assemble uniform times mass n
  ⟨shape, rows.flatten, axes,
    if yTitle ≠ [] then yTitle ++ " (".toList ++ decodeBytes info.yUnit ++ ")".toList else "Intensity".toList,
    if comment ≠ [] then some comment else none, date⟩

/-- `_find_first_data_position`, lines 142-147. -/
def firstData (ts : List Trace) : Option Int := (ts.find? fun t => t.type = 0x11).map (·.data)

/-- Lines 244-256, 350-353: the rows of a trace, and the signals. -/
def gather (uniform : Bool) (date : Option (Text × Text)) (cycles : List (Rat × List (Info × List (Option Nat)))) :
    Py (List Signal) :=
  match cycles.head? with
  | none => .error .valueError
  | some c => .ok (c.2.zipIdx.map fun r =>
      sacSignal uniform date (cycles.map (·.1)) r.1.1 (cycles.map fun c => (c.2[r.2]?.map (·.2)).getD []))

/-- `_read_sac_file`, lines 171-353. -/
def readSac (f : Bytes) (gen : General) (date : Option (Text × Text)) (uniform : Bool) : Py (List Signal) := do
  let traces ← readTraces f gen.traces
  match firstData traces with
  | none => .error .valueError
  | some pos => do
    let base ← unpackFrom f 0xC2 4
    let baseMs ← unpackFrom f 0xC6 2
    let analog := traces.filter fun t => t.type = 0x11
    let cycles ← (List.range gen.steps.toNat).mapM fun (n : Nat) => do
      let time ← readTime f base baseMs pos (n * gen.stepLength)
      let rows ← analog.mapM fun t => readRow f t (n * gen.stepLength)
      pure (time, rows)
    gather uniform date cycles

/-- `_read_sbc_file`, lines 361-521. -/
def readSbc (f : Bytes) (gen : General) (date : Option (Text × Text)) (uniform : Bool) : Py (List Signal) := do
  let width ← unpackFrom f 0xCB 2
  let masses := width + 1
  let size := masses * 8
  let stride := size + 13
  let start : Int := f.length - gen.steps * stride
  if start < 0x100 ∨ (f.length : Int) ≤ start then .error .valueError
  else
    let data := f.drop start.toNat
    let cycles := gen.steps.toNat
    let mass (k : Nat) : Rat := f32Dec (unsignedAt (chunk data 13 size) (8 * k) 4)
    let rows := (List.range cycles).map fun i =>
      (List.range masses).map fun k => some (unsignedAt (chunk data (i * stride + 13) size) (8 * k + 4) 4)
    let times := (List.range cycles).map fun i => ((unsignedAt data (i * stride) 4 : Nat) : Rat)
    let scale := if 1 < masses then (mass (masses - 1) - mass 0) / ((masses - 1 : Nat) : Rat) else 1
    let axis (i : Nat) : Axis := ⟨"Mass-to-charge ratio".toList, "m/z".toList, .uniform (mass 0) scale, masses, false, i⟩
    let (shape, axes) := assemble uniform times axis masses
    .ok [⟨shape, rows.flatten, axes, "Intensity".toList, none, date⟩]

/-- Days of a month (`datetime`). -/
def daysIn (year month : Nat) : Nat :=
  if month = 2 then (if year % 4 = 0 ∧ (year % 100 ≠ 0 ∨ year % 400 = 0) then 29 else 28)
  else if month = 4 ∨ month = 6 ∨ month = 9 ∨ month = 11 then 30 else 31

/-- A number with two digits or more (`%02d`). -/
def pad2 (n : Nat) : Text := if n < 10 then '0' :: decChars n else decChars n

/-- `_build_datetime`, lines 150-163, and the ISO texts of date and time, lines 335-337, 510-512. -/
def buildDate (g : General) : Option (Text × Text) :=
  if 1 ≤ g.month ∧ g.month ≤ 12 ∧ 1 ≤ g.day ∧ g.day ≤ daysIn (1900 + g.year) g.month ∧ g.hour < 24 ∧ g.minute < 60 ∧
      g.second < 60 then
    some (decChars (1900 + g.year) ++ '-' :: pad2 g.month ++ '-' :: pad2 g.day,
      pad2 g.hour ++ ':' :: pad2 g.minute ++ ':' :: pad2 g.second)
  else none

/-- `str(filename).lower().endswith(".sbc")`, line 560, for ASCII names. -/
def isSbc (name : Text) : Bool := (".sbc".toList).isSuffixOf (name.map Char.toLower)

/-- `file_reader`, lines 529-576. -/
def fileReader (name : Text) (f : Bytes) (lazy uniform : Bool) : Py (List Signal) := do
  if lazy then .error .notImplemented
  let gen ← readGeneral f
  if isSbc name then readSbc f gen (buildDate gen) uniform else readSac f gen (buildDate gen) uniform

end Verif.Quadstar
