import Verif.Model.QuantumDetector
import Verif.Py.Assoc
import Verif.Py.Bytes
import Verif.Py.IntLit
import Mathlib.Data.Rat.Defs
/-!
Model of reading `.mib` files from disk: `MIBProperties.parse_file`, `parse_hdr_file` and `file_reader` of
`rsciio/quantumdetector/_api.py`. Which frames are read is in `QuantumDetector`.

Headers are ASCII. External code as parameters: `float` of a text, and NumPy's time of a timestamp as a whole
number of nanoseconds. Means of times are exact. `np.dtype(None)` is `float64`; pixels are their unsigned value
(for `float64` the bit pattern). A header size that is not known is a `TypeError` of NumPy. Logging, printing,
memory mapping and chunks are left out.
-/
namespace Verif.MerlinFile
open Verif.QuantumDetector

abbrev Bytes := List UInt8

/-! ### Headers -/

/-- `bytes.decode()`. -/
def decode (b : Bytes) : Py Text :=
  if b.all (· < 128) then .ok (b.map fun x => Char.ofNat x.toNat) else .error .unicodeError

/-- `head[i]`. -/
def field (head : List Text) (i : Nat) : Py Text :=
  match head[i]? with
  | some t => .ok t
  | none => .error .indexError

/-- `head[-i]`. -/
def fieldBack (head : List Text) (i : Nat) : Py Text :=
  match head.reverse[i - 1]? with
  | some t => .ok t
  | none => .error .indexError

/-- The kind of pixels: unsigned integers of some bytes, or `float64` if the kind is not known. -/
inductive Kind | uint (bytes : Nat) | float64
  deriving DecidableEq

/-- Bytes of a pixel. -/
def Kind.size : Kind → Nat
  | .uint n => n
  | .float64 => 8

/-- `MIBProperties` after `parse_file`. -/
structure Props where
  rows : Int
  cols : Int
  raw : Bool
  geometry : Text
  headSize : Option Nat
  kind : Kind
  exposure : ℚ                    -- in ms
  timestamp : Text
  deriving DecidableEq

/-- `text.endswith(suffix)`. -/
def endsWith (suffix t : Text) : Bool := decide (suffix <:+ t)

/-- Lines 155-158. -/
def geometryOf (t : Text) : Text :=
  if endsWith "Nx1".toList t then "Nx1".toList else if endsWith "2x2".toList t then "2x2".toList else []

/-- Lines 161-170. -/
def headSizeOf (t : Text) : Option Nat :=
  if t = "00384".toList then some 384 else if t = "00768".toList then some 768 else none

/-- Lines 173-184. -/
def kindOf (raw : Bool) (t : Text) : Kind :=
  if raw then .float64
  else if t = "U08".toList then .uint 1
  else if t = "U16".toList then .uint 2
  else if t = "U32".toList then .uint 4
  else .float64

/-- `_parse_exposure_to_ms`, lines 371-373. -/
def exposureOf (float : Text → Option ℚ) (t : Text) : Py ℚ :=
  match float (t.take (t.length - 2)) with
  | some q => .ok (q / 1000000)
  | none => .error .valueError

/-- Lines 130-135: the first header; every error is a `RuntimeError`. -/
def firstHead (f : Bytes) : Py (List Text) :=
  match decode (f.take 384) with
  | .ok t => .ok (splitChar ',' t)
  | .error _ => .error .runtimeError

/-- Lines 165-168: the header of four chips is read again. -/
def fullHead (f : Bytes) (head : List Text) (size : Text) : Py (List Text) :=
  if size = "00768".toList then do
    let t ← decode (f.take 768)
    return splitChar ',' t
  else .ok head

/-- `parse_file`, lines 126-187. -/
def parseFile (float : Text → Option ℚ) (f : Bytes) : Py Props := do
  let head ← firstHead f
  let rows ← intLit (← field head 5)
  let cols ← intLit (← field head 4)
  let dtype ← field head 6
  let geometry ← field head 7
  let size ← field head 2
  let head ← fullHead f head size
  let dtype' ← field head 6
  let exposure ← exposureOf float (← fieldBack head 3)
  let timestamp ← fieldBack head 4
  let raw := decide (dtype = "R64".toList)
  return ⟨rows, cols, raw, geometryOf geometry, headSizeOf size, kindOf raw dtype', exposure, timestamp⟩

/-! ### The other file -/

/-- `filename.replace(".mib", ".hdr")`, line 533. -/
def hdrName : Text → Text
  | '.' :: 'm' :: 'i' :: 'b' :: r => '.' :: 'h' :: 'd' :: 'r' :: hdrName r
  | c :: r => c :: hdrName r
  | [] => []

/-- `line.split("\t", 1)` as two values. -/
def splitTab (line : Text) : Py (Text × Text) :=
  if '\t' ∈ line then .ok (line.takeWhile (· ≠ '\t'), (line.dropWhile (· ≠ '\t')).drop 1)
  else .error .valueError

/-- Lines 361-366, for one line. -/
def hdrLine (line : Text) (d : List (Text × Text)) : Py (List (Text × Text)) :=
  if "HDR".toList.isPrefixOf line || "End\t".toList.isPrefixOf line then .ok d
  else do
    let (k, v) ← splitTab line
    return setKw (rstripBy (· = ':') k) (rstripBy (· = '\n') v) d

/-- `parse_hdr_file`, lines 357-368. -/
def parseHdr (text : Text) : Py (List (Text × Text)) :=
  (fileLines text).foldlM (fun d l => hdrLine l d) []

/-! ### The scan -/

/-- `np.diff`. -/
def diffs : List Int → List Int
  | a :: b :: l => (b - a) :: diffs (b :: l)
  | _ => []

/-- Lines 566-571: the first difference above the mean. -/
def guess (times : List Int) : Option Nat :=
  let d := diffs times
  (d.findIdx? fun x => decide (d.sum < x * d.length)).map (· + 1)

/-- Lines 552-571: frames in a line. -/
def lineLength (times : List Int) : Int :=
  match guess times with
  | some n => n
  | none => 1

/-- Entries of the other file, lines 545-546. -/
def hdrInt (hdr : List (Text × Text)) (k : String) : Py Int :=
  match getKw k.toList hdr with
  | some t => intLit t
  | none => .error .keyError

/-- Lines 541-550: frames in a trigger and in all. `headers`: the headers of all frames. -/
def frameNumbers (hdr : Option (List (Text × Text))) (headers : Py (List Bytes)) : Py (Int × Int) :=
  match hdr with
  | some h => do
    let p ← hdrInt h "Frames per Trigger (Number)"
    let n ← hdrInt h "Frames in Acquisition (Number)"
    return (p, n)
  | none => do
    let hs ← headers
    return (1, hs.length)

/-- Lines 552-571: the timestamps are used if there is one frame in a trigger. -/
def lineOf (perTrigger : Int) (times : Py (List Int)) : Py Int :=
  if perTrigger = 1 then do
    let t ← times
    return lineLength t
  else .ok perTrigger

/-- Lines 573-579. -/
def navOfLine (frames line : Int) : Py (Option (List Int)) :=
  if frames = 0 then .ok none
  else if line = 0 then .error .zeroDivision
  else .ok (some [line, frames.fdiv line])

/-- `parse_timestamps(headers)`, lines 466-472, and the conversion of line 562: the first 10000 headers only. -/
def timesOf (stamp : Text → Py Int) (headers : List Bytes) : Py (List Int) :=
  (headers.take 10000).mapM fun b => do
    let t ← decode b
    stamp (← fieldBack (splitChar ',' t) 4)

/-- Lines 541-579: the navigation shape if none is given. -/
def guessNav (stamp : Text → Py Int) (hdr : Option (List (Text × Text))) (headers : Py (List Bytes)) :
    Py (Option (List Int)) := do
  let (perTrigger, frames) ← frameNumbers hdr headers
  let line ← lineOf perTrigger (do timesOf stamp (← headers))
  navOfLine frames line

/-! ### Data -/

/-- An array in C order. -/
structure Arr where
  shape : List Nat
  flat : List Nat
  deriving DecidableEq

/-- The pixels of a record. -/
def pixels (head rows cols item : Nat) (rec : Bytes) : List Nat :=
  (List.range (rows * cols)).map fun k => beVal ((rec.drop (head + k * item)).take item)

/-- Lines 244-327 without the navigation shape: the frames with their pixels, squeezed. -/
def load (p : Props) (nav : Option (List Int)) (first last : Option Int) (f : Bytes) : Py Arr :=
  match p.headSize with
  | none => .error .typeError
  | some head =>
    if p.rows < 0 ∨ p.cols < 0 then .error .valueError
    else
      let rows := p.rows.toNat
      let cols := p.cols.toNat
      let recSize := head + rows * cols * p.kind.size
      let n := f.length / recSize
      let r := frameRange n first last
      if p.raw then .error .notImplemented
      else do
        let recs ← loadFile recSize nav first last f
        let shape := (navShape n nav r.1 r.2).map Int.toNat ++ [rows, cols]
        return ⟨shape.filter (· ≠ 1), (recs.map (pixels head rows cols p.kind.size)).flatten⟩

/-- The place from which `np.flip(data, axis=-2)` takes the value at `k`, for the last two sizes. -/
def flipPlace (a b k : Nat) : Nat := (k / (a * b)) * (a * b) + (a - 1 - (k / b) % a) * b + k % b

/-- `np.flip(data, axis=-2)`, line 594. -/
def flipRows (x : Arr) : Py Arr :=
  match x.shape.reverse with
  | b :: a :: _ => .ok ⟨x.shape, (List.range x.flat.length).map fun k => x.flat.getD (flipPlace a b k) 0⟩
  | _ => .error .valueError

/-- An axis, lines 600-611: size and whether it is for navigation; scale 1, offset 0, no name and units. -/
def axesOf (shape : List Nat) : List (Nat × Bool) :=
  shape.zip (List.replicate (shape.length - 2) true ++ [false, false])

/-- The metadata, lines 613-632. -/
structure Meta where
  date : Text
  time : Text
  zone : Option Text
  dwell : ℚ                        -- in s
  filename : Text
  deriving DecidableEq

/-- `timestamp.split("T")` as two values. -/
def splitT (t : Text) : Py (Text × Text) :=
  match splitChar 'T' t with
  | [a, b] => .ok (a, b)
  | _ => .error .valueError

/-- Lines 613-632. -/
def metaOf (p : Props) (filename : Text) : Py Meta := do
  let (date, time) ← splitT p.timestamp
  let utc := decide ('Z' ∈ time)
  return ⟨date, if utc then stripBy (· = 'Z') time else time, if utc then some "UTC".toList else none,
    p.exposure * (1 / 1000), (splitChar '/' filename).getLastD []⟩

/-- The headers of all frames, lines 245-316 with no navigation shape. -/
def headersOf (p : Props) (f : Bytes) : Py (List Bytes) :=
  match p.headSize with
  | none => .error .typeError
  | some head =>
    if p.rows < 0 ∨ p.cols < 0 then .error .valueError
    else if p.raw then .error .notImplemented
    else do
      let recs ← loadFile (head + p.rows.toNat * p.cols.toNat * p.kind.size) none none none f
      return recs.map (·.take head)

/-- The files: text of a file, if it exists. -/
abbrev Files := Text → Option (Py Text)

/-- Lines 537-539: the other file, if it exists. -/
def readHdr (files : Files) (filename : Text) : Py (Option (List (Text × Text))) :=
  match files (hdrName filename) with
  | none => .ok none
  | some t => do
    let t ← t
    return some (← parseHdr t)

/-- Lines 541-579: the given navigation shape, or the guessed one. -/
def navOf (stamp : Text → Py Int) (nav : Option (List Int)) (hdr : Option (List (Text × Text))) (p : Props)
    (f : Bytes) : Py (Option (List Int)) :=
  match nav with
  | some s => .ok (some s)
  | none => guessNav stamp hdr (headersOf p f)

/-- `file_reader`, lines 531-645. -/
def fileReader (float : Text → Option ℚ) (stamp : Text → Py Int) (files : Files) (filename : Text)
    (nav : Option (List Int)) (first last : Option Int) (f : Bytes) :
    Py (Arr × List (Nat × Bool) × Meta × Option (List (Text × Text))) := do
  let p ← parseFile float f
  let hdr ← readHdr files filename
  let nav ← navOf stamp nav hdr p f
  let data ← load p nav first last f
  let data ← flipRows data
  let m ← metaOf p filename
  return (data, axesOf data.shape, m, hdr)

end Verif.MerlinFile
