import Verif.Py.Record
import Verif.Py.Ravel
/-!
Model of `rsciio/tvips/_api.py`.

A recording is a numbered list of files. Frame headers are byte lists of the right length given by
a parameter (time stamps, stage positions etc. and the metadata are in `Model/TvipsMeta`); pixels are bytes. The `auto` scan
shape and the axes are in `Model/TvipsScan`; lazy loading is left out.
-/
namespace Verif.Tvips

/-- The main header, lines 45-60, without the 204 filler bytes: 13 fields of 4 bytes. -/
structure Header where
  size : Nat
  version : Nat
  dimx : Nat
  dimy : Nat
  bits : Nat
  offx : Nat
  offy : Nat
  binx : Nat
  biny : Nat
  pixelsize : Nat
  ht : Nat
  magtotal : Nat
  frameHeaderBytes : Nat
  deriving Repr, DecidableEq

def Header.vals (h : Header) : List Nat :=
  [h.size, h.version, h.dimx, h.dimy, h.bits, h.offx, h.offy, h.binx, h.biny, h.pixelsize, h.ht,
    h.magtotal, h.frameHeaderBytes]

def Header.ofVals : List Nat → Option Header
  | [a, b, c, d, e, f, g, h, i, j, k, l, m] => some ⟨a, b, c, d, e, f, g, h, i, j, k, l, m⟩
  | _ => none

def headerWidths : List Nat := List.replicate 13 4

/-- `main_header.tofile(f)`: 256 bytes. -/
def headerBytes (h : Header) : List UInt8 :=
  encodeRec false headerWidths h.vals ++ List.replicate 204 72

/-- Size of the frame header without extra bytes: 15 fields of 4 bytes, lines 63-80. -/
def frameHeaderSize : Nat := 60

/-- `_get_main_header_from_signal`, lines 108-159, for frames of `dimy × dimx` pixels. -/
def mainHeader (version extra dimx dimy itemsize offx offy pixelsize ht magtotal : Nat) : Header :=
  ⟨256, version, dimx, dimy, itemsize * 8, offx, offy, 1, 1, pixelsize, ht, magtotal,
    frameHeaderSize + extra⟩

/-! ### Writing -/

/-- The frames of one file, lines 614-645: `fh i` is the header of the frame number `i`. -/
def records (fh : Nat → List UInt8) : Nat → List (List UInt8) → List UInt8
  | _, [] => []
  | i, p :: ps => fh i ++ p ++ records fh (i + 1) ps

/-- The loop over files after the first, lines 600-649: `perFile` frames per file. The number of
steps is bounded by the number of frames. -/
def otherFiles (fh : Nat → List UInt8) (perFile : Nat) : Nat → Nat → List (List UInt8) →
    List (List UInt8)
  | 0, _, _ => []
  | fuel + 1, i, ps =>
    if ps = [] then []
    else records fh i (ps.take perFile) ::
      otherFiles fh perFile fuel (i + (ps.take perFile).length) (ps.drop perFile)

/-- The limit used, lines 549-558. -/
def effectiveLimit (limit : Option Nat) (recSize n : Nat) : Nat :=
  let total := 256 + n * recSize
  let m := limit.getD total
  if m < 256 + recSize then 256 + recSize else m

/-- `file_writer`, lines 535-649, for a signal with at least one navigation axis; the files in
order. Without any frame (empty or no navigation axis) `time_increment` is not defined: a
`NameError` (line 637). `recSize` is the size of a frame with its header. -/
def writeFiles (h : Header) (fh : Nat → List UInt8) (limit : Option Nat) (recSize : Nat)
    (frames : List (List UInt8)) : Py (List (List UInt8)) :=
  if frames = [] then .error .nameError
  else
    let m := effectiveLimit limit recSize frames.length
    let first := (m - 256) / recSize
    .ok ((headerBytes h ++ records fh 0 (frames.take first)) ::
      otherFiles fh (m / recSize) frames.length (frames.take first).length (frames.drop first))

/-- Files on disk by number; `none` where there is no file. -/
abbrev Disk := List (Option (List UInt8))

/-- What is on the disk after a write: existing files with higher numbers stay. -/
def overwrite (disk : Disk) (files : List (List UInt8)) : Disk :=
  files.map some ++ disk.drop files.length

/-! ### Reading -/

/-- Lines 277-285: the file 000 and all files up to the first missing number. -/
def present (disk : Disk) : List (List UInt8) := (disk.takeWhile Option.isSome).filterMap id

/-- `np.memmap` of all records of a file, lines 321-337: a `ValueError` unless the data are a
positive multiple of the record size. -/
def readRecords (incr recSize : Nat) (f : List UInt8) : Py (List (List UInt8)) :=
  if f.length % recSize ≠ 0 ∨ f = [] then .error .valueError
  else .ok ((List.range (f.length / recSize)).map fun i =>
    ((f.drop (i * recSize)).take recSize).drop incr)

def readOthers (incr recSize : Nat) : List (List UInt8) → Py (List (List UInt8))
  | [] => .ok []
  | f :: fs =>
    match readRecords incr recSize f with
    | .error e => .error e
    | .ok a => match readOthers incr recSize fs with
      | .error e => .error e
      | .ok b => .ok (a ++ b)

/-- The main header of the first file, line 291. -/
def readHeader (f : List UInt8) : Py Header :=
  if f.length < 256 then .error .indexError
  else match Header.ofVals (decodeRec false headerWidths f) with
    | some h => .ok h
    | none => .error .indexError

/-- All frames of a recording, lines 288-342. -/
def readFrames (disk : Disk) : Py (List (List UInt8)) :=
  match present disk with
  | [] => .error .ioError
  | f :: fs =>
    match readHeader f with
    | .error e => .error e
    | .ok h =>
      if h.version ≠ 1 ∧ h.version ≠ 2 then .error .notImplemented
      else
        let incr := if h.version = 1 then 12 else h.frameHeaderBytes         -- lines 296-299
        if incr < frameHeaderSize then .error .valueError                    -- lines 308-311
        else
          let recSize := incr + h.dimy * h.dimx * (h.bits / 8)
          match readRecords incr recSize (f.drop h.size) with
          | .error e => .error e
          | .ok a => match readOthers incr recSize fs with
            | .error e => .error e
            | .ok b => .ok (a ++ b)

/-- Reading as a stack of images, lines 344-345 and 412-419: the time step is the difference of the
first two time stamps. -/
def readStack (disk : Disk) : Py (List (List UInt8)) :=
  match readFrames disk with
  | .error e => .error e
  | .ok fs => if fs.length < 2 then .error .indexError else .ok fs

/-! ### Scan indices -/

inductive Winding where
  | none
  | x
  | y
  deriving Repr, DecidableEq

/-- `np.arange(start, ...).reshape(scan_shape)`, line 376: block `b` (all leading axes together),
row `y`, column `x` of a scan of `ny × nx` points. -/
def scanIndex (start ny nx b y x : Nat) : Nat := start + ((b * ny + y) * nx + x)

/-- Index before a `np.roll` by `h` of an axis of length `n`. -/
def unroll (n : Nat) (h : Int) (i : Nat) : Nat := (((i : Int) - h) % (n : Int)).toNat

/-- Lines 380-392: every second row (column) reversed, then rolled by `h`. -/
def windingIndex (w : Winding) (h : Int) (start ny nx b y x : Nat) : Nat :=
  match w with
  | .none => scanIndex start ny nx b y x
  | .x => if y % 2 = 0 then scanIndex start ny nx b y (nx - 1 - unroll nx h x)
      else scanIndex start ny nx b y x
  | .y => if x % 2 = 0 then scanIndex start ny nx b (ny - 1 - unroll ny h y) x
      else scanIndex start ny nx b y x

/-- Lines 366-376: is the scan inside the recording? -/
def scanFits (start nb ny nx frames : Nat) : Bool := start + nb * ny * nx ≤ frames

/-- The frame of a scan point, line 395: `data_stack[indices.ravel()]`. -/
def scanFrame {α : Type} (frames : List α) (w : Winding) (h : Int) (start ny nx b y x : Nat) :
    Option α := frames[windingIndex w h start ny nx b y x]?

end Verif.Tvips
