import Verif.Py.Record
/-!
Model of `rsciio/blockfile/_api.py`.

Unit conversion, metadata mapping and `intensity_scaling` are in `BlockfileScale`; here the pixels and
the virtual bright field arrive as bytes. Left out: dates and the dask `store`. Floats are 8-byte bit patterns.
`filename` is the byte list of the file.
-/
namespace Verif.Blockfile

/-- The header record, `get_header_dtype_list`, lines 70-95. `tail` holds the 8 `Centering_N` and
14 `Distortion_N` values. -/
structure Header where
  id : Nat
  magic : Nat
  off1 : Nat
  off2 : Nat
  unknown1 : Nat
  dpSz : Nat
  dpRot : Nat
  nx : Nat
  ny : Nat
  scanRot : Nat
  sx : Nat
  sy : Nat
  energy : Nat
  sdp : Nat
  camLen : Nat
  acqTime : Nat
  tail : List Nat
  deriving Repr, DecidableEq

/-- Field widths in bytes, lines 74-92. -/
def widths : List Nat :=
  [6, 2, 4, 4, 4, 2, 2, 2, 2, 2, 8, 8, 4, 2, 4, 8] ++ List.replicate 22 8

def Header.vals (h : Header) : List Nat :=
  [h.id, h.magic, h.off1, h.off2, h.unknown1, h.dpSz, h.dpRot, h.nx, h.ny, h.scanRot, h.sx, h.sy,
    h.energy, h.sdp, h.camLen, h.acqTime] ++ h.tail

def Header.ofVals : List Nat → Option Header
  | id :: magic :: off1 :: off2 :: unknown1 :: dpSz :: dpRot :: nx :: ny :: scanRot :: sx :: sy ::
    energy :: sdp :: camLen :: acqTime :: tail =>
    some ⟨id, magic, off1, off2, unknown1, dpSz, dpRot, nx, ny, scanRot, sx, sy, energy, sdp,
      camLen, acqTime, tail⟩
  | _ => none

/-- The scan size `(NX, NY)` from the navigation shape, lines 173-188. -/
def scanSize : List Nat → Py (Nat × Nat)
  | [y, x] => .ok (x, y)
  | [x] => .ok (x, 1)
  | [] => .ok (1, 1)
  | _ => .error .valueError

/-- Lines 196-199. -/
def offset2 (nx ny off1 : Nat) : Nat :=
  let o := nx * ny + off1
  o + o % 16

/-- `get_header_from_signal`, lines 173-213, from the header `base` (the default one, with the
fields of `original_metadata` put in, lines 117-124) and the scales already converted to the
stored numbers. Values that do not fit their field are an `OverflowError`. -/
def headerFromSignal (base : Header) (navShape : List Nat) (sigShape : Nat × Nat)
    (sx sy sdp : Nat) : Py Header :=
  match scanSize navShape with
  | .error e => .error e
  | .ok (nx, ny) =>
    if sigShape.2 ≠ sigShape.1 then .error .valueError                       -- line 191
    else if nx < 2 ^ 16 ∧ ny < 2 ^ 16 ∧ sigShape.1 < 2 ^ 16 ∧ offset2 nx ny base.off1 < 2 ^ 32 ∧
        sx < 2 ^ 64 ∧ sy < 2 ^ 64 ∧ sdp < 2 ^ 16 then
      .ok { base with
        nx := nx, ny := ny, dpSz := sigShape.1, sx := sx, sy := sy, sdp := sdp,
        off2 := offset2 nx ny base.off1 }
    else .error .overflowError

/-- UTF-8 encoding of a character (`str.encode()`, line 441). -/
def utf8 (c : Char) : List UInt8 :=
  let n := c.toNat
  if n < 0x80 then [UInt8.ofNat n]
  else if n < 0x800 then [UInt8.ofNat (0xC0 + n / 64), UInt8.ofNat (0x80 + n % 64)]
  else if n < 0x10000 then
    [UInt8.ofNat (0xE0 + n / 4096), UInt8.ofNat (0x80 + n / 64 % 64), UInt8.ofNat (0x80 + n % 64)]
  else [UInt8.ofNat (0xF0 + n / 262144), UInt8.ofNat (0x80 + n / 4096 % 64),
    UInt8.ofNat (0x80 + n / 64 % 64), UInt8.ofNat (0x80 + n % 64)]

/-- Lines 439-440: `note[: avail - len(note)]` when the note is longer than the space `avail`
(Python slice with a negative end). -/
def clipNote (avail : Int) (note : List Char) : List Char :=
  if (note.length : Int) > avail then
    let stop := avail - note.length          -- negative
    note.take (note.length + stop).toNat
  else note

def zeros (n : Nat) : List UInt8 := List.replicate n 0

/-- One record of the data section, lines 489-505: magic, serial number, pixels. -/
def frameRecord (big : Bool) (i : Nat) (pixels : List UInt8) : List UInt8 :=
  fieldBytes big 2 0x55AA ++ fieldBytes big 4 i ++ pixels

def frameRecords (big : Bool) : Nat → List (List UInt8) → List UInt8
  | _, [] => []
  | i, p :: ps => frameRecord big i p ++ frameRecords big (i + 1) ps

/-- `file_writer`, lines 434-506. `nav` are the bytes of the virtual bright field image,
`frames` the frames in C order of the scan. `header.tofile` writes the header as created by
`get_default_header`, which ignores `endianness` (line 100): always little-endian. -/
def writeFile (big : Bool) (base : Header) (note : List Char) (navShape : List Nat)
    (sigShape : Nat × Nat) (sx sy sdp : Nat) (nav : List UInt8) (frames : List (List UInt8)) :
    Py (List UInt8) :=
  match headerFromSignal base navShape sigShape sx sy sdp with
  | .error e => .error e
  | .ok h =>
    let head := encodeRec false widths h.vals                                -- line 437
    let text := (clipNote ((h.off1 : Int) - head.length) note).flatMap utf8  -- lines 439-441
    if h.off1 < head.length + text.length then .error .valueError            -- line 444
    else
      let pad1 := zeros (h.off1 - (head.length + text.length))
      if h.off2 < h.off1 + nav.length then .error .valueError                -- lines 470-471
      else
        let pad2 := zeros (h.off2 - (h.off1 + nav.length))                   -- lines 472-473
        if frames = [] then .error .valueError                               -- empty memmap
        else .ok (head ++ text ++ pad1 ++ nav ++ pad2 ++ frameRecords big 0 frames)

/-! ### Reading -/

structure Read where
  header : Header
  note : List Char
  shape : List Nat
  data : List UInt8
  deriving Repr, DecidableEq

/-- `str.strip("\x00")`. -/
def stripNul (s : List Char) : List Char :=
  ((s.dropWhile (· = '\x00')).reverse.dropWhile (· = '\x00')).reverse

/-- `bytes.decode("latin1")`. -/
def latin1 (b : List UInt8) : List Char := b.map fun u => Char.ofNat u.toNat

/-- `np.fromfile(f, dtype=frame_dtype)["data"]`, line 287: all complete records. -/
def readFrames (size : Nat) (f : List UInt8) : List (List UInt8) :=
  (List.range (f.length / size)).map fun i => ((f.drop (i * size)).take size).drop 6

/-- The header, line 237; `IndexError` (line 238) if the file is too short. -/
def readHeader (big : Bool) (f : List UInt8) : Py Header :=
  if f.length < widths.sum then .error .indexError
  else
    -- the byte string and the last 22 fields do not depend on `endianness`
    match Header.ofVals (decodeRec false [6] f ++
        decodeRec big ((widths.drop 1).take 15) (f.drop 6) ++
        decodeRec false (List.replicate 22 8) (f.drop 64)) with
    | some h => .ok h
    | none => .error .indexError

/-- Lines 246-249. `f.read` of a negative number reads to the end of the file. -/
def readNote (off1 : Nat) (f : List UInt8) : List Char :=
  if 240 ≤ off1 then stripNul (latin1 ((f.drop 240).take (off1 - 240)))
  else stripNul (latin1 (f.drop 240))

/-- `file_reader(lazy=False)`, lines 237-298. -/
def readFile (big : Bool) (f : List UInt8) : Py Read :=
  match readHeader big f with
  | .error e => .error e
  | .ok h =>
    let n := h.dpSz
    let total := h.ny * h.nx
    let frames := readFrames (6 + n * n) (f.drop h.off2)
    let shape := [h.ny, h.nx, n, n].filter (· ≠ 1)                           -- squeeze
    let note := readNote h.off1 f
    if frames.length = total then .ok ⟨h, note, shape, frames.flatten⟩
    else if frames.length < total then                                       -- lines 296-298
      .ok ⟨h, note, shape,
        (frames ++ List.replicate (total - frames.length) (zeros (n * n))).flatten⟩
    else .error .valueError                                                  -- negative padding

/-- `file_reader(lazy=True)`, lines 300-313: a memory map of `NY × NX` records
(`Model/Distributed.lean` is about loading it chunk by chunk); not squeezed; `ValueError` if the
file is too short. -/
def readLazy (big : Bool) (f : List UInt8) : Py Read :=
  match readHeader big f with
  | .error e => .error e
  | .ok h =>
    let n := h.dpSz
    let total := h.ny * h.nx
    if f.length < h.off2 + total * (6 + n * n) then .error .valueError
    else .ok ⟨h, readNote h.off1 f, [h.ny, h.nx, n, n],
      ((readFrames (6 + n * n) (f.drop h.off2)).take total).flatten⟩

/-- Lines 315-343: name, navigation flag and size of each axis of the data. -/
def axes (shape : List Nat) : List (String × Bool × Nat) :=
  List.zipWith (fun a n => (a.1, a.2, n)) [("y", true), ("x", true), ("dy", false), ("dx", false)] shape

end Verif.Blockfile
