import Verif.Py.Record
import Verif.Model.Blockfile
/-!
Model of `rsciio/semper/_api.py`.

Floats are bit patterns of 4 bytes (rounding of a scale to 4 bytes is left out). Pixels are bit
patterns of the item size. Lazy reading, `skip_header=True`, half-precision data (converted on the
way) and the conversion of dates from and to text are left out; the text of the data range
(lines 296-298) is a parameter.
-/
namespace Verif.Semper
open Verif.Blockfile (utf8)

/-- Item sizes of `IFORM_DICT`, line 130: byte, i2, f4, c8, i4. -/
def itemsize : Nat → Option Nat
  | 0 => some 1
  | 1 => some 2
  | 2 => some 4
  | 3 => some 8
  | 4 => some 4
  | _ => none

/-- The formats of integers, whose byte order is not changed by `_check_format`, lines 334-356. -/
def isInteger (iform : Nat) : Bool := iform = 0 || iform = 1 || iform = 4

/-- `self` of `SemperFormat` with the metadata of `from_signal`, lines 536-559. `rows` are the rows of
all layers, `big` tells whether the array in memory is big-endian. -/
structure Image where
  nlay : Nat
  nrow : Nat
  ncol : Nat
  iform : Nat
  big : Bool
  rows : List (List Nat)
  title : Option (List Char)
  iclass : Int
  iwp : Int
  ipltyp : Int
  center : Int × Int × Int          -- ICCOLN, ICROWN, ICLAYN
  date : List Int
  rangeText : List Char
  scales : Nat × Nat × Nat
  offsets : Nat × Nat × Nat
  units : Option (List Char) × Option (List Char) × Option (List Char)
  deriving Repr, DecidableEq

/-- Lengths of the fields of `LABEL_DTYPES`, lines 144-181. -/
def labelLens : List Nat :=
  [6, 2, 2, 2, 2, 2, 2, 1, 1, 1, 6, 1, 27, 1, 1, 1, 1, 1, 1, 1, 1, 1, 3, 4, 4, 4, 4, 4, 4, 4, 4, 1,
    144, 4, 4, 4]

/-- Does a value fit an `<i2` field? -/
def fits16 (v : Int) : Bool := -32768 ≤ v && v < 32768

/-- Text in a label field of `n` places: `label[...][:, : len(s)] = [ord(c) for c in s]`. -/
def textField (n : Nat) (s : List Char) : List Int :=
  s.map (fun c => (c.toNat : Int)) ++ List.replicate (n - s.length) 0

/-- `divmod(remain, 256)`, the lower two parts of a size. -/
def lowParts (v : Int) : List Int := [v % 65536 / 256, v % 65536 % 256]

/-- `pack_to_intbytes("<f", value)`, lines 652-656. -/
def packFloat (bits : Nat) : List Int := (leBytes 4 bits).map (fun b => (b.toNat : Int))

/-- The fields of the label, lines 269-332: units are those of the first axis in all three. -/
def labelFields (im : Image) (title : List Char) : List (List Int) :=
  let unit := im.units.1.getD []
  [textField 6 ['S', 'e', 'm', 'p', 'e', 'r'],
   lowParts im.ncol, lowParts im.nrow, lowParts im.nlay,
   lowParts im.center.1, lowParts im.center.2.1, lowParts im.center.2.2,
   [im.iclass], [(im.iform : Int)], [im.iwp],
   (im.date.modifyHead (· - 1900)),
   [(im.rangeText.length : Int)], textField 27 im.rangeText, [im.ipltyp],
   [(im.ncol : Int) / 65536], [(im.nrow : Int) / 65536], [(im.nlay : Int) / 65536],
   [im.center.1 / 65536], [im.center.2.1 / 65536], [im.center.2.2 / 65536],
   [1], [4], [0, 0, 0], packFloat 0, packFloat 0,
   packFloat im.scales.2.2, packFloat im.offsets.2.2,
   packFloat im.scales.2.1, packFloat im.offsets.2.1,
   packFloat im.scales.1, packFloat im.offsets.1,
   [(title.length : Int)], textField 144 title,
   textField 4 unit, textField 4 unit, textField 4 unit]

/-- `_get_label`, lines 269-332: a title of `None` has no length (`TypeError`, line 319), texts longer
than their field do not fit (`ValueError`), numbers outside of 16 bits neither (`OverflowError`). The
order of the last two checks is simplified. -/
def getLabel (im : Image) : Py (List (List Int)) :=
  match im.title with
  | none => .error .typeError
  | some title =>
    if im.date.length ≠ 6 ∨ 27 < im.rangeText.length ∨ 144 < title.length ∨
        4 < (im.units.1.getD []).length then .error .valueError
    else if (labelFields im title).flatten.all fits16 then .ok (labelFields im title)
    else .error .overflowError

/-- Numbers as `<i2`. -/
def shorts (vs : List Int) : List UInt8 :=
  encodeRec false (List.replicate vs.length 2) (vs.map (ofSigned 2))

/-- A record between two copies of its length, e.g. lines 465-467. -/
def record (n : Nat) (bs : List UInt8) : List UInt8 := leBytes 4 n ++ bs ++ leBytes 4 n

/-- One row of pixels, lines 484-500: `row.tobytes()`. The padding byte of line 498 is computed but
not written. -/
def rowBytes (iform w ncol : Nat) (big : Bool) (row : List Nat) : List UInt8 :=
  record (w * ncol) (row.flatMap (fieldBytes (big && isInteger iform) w))

/-- The six numbers of the header, lines 455-463. -/
def headerFields (im : Image) (title : List Char) : List Int :=
  [im.ncol, im.nrow, im.nlay, im.iclass, im.iform, 21000 + title.length]

/-- `save_to_unf`, lines 447-500. -/
def save (im : Image) : Py (List UInt8) :=
  match itemsize im.iform with
  | none => .error .ioError
  | some w =>
    let title := im.title.getD []
    if (headerFields im title).all fits16 then
      match getLabel im with
      | .error e => .error e
      | .ok label =>
        .ok (record 12 (shorts (headerFields im title)) ++
          ((if title = [] then [] else record title.length (title.flatMap utf8)) ++
            (record 512 (shorts label.flatten) ++
              im.rows.flatMap (rowBytes im.iform w im.ncol im.big))))
    else .error .overflowError

/-! ### Reading -/

/-- The label as read, lines 212-267. -/
structure Label where
  ncol : Int
  nrow : Int
  nlay : Int
  center : Int × Int × Int
  iclass : Int
  iform : Int
  iwp : Int
  date : List Int
  range : List Char
  ipltyp : Int
  real : Bool
  scales : Nat × Nat × Nat
  offsets : Nat × Nat × Nat
  title : List Char
  units : List Char × List Char × List Char
  deriving Repr, DecidableEq

/-- Cut a list into pieces of given lengths. -/
def splitLens {α : Type} : List Nat → List α → List (List α)
  | [], _ => []
  | n :: ns, l => l.take n :: splitLens ns (l.drop n)

/-- Lines 220-226: `256 * label[key][0]` is computed with 16 bits. -/
def sizeFrom (h : Int) (parts : List Int) : Int :=
  65536 * h + toSigned 2 (ofSigned 2 (256 * parts.headD 0)) + parts.getD 1 0

/-- `unpack_from_intbytes("<f", ...)`, lines 645-649: the numbers have to be bytes. -/
def unpackFloat (vs : List Int) : Option Nat :=
  if vs.all (fun v => 0 ≤ v && v < 256) then some (leVal (vs.map fun v => UInt8.ofNat v.toNat))
  else none

/-- `"".join([chr(c) for c in ...])`; `chr` of a negative number is an error. -/
def chars (vs : List Int) : Option (List Char) :=
  if vs.all (0 ≤ ·) then some (vs.map fun v => Char.ofNat v.toNat) else none

/-- `vs[:n]` for a number read from the file. -/
def takeInt {α : Type} (n : Int) (vs : List α) : List α :=
  if 0 ≤ n then vs.take n.toNat else vs.take (vs.length - (-n).toNat)

/-- Text without NUL characters, lines 256-264. -/
def noNul (s : List Char) : List Char := s.filter (· ≠ Char.ofNat 0)

/-- The label from its fields, lines 216-264; `none` for any exception. The range of files written by
Semper 7 (`NCRANG = 255`) is left empty. -/
def decodeLabel (fs : List (List Int)) : Option Label :=
  let fld := fun i => fs.getD i []
  let num := fun i => (fs.getD i []).headD 0
  if chars (fld 0) ≠ some ['S', 'e', 'm', 'p', 'e', 'r'] then none
  else do
    let range ← if num 11 = 255 then some [] else chars (takeInt (num 11) (fld 12))
    let x0 ← unpackFloat (fld 30)
    let dx ← unpackFloat (fld 29)
    let y0 ← unpackFloat (fld 28)
    let dy ← unpackFloat (fld 27)
    let z0 ← unpackFloat (fld 26)
    let dz ← unpackFloat (fld 25)
    let title ← chars (takeInt (num 31) (fld 32))
    let xu ← chars (fld 33)
    let yu ← chars (fld 34)
    let zu ← chars (fld 35)
    some {
      ncol := sizeFrom (num 14) (fld 1), nrow := sizeFrom (num 15) (fld 2),
      nlay := sizeFrom (num 16) (fld 3),
      center := (sizeFrom (num 17) (fld 4), sizeFrom (num 18) (fld 5), sizeFrom (num 19) (fld 6)),
      iclass := num 7, iform := num 8, iwp := num 9, date := (fld 10).modifyHead (· + 1900),
      range := range, ipltyp := num 13, real := num 20 = 1,
      scales := (dx, dy, dz), offsets := (x0, y0, z0), title := title,
      units := (noNul xu, noNul yu, noNul zu) }

/-- Numbers read as `<i2`. -/
def readShorts (n : Nat) (f : List UInt8) : List Int :=
  (decodeRec false (List.replicate n 2) f).map (toSigned 2)

/-- `_read_label` with the exception handling of its caller, lines 398-404 and 212-267: the label and
what follows. After an exception reading goes on where it stopped. -/
def readLabel (f : List UInt8) : Option Label × List UInt8 :=
  if f.length < 516 then (none, [])
  else match decodeLabel (splitLens labelLens (readShorts 256 (f.drop 4))) with
    | none => (none, f.drop 516)
    | some l =>
      if f.length < 520 then (none, [])
      else if leVal ((f.drop 516).take 4) = leVal (f.take 4) then (some l, f.drop 520)
      else (none, f.drop 520)

/-- One row, lines 667-677: the row and what follows. At the end of the file an `IndexError`
(simplified: NumPy may complain about the shape first). -/
def readRow (w ncol : Nat) (f : List UInt8) : Py (List Nat × List UInt8) :=
  let recLen := leVal (f.take 4)
  let count := recLen / w
  let f1 := f.drop 4
  if f.length < 4 ∨ f1.length < count * w + 4 then .error .indexError
  else
    let row := (decodeRec false (List.replicate count w) f1).take ncol
    let rest := f1.drop (count * w)
    if row.length ≠ ncol ∧ row.length ≠ 1 then .error .valueError
    else if leVal (rest.take 4) ≠ recLen then .error .assertion
    else .ok (if row.length = ncol then row else List.replicate ncol (row.headD 0), rest.drop 4)

/-- All rows, lines 665-678. -/
def readRows (w ncol : Nat) : Nat → List UInt8 → Py (List (List Nat))
  | 0, _ => .ok []
  | n + 1, f =>
    match readRow w ncol f with
    | .error e => .error e
    | .ok (row, rest) =>
      match readRows w ncol n rest with
      | .error e => .error e
      | .ok rows => .ok (row :: rows)

/-- What `load_from_unf` returns. -/
structure Loaded where
  title : List Char
  label : Option Label
  iclass : Int
  iform : Int
  nlay : Nat
  nrow : Nat
  ncol : Nat
  rows : List (List Nat)
  deriving Repr, DecidableEq

/-- Line 393-397: the title record. NUL bytes are lost when the characters are joined; only ASCII
bytes are decoded in this model, other bytes count as undecodable. -/
def readTitle (n : Nat) (f : List UInt8) : Py (List Char × List UInt8) :=
  if f.length < 4 then .error .indexError
  else if leVal (f.take 4) ≠ n then .error .assertion
  else
    let bs := (f.drop 4).take n
    let rest := (f.drop 4).drop n
    if bs.any (128 ≤ ·) then .error .unicodeError
    else if rest.length < 4 then .error .indexError
    else if leVal (rest.take 4) ≠ n then .error .assertion
    else .ok ((bs.filter (· ≠ 0)).map (fun b => Char.ofNat b.toNat), rest.drop 4)

/-- The sizes used for reading, line 407: those of the label, if there is one. -/
def dims (label : Option Label) (nlay nrow ncol : Int) : Int × Int × Int :=
  match label with
  | some l => (l.nlay, l.nrow, l.ncol)
  | none => (nlay, nrow, ncol)

/-- The picture, lines 406-414. -/
def loadData (title : List Char) (label : Option Label) (iclass iform : Int) (w : Nat)
    (d : Int × Int × Int) (f : List UInt8) : Py Loaded :=
  if d.1 < 0 ∨ d.2.1 < 0 ∨ d.2.2 < 0 then .error .valueError
  else
    match readRows w d.2.2.toNat (d.1.toNat * d.2.1.toNat) f with
    | .error e => .error e
    | .ok rows => .ok ⟨title, label, iclass, iform, d.1.toNat, d.2.1.toNat, d.2.2.toNat, rows⟩

/-- The title and the label, lines 388-404. -/
def loadRest (ncol nrow nlay iclass iform iflag : Int) (w : Nat) (f : List UInt8) : Py Loaded :=
  let remain := iflag % 10000
  let ntitle := (remain % 1000).toNat
  match (if ntitle = 0 then .ok ([], f) else readTitle ntitle f : Py (List Char × List UInt8)) with
  | .error e => .error e
  | .ok (title, rest) =>
    let lr := if remain / 1000 = 0 then (none, rest) else readLabel rest
    loadData title lr.1 iclass iform w (dims lr.1 nlay nrow ncol) lr.2

/-- `load_from_unf`, lines 373-429, for a header of 12 bytes. -/
def load (f : List UInt8) : Py Loaded :=
  if f.length < 20 then .error .indexError
  else if leVal (f.take 4) ≠ 12 then .error .notImplemented
  else if leVal ((f.drop 16).take 4) ≠ 12 then .error .assertion
  else
    match readShorts 6 (f.drop 4) with
    | [ncol, nrow, nlay, iclass, iform, iflag] =>
      match (if iform < 0 then none else itemsize iform.toNat) with
      | none => .error .keyError
      | some w => loadRest ncol nrow nlay iclass iform iflag w (f.drop 20)
    | _ => .error .indexError

/-! ### Signals -/

structure Axis where
  size : Nat
  scale : Nat
  offset : Nat
  units : Option (List Char)
  deriving Repr, DecidableEq

/-- `1.0` as a 4-byte float. -/
def one : Nat := 0x3f800000

/-- `from_signal`, lines 519-559, with the rows of the data (all but the last axis together) and the
other metadata fixed by parameters. -/
def fromSignal (axes : List Axis) (iform : Nat) (big : Bool) (rows : List (List Nat))
    (title : Option (List Char)) (iclass : Int) (date : List Int) (rangeText : List Char) :
    Py Image :=
  if 3 < axes.length then .error .assertion
  else
    let scale := fun i => (axes[i]?.map Axis.scale).getD one
    let offset := fun i => (axes[i]?.map Axis.offset).getD 0
    let unit := fun i => (axes[i]?.map Axis.units).getD none
    let shape := List.replicate (3 - axes.length) 1 ++ axes.map Axis.size
    let nlay := shape.getD 0 1
    let nrow := shape.getD 1 1
    let ncol := shape.getD 2 1
    .ok { nlay := nlay, nrow := nrow, ncol := ncol, iform := iform, big := big, rows := rows,
          title := title, iclass := iclass, iwp := 0, ipltyp := 248,
          center := (ncol / 2 + 1, nrow / 2 + 1, nlay / 2 + 1), date := date,
          rangeText := rangeText,
          scales := (scale 0, scale 1, scale 2), offsets := (offset 0, offset 1, offset 2),
          units := (unit 0, unit 1, unit 2) }

/-- The axes of `to_dictionary`, lines 574-590, with the defaults of lines 415-428. -/
def toAxes (l : Loaded) : List Axis :=
  let shape := [l.nlay, l.nrow, l.ncol].filter (· ≠ 1)
  let real := match l.label with
    | some lab => if lab.real then (lab.scales, lab.offsets) else ((one, one, one), (0, 0, 0))
    | none => ((one, one, one), (0, 0, 0))
  let units : Option (List Char) × Option (List Char) × Option (List Char) :=
    match l.label with
    | some lab => (some lab.units.1, some lab.units.2.1, some lab.units.2.2)
    | none => (none, none, none)
  List.zipWith (fun (s : Nat × Nat × Option (List Char)) n => ⟨n, s.1, s.2.1, s.2.2⟩)
    [(real.1.1, real.2.1, units.1), (real.1.2.1, real.2.2.1, units.2.1),
      (real.1.2.2, real.2.2.2, units.2.2)] shape

end Verif.Semper
