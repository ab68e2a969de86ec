import Verif.Py.Basic
/-!
Model of `load_mib_data`, `parse_exposures` and `parse_timestamps` of
`rsciio/quantumdetector/_api.py`.

The file is a byte list, a frame is its record of header and pixels. Parsing of the first header, the
reshaping of the frames to the navigation shape (row-major, which keeps their order) and squeezing
are left out.
-/
namespace Verif.QuantumDetector

/-- `slice(first, last).indices(n)`: an index that may be negative, between 0 and n. -/
def clampIndex (n : Nat) (i : Int) : Nat :=
  if i < 0 then (i + n).toNat else min i.toNat n

/-- The first and last frame, lines 253-255. -/
def frameRange (n : Nat) (first last : Option Int) : Nat × Nat :=
  ((first.map (clampIndex n)).getD 0, (last.map (clampIndex n)).getD n)

/-- `np.prod(shape)`. -/
def prod : List Int → Int
  | [] => 1
  | a :: s => a * prod s

/-- The navigation shape used, lines 256-289; `n` frames in the file. -/
def navShape (n : Nat) (nav : Option (List Int)) (first last : Nat) : List Int :=
  let load : Int := (last : Int) - first
  match nav with
  | none => [load]
  | some shape =>
    if prod shape > n then
      if first = 0 ∧ shape.length > 1 then [(n : Int) / shape.headD 0, shape.headD 0]
      else [load]
    else if load < prod shape then [load]
    else shape.reverse

/-- The record number `i` of a file. -/
def frame (recSize : Nat) (f : List UInt8) (i : Nat) : List UInt8 := (f.drop (i * recSize)).take recSize

/-- `count` records from the record `start` on, which must all be there. A negative number of frames
is a `ValueError` of NumPy. -/
def frames (recSize : Nat) (f : List UInt8) (start : Nat) (shape : List Int) :
    Py (List (List UInt8)) :=
  if shape.any (· < 0) then .error .valueError
  else if f.length < (start + (prod shape).toNat) * recSize then .error .valueError
  else .ok ((List.range (prod shape).toNat).map fun j => frame recSize f (start + j))

/-- Loading from a file, lines 306-327: the offset takes the first frame into account. -/
def loadFile (recSize : Nat) (nav : Option (List Int)) (first last : Option Int)
    (f : List UInt8) : Py (List (List UInt8)) :=
  let n := f.length / recSize
  let r := frameRange n first last
  frames recSize f r.1 (navShape n nav r.1 r.2)

/-- Loading from a bytes buffer, lines 328-336: the offset does not. For detectors of four chips the
header is read again from `self.path`, which is `None` (lines 149-152): a `TypeError`. -/
def loadBuffer (quad : Bool) (recSize : Nat) (nav : Option (List Int)) (first last : Option Int)
    (f : List UInt8) : Py (List (List UInt8)) :=
  if quad then .error .typeError
  else
    let n := f.length / recSize
    let r := frameRange n first last
    frames recSize f 0 (navShape n nav r.1 r.2)

/-- `headers[:i]`. -/
def takeSlice {α : Type} (l : List α) (i : Int) : List α :=
  if 0 ≤ i then l.take i.toNat else l.take (l.length - (-i).toNat)

/-- `parse_exposures` and `parse_timestamps`, lines 418-429 and 466-472; `parse` gets the value from
one header. -/
def parseHeaders {α β : Type} (parse : α → β) (headers : List α) (maxIndex : Int) : List β :=
  let m := if maxIndex > 1 then min maxIndex headers.length else maxIndex
  (takeSlice headers m).map parse

end Verif.QuantumDetector
