import Verif.Model.Blockfile
import Mathlib.Data.Rat.Floor
/-!
Model of what `rsciio/blockfile/_api.py` does with intensities, calibrations and the virtual bright field image before the
bytes of `Blockfile` are written, and of the calibrations that are read; with `rsciio/utils/_skimage_exposure.py`.

Numbers are exact: the rounding of floats is left out, and so are NaN and infinities. `convert_units` (pint) is a
parameter, with `none` for its exceptions; so are the eight bytes of a float, and the cast of a float that does not fit
in a byte. Warnings, names and offsets of axes, and lazy data are left out.
-/
namespace Verif.BlockfileScale
open Verif.Blockfile

/-! ### Intensities -/

/-- Types of arrays. -/
inductive DType where
  | int (signed : Bool) (bits : Nat)
  | float
  | bool
  deriving DecidableEq

/-- `skimage.dtype_limits`, external. -/
def limits : DType → Rat × Rat
  | .int false b => (0, 2 ^ b - 1)
  | .int true b => (-2 ^ (b - 1), 2 ^ (b - 1) - 1)
  | .float => (-1, 1)
  | .bool => (0, 1)

/-- The argument `intensity_scaling`. -/
inductive Scaling where
  | plain
  | dtype
  | minmax
  | crop
  | range (lo hi : Rat)

/-- The least number of a list. -/
def least : Rat → List Rat → Rat
  | m, [] => m
  | m, x :: xs => least (min m x) xs

/-- The greatest number of a list. -/
def greatest : Rat → List Rat → Rat
  | m, [] => m
  | m, x :: xs => greatest (max m x) xs

/-- Lines 409-431: the range that is scaled. `none`: no scaling. -/
def scaleOf (t : DType) (data : List Rat) : Scaling → Py (Option (Rat × Rat))
  | .plain => .ok none
  | .dtype => if (limits t).2 = 1 then .error .valueError else .ok (some (limits t))
  | .minmax => match data with
    | [] => .error .valueError
    | x :: xs => .ok (some (least x xs, greatest x xs))
  | .crop => .ok (some (0, 255))
  | .range lo hi => .ok (some (lo, hi))

/-- `np.clip`. -/
def clip (lo hi x : Rat) : Rat := min (max x lo) hi

/-- The byte of an integer: the last eight bits. -/
def byteOf (z : Int) : UInt8 := UInt8.ofNat (z % 256).toNat

/-- Towards zero. -/
def trunc (x : Rat) : Int := if x < 0 then -⌊-x⌋ else ⌊x⌋

/-- `rescale_intensity(image, in_range=(lo, hi), out_range=np.uint8)`, lines 103-130 of `_skimage_exposure.py`, for one number. -/
def rescale (lo hi x : Rat) : Int :=
  if lo ≠ hi then trunc ((clip lo hi x - lo) / (hi - lo) * (255 - 0) + 0)
  else trunc (clip 0 255 (clip lo hi x))

/-- `astype("u1")`. -/
def castByte (undef : Rat → UInt8) : DType → Rat → UInt8
  | .float, x => if -1 < x ∧ x < 256 then byteOf (trunc x) else undef x
  | _, x => byteOf (trunc x)

/-- Lines 463-467 and 476-484: the byte of a number. -/
def pixel (undef : Rat → UInt8) (t : DType) : Option (Rat × Rat) → Rat → UInt8
  | some r, x => byteOf (rescale r.1 r.2 x)
  | none, x => castByte undef t x

/-! ### The virtual bright field image -/

/-- The argument `navigator`. -/
inductive Nav where
  | none
  | auto
  | array (shape : List Nat) (t : DType) (values : List Rat)
  | other

/-- The mean of a frame. -/
def mean (l : List Rat) : Rat := l.sum / l.length

/-- Lines 447-462: the numbers of the image and their type. `stored`: the navigator of HyperSpy. -/
def navigatorOf (shape : List Nat) (frames : List (List Rat)) (stored : Option (DType × List Rat)) : Nav → Py (DType × List Rat)
  | .none => .ok (.float, List.replicate ((shape.take 2).foldl (· * ·) 1) 0)
  | .auto => match stored with
    | some s => .ok s
    | none => .ok (.float, frames.map mean)
  | .array s t v => if s ≠ shape.take 2 then .error .valueError else .ok (t, v)
  | .other => .error .valueError

/-! ### Calibrations -/

/-- An axis. -/
structure Ax where
  size : Nat
  scale : Rat
  units : List Char
  navigate : Bool
  deriving DecidableEq

/-- Lines 130-171: the scale of an axis is converted in place; the units stay. -/
def convertAx (convert : Rat → List Char → List Char → Option Rat) (a : Ax) : Ax :=
  if a.units = [] then a
  else match convert a.scale a.units (if a.navigate then "nm".toList else "cm".toList) with
    | some s => { a with scale := s }
    | none => a

/-- Lines 173-186: the scales `SX` and `SY`. -/
def scanScale : List Ax → Py (Rat × Rat)
  | [y, x] => .ok (x.scale, y.scale)
  | [x] => .ok (x.scale, x.scale)
  | [] => .ok (1, 1)
  | _ => .error .valueError

/-- Line 194, and the field of two bytes it is put in. -/
def sdpOf (scale : Rat) : Py Nat :=
  if scale = 0 then .error .zeroDivision
  else if 0 ≤ trunc (100 / scale) then .ok (trunc (100 / scale)).toNat
  else .error .overflowError

/-- Axes of the signal, line 129; two are needed, lines 190-194. -/
def signalAxes (axes : List Ax) : Py (Ax × Ax) :=
  match axes.filter fun a => !a.navigate with
  | a :: b :: _ => .ok (a, b)
  | _ => .error .indexError

/-- `file_writer`, lines 368-506: the bytes of the file, and the axes as they are left. -/
def writeSignal (convert : Rat → List Char → List Char → Option Rat) (enc : Rat → Nat) (undef : Rat → UInt8) (big : Bool) (base : Header)
    (note : List Char) (axes : List Ax) (t : DType) (frames : List (List Rat)) (scaling : Scaling) (stored : Option (DType × List Rat))
    (nav : Nav) : Py (List UInt8 × List Ax) := do
  let r ← scaleOf t frames.flatten scaling
  let left := axes.map (convertAx convert)
  let s ← scanScale (left.filter fun a => a.navigate)
  let p ← signalAxes left
  let sdp ← sdpOf p.2.scale
  let n ← navigatorOf (axes.map Ax.size) frames stored nav
  let f ← writeFile big base note ((left.filter fun a => a.navigate).map Ax.size) (p.1.size, p.2.size) (enc s.1) (enc s.2) sdp
    (n.2.map (pixel undef n.1 r)) (frames.map fun l => l.map (pixel undef t r))
  return (f, left)

/-- Lines 253-256: the scale of the patterns. -/
def sdpRead (sdp : Nat) : Rat := if sdp ≠ 0 then 100 / sdp else 1

/-- Lines 315-343: name, units, scale, use and size of each axis. -/
def axesRead (dec : Nat → Rat) (h : Header) (shape : List Nat) : List (String × String × Rat × Bool × Nat) :=
  List.zipWith (fun a n => (a.1, a.2.1, a.2.2.1, a.2.2.2, n))
    [("y", "nm", dec h.sy, true), ("x", "nm", dec h.sx, true), ("dy", "cm", sdpRead h.sdp, false), ("dx", "cm", sdpRead h.sdp, false)] shape

/-- `mapping`, lines 53-66: beam energy, camera length and rotation. -/
def mapped (h : Header) : List (String × Rat) :=
  [("Acquisition_instrument.TEM.beam_energy", h.energy / 1000), ("Acquisition_instrument.TEM.camera_length", h.camLen / 10000),
   ("Acquisition_instrument.TEM.rotation", h.scanRot / 100)]

end Verif.BlockfileScale
