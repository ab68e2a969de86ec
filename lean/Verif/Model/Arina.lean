import Mathlib.Data.Rat.Floor
import Mathlib.Data.Nat.Sqrt
import Verif.Py.Basic
/-!
Model of `rsciio/arina/_api.py` (4D-STEM data of Dectris Arina detectors).

A dataset of the master file is a list of frames of the same shape, each a list of rows; datasets are
in the order of iteration over the group. Numbers are exact rationals: rounding of floats is not
modelled, conversion to unsigned integers is (towards zero, then modulo the width, which is what the
usual platforms do). `int(np.sqrt(n))` is the integer root, exact for all n below 2^52. Not modelled:
missing files, errors of the library, negative numbers in `navigation_shape` and negative binning.
-/
namespace Verif.Arina

/-- Data types: unsigned integers with a number of bits, and floats. -/
inductive DType | uint (bits : Nat) | float
  deriving DecidableEq

/-- `.astype(dtype)`, and assignment to an element of an array. -/
def cast : DType → ℚ → ℚ
  | .uint b, x => ((⌊x⌋ % (2 ^ b : Int) : Int) : ℚ)
  | .float, x => x

/-- A frame: a list of rows. -/
abbrev Frame := List (List ℚ)

/-- A dataset of the group `entry/data`: `shape[1]`, `shape[2]`, `dtype` and the frames. -/
structure Dataset where
  height : Nat
  width : Nat
  dtype : DType
  frames : List Frame

/-- An entry of the tuple `navigation_shape`. -/
inductive Dim | n (k : Nat) | auto
  deriving DecidableEq

/-- The argument `navigation_shape`. -/
inductive Nav | none | scalar (k : Nat) | pair (x y : Dim)
  deriving DecidableEq

/-- Lines 104-105. -/
def checkNav (nimages : Nat) : Py (Nat × Nat) → Py (Nat × Nat)
  | .error e => .error e
  | .ok (x, y) => if nimages ≠ x * y then .error .valueError else .ok (x, y)

/-- Lines 94-105. -/
def navShape (nimages : Nat) (nav : Nav) : Py (Nat × Nat) :=
  let p : Dim × Dim := match nav with
    | .none => (.n (Nat.sqrt nimages), .n (Nat.sqrt nimages))     -- line 95
    | .scalar k => (.n k, .auto)                                  -- line 97
    | .pair x y => (x, y)
  checkNav nimages <| match p with
    | (.auto, .auto) => .error .typeError                         -- an integer // "auto"
    | (.auto, .n y) => if y = 0 then .error .zeroDivision else .ok (nimages / y, y)
    | (.n x, .auto) => if x = 0 then .error .zeroDivision else .ok (x, nimages / x)
    | (.n x, .n y) => .ok (x, y)

/-- Entry of a frame. -/
def px (f : Frame) (r c : Nat) : ℚ := (f.getD r []).getD c 0

/-- A frame of a given shape from its entries. -/
def build (h w : Nat) (g : Nat → Nat → ℚ) : Frame :=
  (List.range h).map fun r => (List.range w).map fun c => g r c

/-- The sum over a block of `b × b` pixels. -/
def blockSum (f : Frame) (b r c : Nat) : ℚ :=
  ((List.range b).map fun i => ((List.range b).map fun j => px f (r * b + i) (c * b + j)).sum).sum

/-- `bin2D`, lines 255-278: the means over blocks. Reshaping fails unless the sizes fit. -/
def bin2D (f : Frame) (h w b : Nat) : Py Frame :=
  if b = 1 then .ok f
  else if h / b * b * (w / b * b) ≠ h * w then .error .valueError
  else .ok (build (h / b) (w / b) fun r c => blockSum f b r c / (b * b : ℚ))

/-- The correction of a frame, lines 121-126 and the product in lines 242-249: 1, or the median of
the flat field divided by the flat field, or 1 where the flat field is zero. `med` is the median
(external). Shapes are assumed to agree. -/
def correct (flat : Option (ℚ × Frame)) (dt : DType) (h w : Nat) (f : Frame) : Frame :=
  match flat with
  | none => build h w fun r c => cast dt (px f r c)
  | some (med, ff) => build h w fun r c =>
    cast dt (px f r c) * (if px ff r c = 0 then 1 else med / px ff r c)

/-- One turn of the loop of lines 240-252: the frame after correction and binning is assigned to
`array_3D[image_index]`, which has shape `(width // b, height // b)`; NumPy requires the same shape
(or lengths of one, which comes to the same when all datasets have the same shape). -/
def processFrame (d : Dataset) (flat : Option (ℚ × Frame)) (dt : DType) (W H b : Nat) (f : Frame) :
    Py Frame :=
  match bin2D (correct flat dt d.height d.width f) d.height d.width b with
  | .error e => .error e
  | .ok g =>
    if b = 1 then
      if d.height = W ∧ d.width = H then .ok (build W H fun r c => cast dt (px g r c))
      else .error .valueError
    else if d.height / b = W ∧ d.width / b = H then .ok (build W H fun r c => cast dt (px g r c))
    else .error .valueError

/-- All frames of all datasets, lines 128-137 and 210-252. -/
def process (flat : Option (ℚ × Frame)) (dt : DType) (W H b : Nat) : List Dataset → Py (List Frame)
  | [] => .ok []
  | d :: ds =>
    match d.frames.mapM (processFrame d flat dt W H b), process flat dt W H b ds with
    | .ok a, .ok r => .ok (a ++ r)
    | .error e, _ => .error e
    | _, .error e => .error e

/-- An axis: name, scale, units, size (lines 147-176 and 182-186). -/
structure Axis where
  name : String
  scale : ℚ
  units : String
  size : Nat
  deriving DecidableEq

/-- What `file_reader` returns: the shape of the data, the frames in order and the axes. -/
structure Result where
  shape : Nat × Nat × Nat × Nat
  dtype : DType
  frames : List Frame
  axes : List Axis

/-- The element `data[i, j, r, c]` after `reshape` (lines 139-144). -/
def Result.at (r : Result) (i j p q : Nat) : ℚ :=
  px (r.frames.getD (i * r.shape.2.1 + j) []) p q

/-- Scale and units of the scan, lines 178-188: the pixel size of the companion file times ten. -/
def scanScale : Option ℚ → ℚ × String
  | none => (1, "1")
  | some p => (p * 10, "A")

/-- The data type of the result, lines 107-117. -/
def dtypeOf (stored : DType) (dtype : Option DType) (flat : Option (ℚ × Frame)) : DType :=
  match flat with
  | some _ => .float
  | none =>
    match dtype with
    | some d => d
    | none => if stored = .uint 32 then .uint 16 else stored

/-- `file_reader`, lines 71-200. -/
def read (ds : List Dataset) (lazy : Bool) (nav : Nav) (b : Nat) (dtype : Option DType)
    (flat : Option (ℚ × Frame)) (pixelSize : Option ℚ) : Py Result :=
  if lazy then .error .notImplemented
  else
    match ds.getLast? with
    | none => .error .nameError                                   -- width is not bound
    | some last =>
      if b = 0 then .error .zeroDivision
      else
        let nimages := (ds.map fun d => d.frames.length).sum
        let W := last.width / b
        let H := last.height / b
        match navShape nimages nav with
        | .error e => .error e
        | .ok (x, y) =>
          let dt := dtypeOf last.dtype dtype flat
          match process flat dt W H b ds with
          | .error e => .error e
          | .ok frames =>
            let s := scanScale pixelSize
            .ok ⟨(x, y, W, H), dt, frames,
              [⟨"x", s.1, s.2, x⟩, ⟨"y", s.1, s.2, y⟩, ⟨"qx", 1, "1", W⟩, ⟨"qy", 1, "1", H⟩]⟩

end Verif.Arina
