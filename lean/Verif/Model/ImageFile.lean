import Verif.Model.Rgb
import Mathlib.Data.Rat.Defs
/-!
Model of reading images: `rsciio/image/_api.py` lines 210-283 and `rsciio/utils/_image.py`.

External code and its assumed behaviour: `imageio.imread` gives the decoded array; the EXIF tags are
what Pillow gives, after naming (`_parse_exif_tags`); dask raises `TypeError` for a shape that is
itself delayed (its length is unknown). Numbers are exact. Writing is in `ImageWrite`. Not modelled:
the rest of the metadata.
-/
namespace Verif.ImageFile
open Verif.Rgb

/-- `np.squeeze`. -/
def squeeze (a : Reg) : Reg := ⟨a.dt, a.shape.filter (· ≠ 1), a.flat⟩

/-- `dc[:, :, c]` of an array with at least three dimensions. -/
def chan (a : Reg) (c : Nat) : Py Reg :=
  match a.shape with
  | h :: w :: k :: rest =>
    if c < k then
      let r := rest.foldr (· * ·) 1
      .ok ⟨a.dt, h :: w :: rest,
        (List.range (h * w)).flatMap fun p => (a.flat.drop ((p * k + c) * r)).take r⟩
    else .error .indexError
  | _ => .error .indexError

/-- `_read_data`, lines 270-283, for the decoded array. -/
def readData (img : Reg) : Py Array' := do
  let dc := squeeze img
  if dc.shape.length > 2 then
    let a ← chan dc 1
    let b ← chan dc 2
    -- line 275; both comparisons are between the same channels
    if a.flat = b.flat ∧ a.flat = b.flat then
      let d ← chan dc 0
      pure (.reg d)
    else
      let d ← regular2rgbx false dc
      pure (.rgb d)
  else pure (.reg dc)

/-- The EXIF tags that are used. -/
structure Exif where
  origins : Option (ℚ × ℚ)           -- FocalPlaneXYOrigins
  xRes : Option ℚ                    -- FocalPlaneXResolution
  yRes : Option ℚ                    -- FocalPlaneYResolution
  unit : Option Nat                  -- FocalPlaneResolutionUnit
  deriving DecidableEq

/-- `FocalPlaneResolutionUnit_mapping`, `_image.py` lines 32-39. -/
def unitOf : Option Nat → Py (Option String)
  | none => .ok none
  | some 1 => .ok none
  | some 2 => .ok (some "inches")
  | some 3 => .ok (some "cm")
  | some 4 => .ok (some "mm")
  | some 5 => .ok (some "µm")
  | _ => .error .keyError

/-- An axis, lines 60-67 of `_image.py`. -/
structure Axis where
  name : String
  units : Option String
  size : Nat
  scale : ℚ
  offset : ℚ
  index : Nat
  deriving DecidableEq

/-- `_parse_axes_from_metadata`, `_image.py` lines 42-71. A size of zero divides by zero. -/
def parseAxes (exif : Option Exif) (sizes : List Nat) : Py (List Axis) :=
  match sizes with
  | s0 :: s1 :: _ =>
    match (match exif with
      | none => .ok ((0, 0), (s1 : ℚ), (s0 : ℚ), none)
      | some e => (unitOf e.unit).map fun u =>
        (e.origins.getD (0, 0), e.xRes.getD s1, e.yRes.getD s0, u) :
        Py ((ℚ × ℚ) × ℚ × ℚ × Option String)) with
    | .error e => .error e
    | .ok (offsets, fovX, fovY, unit) =>
      if s0 = 0 ∨ s1 = 0 then .error .zeroDivision
      else .ok [⟨"y", unit, s0, fovY / s0, offsets.2, 1⟩, ⟨"x", unit, s1, fovX / s1, offsets.1, 0⟩]
  | _ => .error .indexError

/-- `.shape` of any array. -/
def shapeOf : Array' → List Nat
  | .reg a => a.shape
  | .rgb a => a.shape

/-- `file_reader`, lines 237-264. -/
def read (img : Reg) (exif : Option Exif) (lazy : Bool) : Py (Array' × List Axis) :=
  if lazy then .error .typeError                                  -- lines 237-244
  else do
    let dc ← readData img
    let axes ← parseAxes exif (shapeOf dc)
    pure (dc, axes)

end Verif.ImageFile
