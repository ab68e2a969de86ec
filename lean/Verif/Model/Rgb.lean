import Verif.Py.Basic
/-!
Model of `rsciio/utils/rgb.py`.

An array is its shape and its elements in C order; making it contiguous (lines 129-133,
167-171) does not change either. Not modelled: `plot_friendly=True` (lines 142-144, floats).
-/
namespace Verif.Rgb

/-- Scalar dtypes: `uint8`, `uint16` (native byte order) and anything else. -/
inductive Scalar | u1 | u2 | other
  deriving DecidableEq

/-- A regular array. -/
structure Reg where
  dt : Scalar
  shape : List Nat
  flat : List Nat
  deriving DecidableEq

/-- An array with one of the dtypes of lines 40-45; `alpha` tells whether there is a field `A`.
`px` holds one list of channel values per pixel. -/
structure RgbArr where
  wide : Bool                 -- False: u1, True: u2
  alpha : Bool
  shape : List Nat
  px : List (List Nat)
  deriving DecidableEq

/-- Any array. -/
inductive Array' | reg (a : Reg) | rgb (a : RgbArr)
  deriving DecidableEq

/-- `is_rgba`, lines 67-74. -/
def isRgba : Array' → Bool
  | .rgb a => a.alpha
  | .reg _ => false

/-- `is_rgb`, lines 80-87. -/
def isRgb : Array' → Bool
  | .rgb a => !a.alpha
  | .reg _ => false

/-- `is_rgbx`, lines 93-100. -/
def isRgbx (a : Array') : Bool := isRgb a || isRgba a

/-- The dtype of the field `B` (lines 135, 138). -/
def fieldDt (wide : Bool) : Scalar := if wide then .u2 else .u1

/-- `rgbx2regular_array`, lines 125-145 with `plot_friendly=False`. `data.view((dt, k))` appends
an axis of length `k` holding the bytes of each pixel in order. -/
def rgbx2regular : Array' → Array'
  | .rgb a =>
    if a.alpha then .reg ⟨fieldDt a.wide, a.shape ++ [4], a.px.flatten⟩
    else .reg ⟨fieldDt a.wide, a.shape ++ [3], a.px.flatten⟩
  | .reg a => .reg a

/-- The elements in groups of `k`: the memory of `n` records of `k` fields. -/
def groups (k n : Nat) (flat : List Nat) : List (List Nat) :=
  (List.range n).map fun i => (flat.drop (i * k)).take k

/-- `regular_array2rgbx`, lines 166-184. A dask array has no attribute `flags` (line 167). -/
def regular2rgbx (lazy : Bool) (a : Reg) : Py RgbArr :=
  if lazy then .error .attributeError
  else
    match a.shape.getLast? with
    | none => .error .indexError                                  -- shape[-1] of a 0-d array
    | some k =>
      if k ≠ 3 ∧ k ≠ 4 then .error .valueError                    -- line 177
      else
        let n := a.shape.dropLast.foldr (· * ·) 1
        match a.dt with
        | .other => .error .valueError                            -- line 181
        | .u1 => .ok ⟨false, k = 4, a.shape.dropLast, groups k n a.flat⟩
        | .u2 => .ok ⟨true, k = 4, a.shape.dropLast, groups k n a.flat⟩

end Verif.Rgb
