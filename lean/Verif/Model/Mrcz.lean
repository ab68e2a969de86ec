import Verif.Model.Distributed
import Mathlib.Data.Rat.Defs
/-!
Model of `rsciio/mrcz/_api.py`.

External code and its assumed behaviour: the `mrcz` library stores the array, the pixel sizes, the
voltage, C3, the gain and the entries of the metadata; reading with `pixelunits="nm"` gives them back
in a dictionary with its own fields (`_POP_FROM_HEADER`) and the entries of the metadata, if the
pixel sizes were given in nm (other units are not modelled). Values of the metadata are opaque
(`Val`). Not modelled: compression, byte order, asynchronous writing, and that mrcz before 0.5 wraps
values in lists.
-/
namespace Verif.Mrcz
open Verif.Distributed

/-- A value of the header or the metadata: a number, the three pixel sizes, a text, or anything else
(numbered). -/
inductive Val | num (x : ℚ) | sizes (l : List ℚ) | str (s : String) | none | other (n : Nat)
  deriving DecidableEq

/-- `_POP_FROM_HEADER`, lines 38-54. -/
def popFromHeader : List String :=
  ["compressor", "MRCtype", "C3", "dimensions", "dtype", "extendedBytes", "gain", "maxImage",
   "minImage", "meanImage", "metaId", "packedBytes", "pixelsize", "pixelunits", "voltage"]

/-- An axis of a signal. -/
structure Axis where
  size : Nat
  index : Nat
  name : String
  scale : ℚ
  offset : ℚ
  units : String
  navigate : Bool
  deriving DecidableEq

/-- What `_mrcz.writeMRC` is called with (lines 223-253). -/
structure Call (α : Type) where
  data : Arr α
  metadata : List (String × Val)
  pixelsize : List ℚ
  pixelunits : String
  voltage : Val
  c3 : ℚ
  gain : Val

/-- `file_writer`, lines 210-253. `beamEnergy` and `gainFactor` are the entries of the metadata under
`Acquisition_instrument.TEM.beam_energy` and
`Signal.Noise_properties.Variance_linear_model.gain_factor`. -/
def write {α : Type} (data : Arr α) (axes : List Axis) (metadata : List (String × Val))
    (beamEnergy gainFactor : Option Val) : Py (Call α) :=
  match axes.getLast? with
  | none => .error .indexError
  | some last =>
    match axes[0]?, axes[1]?, axes[2]? with                       -- `_WRITE_ORDER`, line 57
    | some a, some b, some c =>
      .ok ⟨data, metadata, [a.scale, b.scale, c.scale], last.units, beamEnergy.getD .none, 0,
        gainFactor.getD (.num 1)⟩
    | _, _, _ => .error .indexError

/-- The header that the library returns for a file written with the given call (external). -/
def header {α : Type} (c : Call α) : List (String × Val) :=
  [("compressor", .other 0), ("MRCtype", .other 1), ("C3", .num c.c3), ("dimensions", .other 2),
   ("dtype", .other 3), ("extendedBytes", .other 4), ("gain", c.gain), ("maxImage", .other 5),
   ("minImage", .other 6), ("meanImage", .other 7), ("metaId", .other 8), ("packedBytes", .other 9),
   ("pixelsize", .sizes c.pixelsize), ("pixelunits", .str c.pixelunits), ("voltage", c.voltage)] ++
  c.metadata

/-- What `file_reader` returns, without the mapping. -/
structure Result (α : Type) where
  data : Arr α
  axes : List Axis
  metadata : List (String × Val)

/-- `dict.pop(key)`. -/
def pop (d : List (String × Val)) (key : String) : Py (List (String × Val)) :=
  if d.lookup key = none then .error .keyError else .ok (d.filter fun kv => kv.1 ≠ key)

/-- The loop of lines 132-133. -/
def popAll : List String → List (String × Val) → Py (List (String × Val))
  | [], d => .ok d
  | k :: ks, d =>
    match pop d k with
    | .error e => .error e
    | .ok d' => popAll ks d'

/-- One axis, lines 117-125. -/
def axisOf (shape : List Nat) (sizes : List ℚ) (units : String) (hsIndex : Nat) (name : String)
    (nav : Bool) : Py Axis :=
  match shape[hsIndex]?, sizes[hsIndex]? with
  | some n, some s => .ok ⟨n, hsIndex, name, s, 0, units, nav⟩
  | _, _ => .error .indexError

/-- `file_reader`, lines 101-145, for the array and the header that the library returns. -/
def read {α : Type} (mmapMode : String) (data : Arr α) (h : List (String × Val)) : Py (Result α) :=
  if mmapMode ≠ "c" then .error .valueError
  else
    match h.lookup "pixelsize", h.lookup "pixelunits" with
    | some (.sizes sizes), some (.str units) => do
      let y ← axisOf data.shape sizes units 1 "y" false           -- `_READ_ORDER`, line 56
      let x ← axisOf data.shape sizes units 2 "x" false
      let z ← axisOf data.shape sizes units 0 "z" true
      let metadata ← popAll popFromHeader h
      pure ⟨data, [z, y, x], metadata⟩                            -- line 128
    | none, _ => .error .keyError
    | _, none => .error .keyError
    | _, _ => .error .typeError

end Verif.Mrcz
