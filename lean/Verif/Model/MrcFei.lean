import Verif.Model.MrcFile
import Verif.Model.HeaderArray
/-!
Model of the extended header of FEI in `rsciio/mrc/_api.py`: `get_fei_dtype_list` (lines 225-249), the records that are read (lines 579-587),
the part `fei_header` of the original metadata (lines 620-625) and `mapping` (lines 711-722).

Numbers are the exact values of their single-precision patterns. `mapping` is applied by HyperSpy. The size of the extended header is given, as in
`MrcFile.header`. A file that ends within the records leaves the position before the end of the extended header.
-/
namespace Verif.MrcFei
open Verif.MrcFile Verif.HeaderArray

/-- `get_fei_dtype_list`, lines 227-247: names and bytes of the fields of a record. -/
def layout : List (String × Nat) :=
  [("a_tilt", 4), ("b_tilt", 4), ("x_stage", 4), ("y_stage", 4), ("z_stage", 4), ("x_shift", 4), ("y_shift", 4), ("defocus", 4), ("exp_time", 4),
   ("mean_int", 4), ("tilt_axis", 4), ("pixel_size", 4), ("magnification", 4), ("empty", 128 - 13 * 4)]

/-- Bytes of a record. -/
def recordSize : Nat := (layout.map Prod.snd).sum

/-- The fields with their positions in a record. -/
def placed : List (String × Nat) → Nat → List (String × Nat)
  | [], _ => []
  | (n, w) :: l, p => (n, p) :: placed l (p + w)

/-- `np.fromfile(f, dtype=…, count=1024)`, line 582: the number of records. -/
def recordCount (b : List UInt8) : Nat := min 1024 ((b.length - 1024) / recordSize)

/-- A column of the array of records. -/
def columnOf (big : Bool) (b : List UInt8) (n p : Nat) : List Rat := (List.range n).map fun k => f4 big b (1024 + recordSize * k + p)

/-- Lines 579-587 and 620-625: the entries of `fei_header`, none if there is no such header. -/
def feiHeader (big : Bool) (b : List UInt8) (next : Nat) : Option (List (String × Entry Rat)) :=
  if next = 128 * 1024 then
    if 1024 + recordSize * recordCount b = 1024 + next then
      some (((placed layout 0).filter fun e => e.1 ≠ "empty").map fun e => (e.1, entryOf (columnOf big b (recordCount b) e.2)))
    else none
  else none

/-- `mapping`, lines 711-722. -/
def mapping : List (String × String) :=
  [("a_tilt", "Acquisition_instrument.TEM.Stage.tilt_alpha"), ("b_tilt", "Acquisition_instrument.TEM.Stage.tilt_beta"),
   ("x_stage", "Acquisition_instrument.TEM.Stage.x"), ("y_stage", "Acquisition_instrument.TEM.Stage.y"), ("z_stage", "Acquisition_instrument.TEM.Stage.z"),
   ("exp_time", "Acquisition_instrument.TEM.Detector.Camera.exposure"), ("magnification", "Acquisition_instrument.TEM.magnification")]

/-- The metadata that come from the extended header. -/
def metadata (big : Bool) (b : List UInt8) (next : Nat) : List (String × Entry Rat) :=
  match feiHeader big b next with
  | none => []
  | some d => mapping.filterMap fun m => (d.find? fun e => e.1 = m.1).map fun e => (m.2, e.2)

end Verif.MrcFei
