import Verif.Model.Distributed
import Mathlib.Data.Rat.Defs
/-!
Model of `rsciio/netcdf/_api.py` (files of EELSLab, the predecessor of HyperSpy).

The netCDF library gives the attributes of the file, its variables, their shapes and values.
`eval("dc." + name)` after `hasattr` is the attribute. Not modelled: the log messages, and
`original_metadata` apart from the three dictionaries and `record_by`; `"history" in
calibration_dict` (line 122) is always false.
-/
namespace Verif.Netcdf
open Verif.Distributed

/-- A number or a text. -/
inductive Val | num (x : ℚ) | str (s : String)
  deriving DecidableEq

/-- An attribute of a variable: a single value or an array. -/
inductive Attr | one (v : Val) | array (l : List Val)
  deriving DecidableEq

/-- A variable of the file. -/
structure Var (α : Type) where
  shape : List Nat
  val : List Nat → α
  attrs : List (String × Attr)

/-- A netCDF file: the attributes `file_format_version` and `type`, and the variables. -/
structure File (α : Type) where
  version : Option String
  type : Option String
  vars : List (String × Var α)

/-- `attrib2netcdf`, lines 42-61. -/
def attrib2netcdf : List (String × String) :=
  [("energyorigin", "energy_origin"), ("energyscale", "energy_scale"),
   ("energyunits", "energy_units"), ("xorigin", "x_origin"), ("xscale", "x_scale"),
   ("xunits", "x_units"), ("yorigin", "y_origin"), ("yscale", "y_scale"), ("yunits", "y_units"),
   ("zorigin", "z_origin"), ("zscale", "z_scale"), ("zunits", "z_units"),
   ("exposure", "exposure"), ("title", "title"), ("binning", "binning"),
   ("readout_frequency", "readout_frequency"), ("ccd_height", "ccd_height"),
   ("blanking", "blanking")]

/-- `acquisition2netcdf`, lines 63-71. -/
def acquisition2netcdf : List (String × String) :=
  [("exposure", "exposure"), ("binning", "binning"), ("readout_frequency", "readout_frequency"),
   ("ccd_height", "ccd_height"), ("blanking", "blanking"), ("gain", "gain"), ("pppc", "pppc")]

/-- `treatments2netcdf`, lines 73-76. -/
def treatments2netcdf : List (String × String) :=
  [("dark_current", "dark_current"), ("readout", "readout")]

/-- Lines 127-130 and 140-143: the first element of an array, anything else as it is. -/
def scalar : Attr → Py Val
  | .one v => .ok v
  | .array [] => .error .indexError
  | .array (v :: _) => .ok v

/-- The loops of lines 124-136 and 137-149 over a table of names. -/
def collect (attrs : List (String × Attr)) : List (String × String) → Py (List (String × Val))
  | [] => .ok []
  | (key, name) :: rest =>
    match attrs.lookup name with
    | none => collect attrs rest
    | some a =>
      match scalar a, collect attrs rest with
      | .ok v, .ok d => .ok ((key, v) :: d)
      | .error e, _ => .error e
      | _, .error e => .error e

/-- The loop of lines 150-158: attributes as they are. -/
def collectRaw (attrs : List (String × Attr)) (table : List (String × String)) :
    List (String × Attr) :=
  table.filterMap fun kn => (attrs.lookup kn.2).map fun a => (kn.1, a)

/-- `list[k:]` for any integer. -/
def sliceFrom {β : Type} (l : List β) (k : Int) : List β :=
  if 0 ≤ k then l.drop k.toNat else l.drop (l.length - (-k).toNat)

/-- Lines 186-197: `[calibration_dict[key] for key in keys]`, and the default when a key is
missing. -/
def values (calibration : List (String × Val)) (keys : List String) (default : List Val) : List Val :=
  (keys.mapM fun k => calibration.lookup k).getD default

/-- An axis, lines 199-207. -/
structure Axis where
  size : Nat
  index : Nat
  name : String
  scale : Val
  offset : Val
  units : Val
  navigate : Bool
  deriving DecidableEq

/-- Names and keys by kind of data, lines 168-182. -/
structure Keys where
  names : List String
  scales : List String
  origins : List String
  units : List String
  navigate : List Bool

/-- Lines 168-182; the slices are taken in `axesOf`. -/
def keysOf (image : Bool) : Keys :=
  if image then
    ⟨["Z", "Y", "X"], ["zscale", "yscale", "xscale"], ["zorigin", "yorigin", "xorigin"],
      ["zunits", "yunits", "xunits"], [true, false, false]⟩
  else
    ⟨["Y", "X", "Energy"], ["yscale", "xscale", "energyscale"],
      ["yorigin", "xorigin", "energyorigin"], ["yunits", "xunits", "energyunits"],
      [true, true, false]⟩

/-- One entry of the list of axes, lines 198-209; any of the lists may be too short. -/
def axisAt (shape : List Nat) (names : List String) (scales origins units : List Val)
    (navigate : List Bool) (i : Nat) : Py Axis :=
  match shape[i]?, names[i]?, scales[i]?, origins[i]?, units[i]?, navigate[i]? with
  | some n, some nm, some s, some o, some u, some nav => .ok ⟨n, i, nm, s, o, u, nav⟩
  | _, _, _, _, _, _ => .error .indexError

/-- The list of axes, lines 185-209, for the shape of the transposed data. -/
def axesOf (image : Bool) (calibration : List (String × Val)) (shape : List Nat) : Py (List Axis) :=
  let k := keysOf image
  let cut : Int := 3 - shape.length
  let names := sliceFrom k.names cut
  let scales := values calibration (sliceFrom k.scales cut)
    (sliceFrom [.num 1, .num 1, .num 1] cut)
  let origins := values calibration (sliceFrom k.origins cut)
    (sliceFrom [.num 0, .num 0, .num 0] cut)
  let units := values calibration (sliceFrom k.units cut) [.str "", .str "", .str ""]
  (List.range shape.length).mapM (axisAt shape names scales origins units k.navigate)

/-- What the reader returns. -/
structure Result (α : Type) where
  data : Arr α
  axes : List Axis
  recordBy : String
  calibration : List (String × Val)
  acquisition : List (String × Val)
  treatments : List (String × Attr)

/-- `nc_hyperspy_reader_0dot1`, lines 118-220. -/
def readVar {α : Type} (dc : Var α) (type : Option String) : Py (Result α) := do
  let calibration ← collect dc.attrs attrib2netcdf
  let acquisition ← collect dc.attrs acquisition2netcdf
  let treatments := collectRaw dc.attrs treatments2netcdf
  match type with
  | none => .error .attributeError                                -- line 160
  | some t =>
    let shape := dc.shape.reverse                                 -- line 185
    let axes ← axesOf (t == "image") calibration shape
    pure ⟨⟨shape, fun idx => dc.val idx.reverse⟩, axes, t, calibration, acquisition, treatments⟩

/-- `file_reader`, lines 98-112. -/
def read {α : Type} (f : File α) (lazy : Bool) : Py (Result α) :=
  if lazy then .error .notImplemented
  else if f.version = some "EELSLab 0.1" then
    match f.vars.lookup "data_cube" with
    | none => .error .keyError
    | some dc => readVar dc f.type
  else .error .ioError

end Verif.Netcdf
