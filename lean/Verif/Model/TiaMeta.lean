import Verif.Py.Assoc
import Verif.Py.Text
import Mathlib.Data.Rat.Defs
/-!
Model of the metadata of `.emi` files in `rsciio/tia/_api.py`: `emixml2dtb`, `parse_ExperimentalDescription`,
`parse_TrueImageHeaderInfo`, `_guess_units_from_mode` and the mapping.

An element is what the XML parser gives. External code as parameters: `float` of a text, and whether a text is XML.
A box is a dictionary; keys with dots or brackets, which `Box` splits, are left out, and an empty label is the empty
text. The mapping is applied by HyperSpy, for which blanks in names are underscores. `findall` with bytes as a name finds nothing, as names are texts. A `ParseError` is a `valueError`. Warnings
and logging are left out.
-/
namespace Verif.TiaMeta

/-- An element of XML. -/
inductive Elem | mk (tag : Text) (text : Option Text) (kids : List Elem)

def Elem.tag : Elem → Text
  | .mk t _ _ => t

def Elem.text : Elem → Option Text
  | .mk _ t _ => t

def Elem.kids : Elem → List Elem
  | .mk _ _ k => k

/-- A value of a box. -/
inductive Val | none | text (t : Text) | num (q : ℚ) | box (d : List (Text × Val))

abbrev Box := List (Text × Val)

/-! ### From XML to boxes -/

/-- `et.find(name)`. -/
def find (name : String) (kids : List Elem) : Option Elem := kids.find? fun e => decide (e.tag = name.toList)

/-- `et.find(name).text`. -/
def findText (name : String) (kids : List Elem) : Py (Option Text) :=
  match find name kids with
  | some e => .ok e.text
  | none => .error .attributeError

/-- A text that is neither `None` nor empty. -/
def truthy : Option Text → Option Text
  | some (c :: t) => some (c :: t)
  | _ => none

/-- Line 211. -/
def itemOf (label units : Option Text) : Py Text :=
  match truthy units, label with
  | none, l => .ok (l.getD [])
  | some u, some l => .ok (l ++ '_' :: u)
  | some _, none => .error .typeError

/-- Lines 212-218. -/
def valueOf (float : Text → Option ℚ) (value units : Option Text) : Py Val :=
  match truthy units, value with
  | none, some v => .ok (.text v)
  | none, none => .ok .none
  | some _, none => .error .typeError
  | some _, some v => match float v with
    | some q => .ok (.num q)
    | none => .ok (.text v)

/-- Lines 208-219, for one entry. -/
def dataEntry (float : Text → Option ℚ) (e : Elem) (d : Box) : Py Box := do
  let label ← findText "Label" e.kids
  let value ← findText "Value" e.kids
  let units ← findText "Unit" e.kids
  let item ← itemOf label units
  let v ← valueOf float value units
  return setKw item v d

/-- `add_node(tag)` and `[tag]`, lines 205-206, 223-224 and 243: a value that is there is kept. -/
def node (tag : Text) (d : Box) : Val :=
  match getKw tag d with
  | some .none => .box []
  | none => .box []
  | some v => v

/-- Line 207: the entries. -/
def entries (kids : List Elem) : Py (List Elem) :=
  match find "Root" kids with
  | some r => .ok (r.kids.filter fun e => decide (e.tag = "Data".toList))
  | none => .error .attributeError

/-- `parse_ExperimentalDescription`, lines 204-219. In a text nothing can be set. -/
def experiment (float : Text → Option ℚ) (e : Elem) (d : Box) : Py Box := do
  let es ← entries e.kids
  match node e.tag d with
  | .box b => do
    let b ← es.foldlM (fun b x => dataEntry float x b) b
    return setKw e.tag (.box b) d
  | v => if es = [] then return setKw e.tag v d else throw .typeError

/-- `parse_TrueImageHeaderInfo`, lines 222-227: the names are bytes, and no entry is found. -/
def trueImage (xml : Text → Bool) (e : Elem) (d : Box) : Py Box :=
  match e.text with
  | none => .error .typeError
  | some t => if xml t then .ok (setKw e.tag (node e.tag d) d) else .error .valueError

mutual
/-- `emixml2dtb`, lines 230-243. -/
def fromXml (float : Text → Option ℚ) (xml : Text → Bool) : Elem → Box → Py Box
  | .mk tag text kids, d =>
    if tag = "ExperimentalDescription".toList then experiment float (.mk tag text kids) d
    else if tag = "TrueImageHeaderInfo".toList then trueImage xml (.mk tag text kids) d
    else match truthy text with
      | some t => .ok (setKw tag (.text t) d)
      | none => match node tag d, kids with
        | v, [] => .ok (setKw tag v d)
        | .box b, k :: ks => match fromAll float xml (k :: ks) b with
          | .ok b => .ok (setKw tag (.box b) d)
          | .error e => .error e
        | _, _ :: _ => .error .typeError
/-- The children, lines 242-243. -/
def fromAll (float : Text → Option ℚ) (xml : Text → Bool) : List Elem → Box → Py Box
  | [], b => .ok b
  | e :: l, b => match fromXml float xml e b with
    | .ok b => fromAll float xml l b
    | .error x => .error x
end

/-! ### Units of images -/

/-- `box.name`. -/
def attr (name : String) : Val → Option Val
  | .box d => getKw name.toList d
  | _ => none

/-- `text in mode`. -/
def within (pat t : Text) : Bool := decide (pat <:+: t)

/-- Lines 746-752: mode and whether there is a camera; `none` for an `AttributeError`. -/
def modeOf (o : Val) : Option (Val × Bool) := do
  let info ← attr "ObjectInfo" o
  let e ← attr "ExperimentalDescription" info
  let mode ← attr "Mode" e
  let a ← attr "AcquireInfo" info
  match a with
  | .box d => some (mode, (getKw "CameraNamePath".toList d).isSome)
  | _ => none

/-- `in mode` for a value. -/
def modeHas (pat : String) : Val → Py Bool
  | .text t => .ok (within pat.toList t)
  | .box d => .ok (getKw pat.toList d).isSome
  | _ => .error .typeError

/-- `_guess_units_from_mode`, lines 739-779: whether the units are `1/meters`, else they are `meters`. `dim`: length of
the units and size of the first dimension, if there is one. -/
def reciprocal (o : Val) (dim : Option (Nat × Nat)) : Py Bool :=
  match modeOf o, dim with
  | some (mode, camera), some (unitsLength, size) => do
    let scan := decide (size > 1) && decide (unitsLength ≠ 0)
    if ← modeHas "STEM" mode then return camera || scan
    else modeHas "Diffraction" mode
  | _, _ => .ok false

/-! ### Mapping -/

/-- `_get_simplified_mode`, lines 782-786. -/
def simplified (v : Val) : Py Val := do
  if ← modeHas "STEM" v then return .text "STEM".toList else return .text "TEM".toList

/-- `value.replace("Microscope ", "")`, lines 794-795; `n`: the length is enough. -/
def dropName : Nat → Text → Text
  | 0, t => t
  | n + 1, t =>
    if "Microscope ".toList.isPrefixOf t then dropName n (t.drop 11)
    else match t with
      | [] => []
      | c :: r => c :: dropName n r

/-- `_get_microscope_name`. -/
def microscope : Val → Py Val
  | .text t => .ok (.text (dropName t.length t))
  | _ => .error .attributeError

/-- `lambda x: x * f`; a text times a `float` is an error. -/
def times (f : ℚ) : Val → Py Val
  | .num q => .ok (.num (q * f))
  | _ => .error .typeError

/-- `mapping`, lines 798-851: section and name in the file, path in the metadata, function. -/
def mapping : List ((String × String) × String × (Val → Py Val)) :=
  [(("ExperimentalDescription", "High_tension_kV"), "Acquisition_instrument.TEM.beam_energy", .ok),
   (("ExperimentalDescription", "Microscope"), "Acquisition_instrument.TEM.microscope", microscope),
   (("ExperimentalDescription", "Mode"), "Acquisition_instrument.TEM.acquisition_mode", simplified),
   (("ExperimentalDescription", "Camera length_m"), "Acquisition_instrument.TEM.camera_length", times 1000),
   (("ExperimentalDescription", "Magnification_x"), "Acquisition_instrument.TEM.magnification", .ok),
   (("AcquireInfo", "CameraNamePath"), "Acquisition_instrument.TEM.Detector.Camera.Name", .ok),
   (("AcquireInfo", "DwellTimePath"), "Acquisition_instrument.TEM.Detector.Camera.exposure", .ok),
   (("ExperimentalDescription", "Stage_A_deg"), "Acquisition_instrument.TEM.Stage.tilt_alpha", .ok),
   (("ExperimentalDescription", "Stage_B_deg"), "Acquisition_instrument.TEM.Stage.tilt_beta", .ok),
   (("ExperimentalDescription", "Stage_X_um"), "Acquisition_instrument.TEM.Stage.x", times (1 / 1000)),
   (("ExperimentalDescription", "Stage_Y_um"), "Acquisition_instrument.TEM.Stage.y", times (1 / 1000)),
   (("ExperimentalDescription", "Stage_Z_um"), "Acquisition_instrument.TEM.Stage.z", times (1 / 1000)),
   (("ExperimentalDescription", "User"), "General.authors", .ok)]

/-- Blanks as underscores. -/
def slug (t : Text) : Text := t.map fun c => if c = ' ' then '_' else c

/-- `box.name`, with blanks as underscores. -/
def attrSlug (name : String) : Val → Option Val
  | .box d => getKw (slug name.toList) (d.map fun e => (slug e.1, e.2))
  | _ => none

/-- The value for the mapping, in the box of the file. -/
def source (o : Val) (k : String × String) : Option Val := do
  let info ← attr "ObjectInfo" o
  let s ← attr k.1 info
  attrSlug k.2 s

/-- The mapped metadata: values that are there, at their paths. -/
def mapped (o : Val) : List ((String × String) × String × (Val → Py Val)) → Py (List (Text × Val))
  | [] => .ok []
  | (k, p, f) :: l => match source o k with
    | none => mapped o l
    | some v => do
      let x ← f v
      let r ← mapped o l
      return (p.toList, x) :: r

/-- Metadata of an object of a `.emi` file, lines 499-502 and 798-851. -/
def metadata (float : Text → Option ℚ) (xml : Text → Bool) (e : Elem) : Py (List (Text × Val)) := do
  let d ← fromXml float xml e []
  mapped (.box d) mapping

end Verif.TiaMeta
