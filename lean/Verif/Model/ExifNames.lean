import Verif.Py.Text
/-!
Model of the names of the EXIF tags of an image: `rsciio/utils/_image.py` lines 19-27 (`CustomTAGS`) and 74-102 (`_parse_exif_tags`).

The table of names of Pillow (`PIL.ExifTags.TAGS`) is a parameter, and so are the values of the tags. An image is modelled by the tags that
`_getexif` or `getexif` gives for it, each number once, in their order. The axes are made of the named tags in
`Verif.Model.ImageFile`.
-/
namespace Verif.ExifNames

/-- `CustomTAGS`, lines 21-27: the tags of Renishaw go before those of Pillow. -/
def nameOf (pillow : Nat → Option Text) (n : Nat) : Option Text :=
  if n = 0xFEA0 then some "FocalPlaneXYOrigins".toList
  else if n = 0xFEA1 then some "FieldOfViewXY".toList
  else if n = 0xFEA2 then some "Unknown".toList
  else pillow n

/-- Line 100: `CustomTAGS.get(k, "unknown")`. -/
def label (pillow : Nat → Option Text) (n : Nat) : Text := (nameOf pillow n).getD "unknown".toList

/-- `d[k] = v`. -/
def put {α : Type} (d : List (Text × α)) (k : Text) (v : α) : List (Text × α) :=
  if d.any fun e => decide (e.1 = k) then d.map fun e => if e.1 = k then (k, v) else e else d ++ [(k, v)]

/-- Line 100: the dictionary with names. -/
def named {α : Type} (pillow : Nat → Option Text) (l : List (Nat × α)) : List (Text × α) :=
  l.foldl (fun d e => put d (label pillow e.1) e.2) []

/-- `_parse_exif_tags`, lines 74-102. `full`: what `_getexif` gives, if the format has it (`some none`: there are no tags); `flat`: what
`getexif` gives. -/
def parse {α : Type} (pillow : Nat → Option Text) (full : Option (Option (List (Nat × α)))) (flat : List (Nat × α)) :
    Option (List (Text × α)) :=
  match full with
  | some none => none
  | some (some l) => some (named pillow l)
  | none => some (named pillow flat)

end Verif.ExifNames
