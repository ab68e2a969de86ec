import Verif.Py.Basic
import Verif.Py.Bytes
import Verif.Py.Text
import Verif.Py.Dec
import Verif.Py.Ravel
/-!
Model of the images of a Digital Micrograph file, `rsciio/digitalmicrograph/_api.py`
(`get_image_dictionaries`, `ImageObject`, `file_reader`, lines 425-1348).

The tag tree has been parsed (`Model/DigitalMicrograph.lean`); the entries of an image that the code
uses are gathered in `Im`. Calibrations are rational numbers: the rounding of the product
`-origin * scale` is left out. Stored numbers are the bit patterns of their data type; the computer is
little-endian. The unpacking of packed complex images is in `Model/DMImage.lean`: here the numbers handed
to it are given. Image tags are named `TagGroup0`, `TagGroup1`, …; other names raise an error, as in
Python, except names with `TagGroup` elsewhere than at the start, which are left out. The table of metadata sources
(`get_mapping`) is modelled as far as the functions it calls; the table itself is left out, and so are dates.
-/
namespace Verif.DMSignal

/-- An entry of `ImageData.Calibrations.Dimension`; no units: an empty list or text. -/
structure Cal where
  origin : Rat
  scale : Rat
  units : Text
deriving DecidableEq

/-- The entries of an image used by `ImageObject`. -/
structure Im where
  /-- `Name`, empty when absent or an empty list. -/
  name : Text
  /-- `ImageData.Dimensions`, in the order of the file: X, Y, Z, … -/
  dims : List Nat
  cals : List Cal
  dataType : Nat
  /-- `ImageData.Data`: number of values, position in the file and byte order. -/
  count : Nat
  offset : Nat
  big : Bool
  /-- `ImageTags.Meta Data.Format` and `Signal`. -/
  format : Option Text
  signal : Option Text
  /-- Is there `ImageTags.spim`, `ImageTags.spim.eels`, `ImageTags.Acquisition.Monarc Spectrometer`? -/
  spim : Bool
  spimEels : Bool
  monarc : Bool
deriving DecidableEq

/-- `ImageObject.shape`, lines 456-460. -/
def shape (im : Im) : List Nat := im.dims.reverse

/-- The calibrations with the dummy values for missing dimensions, in the order of `shape`, lines
470-500. A negative `len_diff` appends nothing. -/
def padded (im : Im) : List Cal :=
  (im.cals ++ List.replicate ((shape im).length - im.cals.length) (Cal.mk 0 1 [])).reverse

/-- `ImageObject.scales`, lines 478-484. -/
def scales (im : Im) : List Rat := (padded im).map (·.scale)

/-- `ImageObject.offsets`, lines 470-476. -/
def offsets (im : Im) : List Rat := (padded im).map fun c => -1 * c.origin * c.scale

/-- `ImageObject.units`, lines 486-498. -/
def units (im : Im) : List Text := (padded im).map (·.units)

/-- `ImageObject.signal_type`, lines 604-619. -/
def signalType (im : Im) : Text :=
  let md := im.signal.getD []
  if md = "X-ray".toList then "EDS_TEM".toList
  else if md = "CL".toList ∨ im.monarc = true then "CL".toList
  else if md = "EELS".toList ∨ im.spimEels = true then "EELS".toList
  else []

/-- Position of the first equal entry, `units.index(u)`. -/
def indexOf (u : Text) : List Text → Option Nat
  | [] => none
  | v :: vs => if v = u then some 0 else (indexOf u vs).map (· + 1)

/-- `zip(indices[::-1], ("x", "y", "z"))` written into the names, lines 516-517. -/
def setNames (indices : List Nat) (names : List (Option Text)) : List (Option Text) :=
  (indices.reverse.zip ["x".toList, "y".toList, "z".toList]).foldl
    (fun ns p => ns.set p.1 (some p.2)) names

/-- The axis named for the kind of signal: its units and its name, lines 505-515. -/
def special (kind : Text) : Option (Text × Text) :=
  if kind = "EELS".toList then some ("eV".toList, "Energy loss".toList)
  else if kind = "EDS".toList ∨ kind = "EDX".toList then some ("keV".toList, "Energy".toList)
  else if kind = "CL".toList then some ("nm".toList, "Wavelength".toList)
  else none

/-- Names once the position of the special axis is known, lines 505-518. `indices.pop(i)` raises an error when
the units are more than the dimensions. -/
def namesAt (n : Nat) : Option (Nat × Text) → Py (List (Option Text))
  | none => .ok (setNames (List.range n) (List.replicate n none))
  | some (i, name) =>
    if i < n then
      .ok (setNames ((List.range n).eraseIdx i) ((List.replicate n none).set i (some name)))
    else .error .indexError

/-- `ImageObject.names`, lines 500-518. -/
def names (im : Im) : Py (List (Option Text)) :=
  namesAt (shape im).length
    ((special (signalType im)).bind fun (u, name) => (indexOf u (units im)).map fun i => (i, name))

/-- A spectrum image or spectrum by its format or by Orsay's tags, lines 532-539. -/
def isSpectrum (im : Im) : Bool :=
  (im.format = some "Spectrum image".toList ∨ im.format = some "Spectrum".toList) ∨ im.spim = true

/-- `ImageObject.navigate`, lines 528-545. -/
def navigate (im : Im) : Py (List Bool) :=
  let result := List.replicate (shape im).length true
  if (scales im).length = 1 ∨ (isSpectrum im = true ∧ (scales im).length = 2) then
    if result = [] then .error .indexError else .ok (result.dropLast ++ [false])
  else .ok (result.take (result.length - 2) ++ [false, false])

/-- `ImageObject.to_spectrum`, lines 547-559. -/
def toSpectrum (im : Im) : Bool :=
  (im.format = some "Spectrum image".toList ∨ im.spim = true) ∧ 2 < (scales im).length

/-- `ImageObject.dtype`, lines 572-602: the size of a stored value. Data type 0 has a name numpy does not
know. -/
def itemSize : Nat → Py Nat
  | 4 => .error .notImplemented
  | 0 => .error .typeError
  | 1 => .ok 2
  | 2 => .ok 4
  | 3 => .ok 8
  | 5 => .ok 4
  | 6 => .ok 1
  | 7 => .ok 4
  | 8 => .ok 4
  | 9 => .ok 1
  | 10 => .ok 2
  | 11 => .ok 4
  | 12 => .ok 8
  | 13 => .ok 16
  | 14 => .ok 1
  | 23 => .ok 4
  | 27 => .ok 8
  | 28 => .ok 16
  | _ => .error .keyError

/-- `np.fromfile(file, dtype, count)`: whole values until the count or the end of the file. -/
def fromFile (w : Nat) : Nat → List UInt8 → List (List UInt8)
  | 0, _ => []
  | n + 1, bs => if bs.length < w then [] else bs.take w :: fromFile w n (bs.drop w)

/-- The fields `B, G, R, A` reordered to `R, G, B, A`, lines 667-672. -/
def reorder : List UInt8 → List UInt8
  | [b, g, r, a] => [r, g, b, a]
  | bs => bs

def isPacked (t : Nat) : Bool := t == 27 || t == 28

def isRgb (t : Nat) : Bool := t == 8 || t == 23

/-- The data of an image: an array of bit patterns, or the numbers that are unpacked to a complex image. -/
inductive Data where
  | array (shape : List Nat) (at_ : List Nat → Option Nat)
  | packed (values : List Nat)

/-- Position in the stored values of an index in C or Fortran order, `reshape(shape, order=order)`. -/
def position (fortran : Bool) (shape idx : List Nat) : Nat :=
  if fortran then flatIndex shape.reverse idx.reverse else flatIndex shape idx

/-- The array over stored values, `data.reshape(self.shape, order=self.order)`, lines 673-674. -/
def arrayOf (fortran : Bool) (shape : List Nat) (vals : List (List UInt8)) : Data :=
  .array shape fun idx => (vals[position fortran shape idx]?).map leVal

/-- The stored values, eagerly, lines 651-662. -/
def readValues (im : Im) (w : Nat) (file : List UInt8) : List (List UInt8) :=
  fromFile w (if isPacked im.dataType then im.count / 2 else im.count) (file.drop im.offset)

/-- What is done with the values, lines 664-674. The unpacking checks the number of values itself. -/
def finish (im : Im) (fortran : Bool) (vals : List (List UInt8)) : Py Data :=
  if isPacked im.dataType || im.dataType == 5 then .ok (.packed (vals.map leVal))
  else if vals.length = size (shape im) then
    .ok (arrayOf fortran (shape im) (if isRgb im.dataType then vals.map reorder else vals))
  else .error .valueError

/-- `ImageObject.get_data(False)`, lines 630-676. -/
def getData (im : Im) (fortran : Bool) (file : List UInt8) : Py Data := do
  let w ← itemSize im.dataType
  finish im fortran (readValues im w file)

/-- `ImageObject.get_data(True)`, lines 634-650, for images that are not packed: a memory map of the shape,
which must lie in the file. -/
def getDataLazy (im : Im) (fortran : Bool) (file : List UInt8) : Py Data := do
  if isRgb im.dataType then .error .valueError
  let w ← itemSize im.dataType
  if file.length < im.offset + size (shape im) * w then .error .valueError
  .ok (arrayOf fortran (shape im) (fromFile w (size (shape im)) (file.drop im.offset)))

/-- An entry of `get_axes_dict`. -/
structure Axis where
  name : Option Text
  size : Nat
  index : Nat
  scale : Rat
  offset : Rat
  units : Text
  navigate : Bool
deriving DecidableEq

/-- The `zip` of the six lists, ending with the shortest, lines 752-776. -/
def zipAxes : Nat → List (Option Text) → List Nat → List Rat → List Rat → List Text → List Bool →
    List Axis
  | i, n :: ns, s :: ss, c :: cs, o :: os, u :: us, v :: vs =>
    ⟨n, s, i, c, o, u, v⟩ :: zipAxes (i + 1) ns ss cs os us vs
  | _, _, _, _, _, _, _ => []

/-- `get_axes_dict`, lines 751-776. -/
def axes (im : Im) : Py (List Axis) := do
  let ns ← names im
  let vs ← navigate im
  .ok (zipAxes 0 ns (shape im) (scales im) (offsets im) (units im) vs)

/-- Numbers of the images that are not thumbnails: `int(key.replace("TagGroup", ""))`, line 445. -/
def imageNumber (key : Text) : Py Nat :=
  let rest := if "TagGroup".toList.isPrefixOf key then key.drop 8 else key
  if rest ≠ [] ∧ rest.all isDigit then .ok (decVal rest) else .error .valueError

/-- `get_image_dictionaries`, lines 425-447; the list is the items of `ImageList`, `none` without it. -/
def withoutThumbnails {α : Type} (thumbs : List Nat) : List (Text × α) → Py (List α)
  | [] => .ok []
  | (key, im) :: rest => do
    let k ← imageNumber key
    let ims ← withoutThumbnails thumbs rest
    .ok (if k ∈ thumbs then ims else im :: ims)

/-- A signal dictionary of `file_reader`, lines 1306-1346. -/
structure Signal where
  data : Data
  axes : List Axis
  title : Text
  signalType : Text
  filename : Text
  toSpectrum : Bool
  /-- The image in `original_metadata.ImageList.TagGroup0`. -/
  original : Im

/-- One pass of the loop of `file_reader`, lines 1315-1346. -/
def signalOf (filename : Text) (lazy_ fortran : Bool) (file : List UInt8) (im : Im) : Py Signal := do
  let ax ← axes im
  let d ← if lazy_ then getDataLazy im fortran file else getData im fortran file
  .ok ⟨d, ax, im.name, signalType im, filename, toSpectrum im, im⟩

/-- `file_reader`, lines 1281-1346; the loop over `None` raises `TypeError`. -/
def fileReader (filename : Text) (lazy_ fortran : Bool) (file : List UInt8) (thumbs : List Nat) :
    Option (List (Text × Im)) → Py (List Signal)
  | none => .error .typeError
  | some items => do
    let ims ← withoutThumbnails thumbs items
    ims.mapM (signalOf filename lazy_ fortran file)

/-- `_get_quantity`, lines 789-801. -/
def quantity (im : Im) (u : Text) : Text :=
  let u' := if u = "e-".toList then "Counts".toList else u
  let q := if signalType im = "EDS_TEM".toList then "X-rays".toList
    else if u = "e-".toList then "Electrons".toList else "Intensity".toList
  if u' = [] then q else q ++ " (".toList ++ u' ++ ")".toList

/-- `x in text`. -/
def contains (x : Text) : Text → Bool
  | [] => x.isEmpty
  | c :: t => x.isPrefixOf (c :: t) || contains x t

/-- `_get_mode`, lines 803-809. -/
def mode (m : Text) : Text :=
  if contains "STEM".toList m then "STEM".toList
  else if contains "SEM".toList m then "SEM".toList
  else "TEM".toList

/-- `_get_exposure_time`, lines 856-871: entries `Integration time (s)`, `Exposure (s)` and
`Number of frames`. -/
def exposureTime (integration exposure frames : Option Rat) : Option Rat :=
  match integration, exposure with
  | some t, _ => some t
  | none, some e => some (e * frames.getD 1)
  | none, none => none

/-- `_get_microscope_name`, lines 827-845: the first of three entries that is filled. -/
def microscopeName : List (Option Text) → Option Text
  | [] => none
  | some m :: rest => if m ≠ [] ∧ m ≠ "[]".toList then some m else microscopeName rest
  | none :: rest => microscopeName rest

end Verif.DMSignal
