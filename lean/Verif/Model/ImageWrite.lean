import Verif.Model.Rgb
import Verif.Py.Assoc
import Mathlib.Algebra.Order.Field.Rat
/-!
Model of writing images: `rsciio/image/_api.py` lines 39-212.

External code and its assumed behaviour: `matplotlib` gives the supported formats, rejects negative
sizes of figures and shows arrays of two dimensions or of three with 1, 3 or 4 channels; a figure of
`s / 100` inches at 100 dots per inch has `s` pixels; `pint` tells whether units are reciprocal
lengths and gives their short name; `os.path.splitext` gives the extension. Numbers are exact. What
`imageio` and `savefig` do with the image is not modelled, nor what the scale bar looks like.
-/
namespace Verif.ImageWrite
open Verif.Rgb

/-- A value of an option. -/
inductive Val | none' | num (q : ℚ) | text (t : Text)
  deriving DecidableEq

/-- Options as a dictionary. -/
abbrev Kwds := List (Text × Val)

/-- An axis of the signal. -/
structure Axis where
  navigate : Bool
  size : Nat
  scale : ℚ
  units : Option Text
  deriving DecidableEq

/-- The signal. -/
structure Signal where
  data : Array'
  axes : List Axis
  deriving DecidableEq

/-- `output_size` if it is not `None`: a number or a sequence. -/
inductive Size | num (q : ℚ) | seq (l : List ℚ)
  deriving DecidableEq

/-- What is installed or known by other libraries: `matplotlib_scalebar`, `matplotlib`, its formats,
and `pint` (whether the units are reciprocal lengths, and their short name). -/
structure World where
  barLib : Bool
  plotLib : Bool
  formats : List Text
  units : Text → Py (Bool × Text)

/-- A scale bar: `ScaleBar(scale, units, **kwds)`. -/
structure Bar where
  scale : ℚ
  units : Text
  kwds : Kwds
  deriving DecidableEq

/-- What is written: an array (`iio.imwrite`, line 212), or a figure (line 210). -/
inductive Out
  | plain (data : Array')
  | figure (inches : List ℚ) (dpi : ℚ) (data : Array') (imshow : Kwds) (bar : Option Bar)
  deriving DecidableEq

/-- `d.setdefault(k, v)`. -/
def setDefault (k : String) (v : Val) (d : Kwds) : Kwds :=
  match getKw k.toList d with
  | some _ => d
  | none => setKw k.toList v d

/-- `bool(output_size)`. -/
def sizeTrue : Option Size → Bool
  | none => false
  | some (.num q) => decide (q ≠ 0)
  | some (.seq l) => !l.isEmpty

/-- `bool(imshow_kwds)`. -/
def kwdsTrue : Option Kwds → Bool
  | none => false
  | some l => !l.isEmpty

/-- `.shape`. -/
def shapeOf : Array' → List Nat
  | .reg a => a.shape
  | .rgb a => a.shape

/-- Lines 102-103, for all arrays since `rgbx2regular_array` keeps the others. -/
def regular (a : Array') : Array' := if isRgbx a then rgbx2regular a else a

/-- Lines 91-92 and 130-137: the two signal axes, else the two navigation axes. -/
def axesOf (axes : List Axis) : Py (Axis × Axis) :=
  match axes.filter fun a => !a.navigate with
  | [a, b] => .ok (a, b)
  | _ =>
    match axes.filter fun a => a.navigate with
    | [a, b] => .ok (a, b)
    | _ => .error .runtimeError

/-- `imshow_kwds.get("aspect", 1)` as a factor; texts and `None` cannot be used in divisions or
multiplied by floats. -/
def aspect (imshow : Kwds) : Py ℚ :=
  match getKw "aspect".toList imshow with
  | none => .ok 1
  | some (.num q) => .ok q
  | some _ => .error .typeError

/-- `data.shape[0] / data.shape[1]`. -/
def ratio : List Nat → Py ℚ
  | h :: w :: _ => if w = 0 then .error .zeroDivision else .ok ((h : ℚ) / w)
  | _ => .error .indexError

/-- Lines 139-149. -/
def outputSize (axes : Axis × Axis) (shape : List Nat) (imshow : Kwds) :
    Option Size → Py (List ℚ)
  | none => do
    let r ← aspect imshow
    return [(axes.2.size : ℚ) * 1, (axes.1.size : ℚ) * r]
  | some (.num w) => do
    let q ← ratio shape
    let r ← aspect imshow
    return [w, w * (r * q)]
  | some (.seq l) => if l.length ≠ 2 then .error .valueError else .ok l

/-- Line 150: the size in inches; negative sizes are rejected. -/
def inchesOf (size : List ℚ) : Py (List ℚ) :=
  if size.any fun s => decide (s < 0) then .error .valueError else .ok (size.map fun s => s / 100)

/-- Lines 152-164: the format has to be supported (the size is always known by then). -/
def checkFormat (formats : List Text) (ext : Text) : Py Unit :=
  if ext.filter (· ≠ '.') ∈ formats then .ok () else .error .valueError

/-- `math.isclose(a, b, rel_tol=tol)`. -/
def isClose (a b tol : ℚ) : Bool := decide (|a - b| ≤ tol * max |a| |b|)

/-- Lines 166-184. -/
def checkScale (axes : Axis × Axis) : Py Unit :=
  if axes.1.units ≠ axes.2.units then .error .valueError
  else if axes.2.size = 0 then .error .zeroDivision
  else if isClose |axes.1.scale| |axes.2.scale| (1 / 10 / axes.2.size) then .ok ()
  else .error .valueError

/-- Lines 193-208: the scale bar. -/
def barOf (w : World) (axis : Axis) (kwds : Kwds) : Py Bar :=
  match axis.units with
  | none => .ok ⟨axis.scale, "px".toList, setKw "dimension".toList (.text "pixel-length".toList) kwds⟩
  | some u => do
    let (reciprocal, short) ← w.units u
    return ⟨axis.scale, short,
      if reciprocal then setKw "dimension".toList (.text "si-length-reciprocal".toList) kwds
      else kwds⟩

/-- Line 189: what `imshow` shows. -/
def showable : List Nat → Bool
  | [_, _] => true
  | [_, _, k] => decide (k = 1 ∨ k = 3 ∨ k = 4)
  | _ => false

/-- `ax.imshow`, line 189. -/
def imshowOf (data : Array') : Py Unit :=
  if showable (shapeOf data) then .ok () else .error .typeError

/-- Lines 94-97: the options of the scale bar with defaults. -/
def barDefaults (kwds : Option Kwds) : Kwds :=
  setDefault "location" (.text "lower left".toList) (setDefault "box_alpha" (.num (3 / 4)) (kwds.getD []))

/-- The options of the call. -/
structure Opts where
  scalebar : Bool
  barKwds : Option Kwds
  size : Option Size
  imshow : Option Kwds
  deriving DecidableEq

/-- Lines 116-164: the axes and the figure. -/
def prepare (w : World) (ext : Text) (s : Signal) (o : Opts) :
    Py ((Axis × Axis) × List ℚ × Kwds) := do
  if !w.plotLib then throw .valueError
  let imshow := setDefault "cmap" (.text "gray".toList) (o.imshow.getD [])
  let axes ← axesOf s.axes
  let size ← outputSize axes (shapeOf (regular s.data)) imshow o.size
  let inches ← inchesOf size
  checkFormat w.formats ext
  return (axes, inches, imshow)

/-- Lines 166-208 for the scale bar, if there is one: the bar and the changed options. -/
def barPart (w : World) (bar : Bool) (axes : Axis × Axis) (data : Array') (kwds : Kwds) :
    Py (Option Bar × Kwds) :=
  if bar then do
    checkScale axes
    imshowOf data
    let b ← barOf w axes.1 kwds
    return (some b, b.kwds)
  else do
    imshowOf data
    return (none, kwds)

/-- Line 115: whether a figure is made. -/
def usesFigure (bar : Bool) (o : Opts) : Bool := bar || sizeTrue o.size || kwdsTrue o.imshow

/-- `file_writer`, lines 90-212: what is written, and `scalebar_kwds` after the call. -/
def write (w : World) (ext : Text) (s : Signal) (o : Opts) : Py (Out × Kwds) :=
  let kwds := barDefaults o.barKwds
  let bar := o.scalebar && w.barLib                             -- lines 105-113
  if usesFigure bar o then do
    let (axes, inches, imshow) ← prepare w ext s o
    let (b, kwds) ← barPart w bar axes (regular s.data) kwds
    return (.figure inches 100 (regular s.data) imshow b, kwds)
  else .ok (.plain (regular s.data), kwds)

/-- The same options for several signals: a dictionary given as `scalebar_kwds` is changed by each
call. -/
def writeAll (w : World) (ext : Text) (o : Opts) : List Signal → Py (List Out)
  | [] => .ok []
  | s :: r => do
    let (out, kwds) ← write w ext s o
    let rest ← writeAll w ext (if o.barKwds.isSome then { o with barKwds := some kwds } else o) r
    return out :: rest

end Verif.ImageWrite
