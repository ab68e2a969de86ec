import Verif.Model.Xml
import Verif.Py.Dec
import Verif.Py.Ravel
import Verif.Py.Assoc
import Verif.Py.Float32
import Mathlib.Data.List.Dedup
/-!
Model of `rsciio/topspin/_api.py`.

Simplifications: numbers are exact, `none` stands for `nan`; `float` and `int` of texts are parameters; XML texts are trees (`Xml.El`); the frames of a group are numbered from 0 without gaps and all have
the shape of the first one; values are naturals of any type; time stamps and entries that are the same for all files (`FileIO`, `signal_type`) are left out, and so are `dryrun` and the progress bar.
-/
namespace Verif.Topspin
open Verif.Xml (El)

/-! ### Scans -/

/-- A frame: the position in metres, and the image. -/
structure Frame where
  x : Rat
  y : Rat
  img : List Nat → Nat

/-- Calibration of one axis of the diffraction patterns. -/
structure Cal where
  units : Text
  scale : Rat
  offset : Rat

/-- A group of frames: lines and columns of each of them, and their calibration, lines 273-284. -/
structure Group where
  ky : Nat
  kx : Nat
  calY : Cal
  calX : Cal
  frames : List Frame

/-- An axis. -/
structure Axis where
  name : String
  units : Text
  size : Nat
  scale : Option Rat
  offset : Rat
  navigate : Bool
  index : Nat

/-- Lines 294-302: positions are read up to the first one with a larger `y` than the first one. -/
def firstRow (y0 : Rat) : List Frame → List Frame
  | [] => []
  | f :: fs => if f.y > y0 then [f] else f :: firstRow y0 fs

/-- `min()` and `max()` of a list that is not empty. -/
def minOf (l : List Rat) : Rat := l.tail.foldl min (l.headD 0)
def maxOf (l : List Rat) : Rat := l.tail.foldl max (l.headD 0)

/-- `np.unique(...).size`. -/
def count (l : List Rat) : Nat := l.dedup.length

/-- The extent over the number of steps; numpy gives `nan` for no step. -/
def step (l : List Rat) : Option Rat := if count l = 1 then none else some ((maxOf l - minOf l) / (count l - 1 : Int))

/-- `np.around(d, 12) * 1e9`. -/
def toNm (d : Rat) : Rat := (roundEven (d * 10 ^ 12) : Rat) / 10 ^ 12 * 10 ^ 9

/-- Lines 286-330: number, step and start of the positions in y and x. -/
def scanAxes (fs : List Frame) : Py ((Nat × Option Rat × Rat) × (Nat × Option Rat × Rat)) := match fs with
  | [] => .error .indexError
  | f :: _ =>
    let r := firstRow f.y fs
    let x := r.map Frame.x
    let y := r.map Frame.y
    if fs.length % count y ≠ 0 then
      let x := fs.map Frame.x
      let y := fs.map Frame.y
      .ok ((count y, step y, minOf y), (count x, step x, minOf x))
    else .ok ((fs.length / count x, some (maxOf y - minOf y), minOf y), (count x, step x, minOf x))

/-- `_get_4D_axes`, lines 232-331. -/
def axes4D (g : Group) : Py (List Axis) := do
  let s ← scanAxes g.frames
  .ok [⟨"y", "nm".toList, s.1.1, s.1.2.1.map toNm, s.1.2.2 * 10 ^ 9, true, 0⟩, ⟨"x", "nm".toList, s.2.1, s.2.2.1.map toNm, s.2.2.2 * 10 ^ 9, true, 1⟩,
    ⟨"ky", g.calY.units, g.ky, some g.calY.scale, g.calY.offset, false, 2⟩, ⟨"kx", g.calX.units, g.kx, some g.calX.scale, g.calX.offset, false, 3⟩]

/-- Lines 205-209: an x axis of length one is taken away. -/
def dropX : List Axis → List Axis
  | [y, x, ky, kx] => if x.size = 1 then [y, { ky with index := 2 }, { kx with index := 1 }] else [y, x, ky, kx]
  | l => l

/-- Lines 211-217: a y axis of length one is taken away. -/
def dropY : List Axis → List Axis
  | y :: a :: b :: rest => if y.size = 1 then { a with index := 0 } :: { b with index := 1 } :: rest.map fun c => { c with index := 2 } else y :: a :: b :: rest
  | l => l

/-- Lines 172-219: the frames one after the other, in the order of their numbers; `reshape` needs the right number of values. -/
def read4D (g : Group) : Py (List Axis × List Nat × List Nat) := do
  let ax ← axes4D g
  let out := dropY (dropX ax)
  let data := g.frames.flatMap fun f => ravel [g.ky, g.kx] f.img
  if size (out.map Axis.size) = data.length then .ok (out, out.map Axis.size, data) else .error .valueError

/-- The calibration of an image in the metadata. -/
structure Calibration where
  xScale : Rat
  xOffset : Rat
  yScale : Rat
  yOffset : Rat

/-- `_get_2D_axes`, lines 334-367, and the sizes of lines 149-151. -/
def axes2D (c : Option Calibration) (h w : Nat) : List Axis := match c with
  | none => [⟨"y", "nm".toList, h, some 0, 0, false, 0⟩, ⟨"x", "nm".toList, w, some 0, 0, false, 1⟩]
  | some c => [⟨"y", "nm".toList, h, some (c.xScale * 10 ^ 9), c.xOffset * 10 ^ 9, false, 0⟩, ⟨"x", "nm".toList, w, some (c.yScale * 10 ^ 9), c.yOffset * 10 ^ 9, false, 1⟩]

/-! ### Metadata -/

/-- Values of the metadata. -/
inductive Val where
  | none
  | bool (b : Bool)
  | num (r : Rat)
  | int (i : Int)
  | str (t : Text)
  | dict (d : List (Text × Val))

/-- `float` and `int` of a text. -/
structure Lib where
  float : Text → Py Rat
  int : Text → Py Int

/-- `float(e.text)`, `int(e.text)`, `str(e.text)`: no text is `None`. -/
def floatOf (lib : Lib) : Option Text → Py Val
  | none => .error .typeError
  | some t => (lib.float t).map .num
def intOf (lib : Lib) : Option Text → Py Val
  | none => .error .typeError
  | some t => (lib.int t).map .int
def strOf : Option Text → Val
  | none => .str "None".toList
  | some t => .str t

/-- `bool(e.text)`. -/
def boolOf : Option Text → Val
  | none => .bool false
  | some t => .bool (!t.isEmpty)

/-- `d.update(e)`. -/
def update (d : List (Text × Val)) : List (Text × Val) → List (Text × Val)
  | [] => d
  | (k, v) :: e => update (setKw k v d) e

mutual
/-- `name_val_decode`, lines 410-425. -/
def nameVal (lib : Lib) : El → Py (List (Text × Val))
  | .mk tag attrs text _ children => match getKw "Serializer".toList attrs with
    | none => .error .keyError
    | some s =>
      if s = "Boolean".toList then .ok [(tag, boolOf text)]
      else if s = "Double".toList then (floatOf lib text).map fun v => [(tag, v)]
      else if s = "String".toList then .ok [(tag, strOf text)]
      else if s = "UInt32".toList ∨ s = "Int32".toList then (intOf lib text).map fun v => [(tag, v)]
      else leaves lib [] children
/-- The loop of lines 421-424. -/
def leaves (lib : Lib) (out : List (Text × Val)) : List El → Py (List (Text × Val))
  | [] => .ok out
  | e :: es =>
    if e.attrs = [] then leaves lib out es
    else match nameVal lib e with
      | .error x => .error x
      | .ok d => leaves lib (update out d) es
end

/-- `leaf[0].text`; the key `None` is taken as an empty text. -/
def key (n : El) : Text := n.text.getD []

/-- One item, lines 433-444. -/
def item (lib : Lib) (e : El) : Py (Text × Val) := match e.children with
  | n :: v :: _ => match getKw "Serializer".toList v.attrs with
    | none => .error .keyError
    | some s =>
      if s = "Boolean".toList then .ok (key n, (v.text.map Val.str).getD .none)
      else if s = "Double".toList then (floatOf lib v.text).map fun x => (key n, x)
      else if s = "String".toList then .ok (key n, strOf v.text)
      else if s = "UInt32".toList ∨ s = "Int32".toList then (intOf lib v.text).map fun x => (key n, x)
      else (nameVal lib v).map fun d => (key n, .dict d)
  | _ => .error .indexError

/-- The items of a branch, lines 431-444. -/
def items (lib : Lib) (out : List (Text × Val)) : List El → Py (List (Text × Val))
  | [] => .ok out
  | e :: es => match item lib e with
    | .error x => .error x
    | .ok (k, v) => items lib (setKw k v out) es

/-- A branch of the metadata. -/
inductive Branch where
  | text (t : Option Text)
  | dict (d : List (Text × Val))

/-- `_parse_app5_xml`, lines 427-448. -/
def parseXml (lib : Lib) (out : List (Text × Branch)) : List El → Py (List (Text × Branch))
  | [] => .ok out
  | e :: es =>
    if e.tag = "ProcedureData".toList ∨ e.tag = "HardwareSettings".toList then
      match items lib [] e.children with
      | .error x => .error x
      | .ok d => parseXml lib (setKw e.tag (.dict d) out) es
    else parseXml lib (setKw e.tag (.text e.text) out) es

/-- The metadata. -/
structure Meta where
  title : Option Text
  date : Option (Text × Text)
  description : Option (Option Text)

/-- `"-".join(np.array(dt.split(" ")[0].split("/"))[(2, 0, 1),])` and `dt.split(" ")[1]`, lines 482-486. -/
def dateTime (dt : Text) : Py (Text × Text) := match splitChar ' ' dt with
  | d :: rest => match splitChar '/' d with
    | a :: b :: c :: _ => match rest with
      | t :: _ => .ok (c ++ '-' :: a ++ '-' :: b, t)
      | [] => .error .indexError
    | _ => .error .indexError
  | [] => .error .indexError

/-- The text of an entry: only the two branches with items are no texts. -/
def textOf : Branch → Option Text
  | .text t => t
  | .dict _ => none

def dateOf (m : List (Text × Branch)) : Py (Option (Text × Text)) := match getKw "CreatedDateTime".toList m with
  | none => .ok none
  | some b => match textOf b with
    | none => .error .attributeError
    | some t => (dateTime t).map some

/-- `_parse_hspy_meta`, lines 451-492. -/
def hspyMeta (m : List (Text × Branch)) : Py Meta := match getKw "Id".toList m with
  | none => .error .keyError
  | some i => match dateOf m with
    | .error x => .error x
    | .ok d => .ok ⟨textOf i, d, (getKw "Specimen".toList m).map textOf⟩

/-! ### Which datasets are read -/

/-- `looks_like_a_guid`, lines 95-98. -/
def guid (n : Text) : Bool := (splitChar '-' n).map List.length = [8, 4, 4, 4, 12]

/-- A file: names of the groups at the top, and of those in them. -/
abbrev Tree := List (Text × List Text)

/-- Lines 110-127: addresses of the datasets and of their metadata. -/
def tasks (f : Tree) : List (Text × Text) :=
  if "Metadata".toList ∈ f.map Prod.fst then (f.filter fun g => guid g.1).map fun g => (g.1, "Metadata".toList)
  else f.flatMap fun g => if guid g.1 then (g.2.filter guid).map fun n => (g.1 ++ '/' :: n, g.1 ++ "/Metadata".toList) else []

/-- Lines 100-127, with a path that is the one of a dataset. -/
def tasksOf (f : Tree) (path : Option Text) : List (Text × Text) := match path with
  | none => tasks f
  | some p => (tasks f).filter fun t => t.1 = p

end Verif.Topspin
