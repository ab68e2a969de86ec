import Verif.Py.IntLit
import Verif.Py.Ravel
import Verif.Model.RenishawData
/-!
Model of `rsciio/trivista/_api.py`, data and axes (spectra, line scans, maps and time series of
TriVista, `.tvf`).

The document is given with the attributes and texts the reader looks at. Numbers are exact rationals;
`float(text)` is an external function. The fit of a uniform axis is the exact straight line of least
squares. Not modelled: parsing XML, more than one `xDim`, `Data` or `Childs` element, time stamps that
are not one whole number, messages.
-/
namespace Verif.Trivista
open Verif.Renishaw (fitAxis)

/-- A `Frame`: attribute `TimeStamp` and text. -/
structure Frame where
  stamp : Int
  text : Text

/-- An element with `xDim` and `Data`: the document or a window of a glued spectrum. -/
structure Block where
  values : Text
  unit : Text
  frames : List Frame

/-- The group `X-Axis` or `Y-Axis`. -/
structure Nav where
  from_ : ℚ
  step : ℚ
  points : Nat

/-- What the reader of data looks at. -/
structure File where
  count : Nat
  doc : Block
  childs : List Block
  x : Option Nav
  y : Option Nav
  frames : Nat

/-- Calibration of the signal axis: all values, or a straight line. -/
inductive Cal | values (l : List ℚ) | uniform (offset scale : ℚ) (size : Nat)

/-- The dictionary of the signal axis. -/
structure SigAxis where
  cal : Cal
  units : Text

/-- `_get_signal_axis`, lines 529-554: calibration. -/
def signalCal (uniform : Bool) (l : List ℚ) : Cal :=
  if l.length > 1 ∧ uniform then .uniform (fitAxis l).1 (fitAxis l).2 l.length else .values l

/-- `_get_signal_axis`, lines 509-555. The number in front of the values is not compared. -/
def signalAxis (num : Text → Py ℚ) (uniform : Bool) (b : Block) : Py SigAxis :=
  match splitChar '|' b.values with
  | [] => .error .indexError
  | n :: cells => do
    let _ ← intLit n
    let l ← cells.mapM num
    .ok ⟨signalCal uniform l, if b.unit = "Nanometer".toList then "nm".toList else b.unit⟩

/-- `_parse_data`, lines 666-672: the numbers of one frame. -/
def frameData (num : Text → Py ℚ) (f : Frame) : Py (List ℚ) := (splitChar ';' f.text).mapM num

/-- `np.array(rows)`, line 673: rows of different lengths are rejected. -/
def sameLength (rows : List (List ℚ)) : Bool :=
  match rows with
  | [] => true
  | r :: rs => rs.all fun s => s.length = r.length

/-- `_parse_data`, lines 664-674: seconds since the first frame. -/
def times (fs : List Frame) : Py (List ℚ) :=
  match fs with
  | [] => .error .indexError
  | f :: _ => .ok (fs.map fun g => ((g.stamp - f.stamp : Int) : ℚ) / 10000000)

/-- `_parse_data`, lines 655-675. -/
def parseData (num : Text → Py ℚ) (b : Block) : Py (List ℚ × List ℚ) := do
  let rows ← b.frames.mapM (frameData num)
  if sameLength rows then do
    let t ← times b.frames
    .ok (rows.flatten, t)
  else .error .valueError

/-- The array of times: of the document, or of all windows. -/
inductive Times | one (t : List ℚ) | all (ts : List (List ℚ))

/-- One axis: dictionary and `index_in_array`. -/
inductive Axis
  | nav (name : Text) (offset scale : ℚ) (size : Nat)
  | time (scale : ℚ) (size : Nat)
  | times (scale : List ℚ) (size : Nat)
  | signal (a : SigAxis)

/-- Entry `navigate` of the dictionaries (lines 528, 579, 588). -/
def Axis.navigate : Axis → Bool
  | .nav .. => true
  | _ => false

/-- `_get_time_axis`, lines 557-581. -/
def timeAxis (t : Times) : Py Axis :=
  match t with
  | .one l => match l[1]? with
    | some s => .ok (.time s l.length)
    | none => .error .indexError
  | .all ls => match ls[1]? with
    | some s => .ok (.times s (ls.map List.length).sum)
    | none => .error .indexError

/-- `_get_nav_axis`, lines 583-591. -/
def navAxis (name : String) (n : Nav) : Axis := .nav name.toList n.from_ n.step n.points

/-- `set_axes`, lines 593-612: the navigation axes with their places. -/
def navAxes (f : File) : List (Axis × Int) :=
  match f.y, f.x with
  | none, none => []
  | some y, none => [(navAxis "Y" y, 0)]
  | none, some x => [(navAxis "X" x, 0)]
  | some y, some x => [(navAxis "Y" y, 0), (navAxis "X" x, 1)]

/-- `set_axes`, lines 593-612: `num_xy_frames`. -/
def xyFrames (f : File) : Nat :=
  match f.y, f.x with
  | none, none => 0
  | some y, none => y.points
  | none, some x => x.points
  | some y, some x => y.points * x.points

/-- `set_axes`, lines 614-626: with the time axis, unless the frames are those of a scan. -/
def frameAxes (f : File) (t : Times) : Py (List (Axis × Int)) :=
  if f.frames = xyFrames f ∨ f.frames = 1 then .ok (navAxes f)
  else match timeAxis t with
    | .error e => .error e
    | .ok a => if f.x.isSome ∨ f.y.isSome then .error .notImplemented else .ok [(a, 0)]

/-- `set_axes`, lines 628-652. The axes are in the order of their places already. -/
def setAxes (stack : Bool) (f : File) (t : Times) (sig : List SigAxis) : Py (List (List (Axis × Int))) :=
  match frameAxes f t with
  | .error e => .error e
  | .ok axes =>
    if stack ∧ f.count ≠ 0 then .ok (sig.map fun a => axes ++ [(.signal a, (axes.length : Int) - 1)])
    else match sig with
      | [] => .error .indexError
      | a :: _ => .ok [axes ++ [(.signal a, (axes.length : Int))]]

/-- `_load_glued_data_stack`, lines 684-689: one window. -/
def window (num : Text → Py ℚ) (uniform : Bool) (b : Block) : Py (SigAxis × List ℚ × List ℚ) := do
  let a ← signalAxis num uniform b
  let d ← parseData num b
  .ok (a, d)

/-- `get_data_and_signal`, lines 676-704. -/
def getData (num : Text → Py ℚ) (uniform stack : Bool) (f : File) : Py (List (List ℚ) × Times × List SigAxis) :=
  if stack ∧ f.count ≠ 0 then do
    let l ← f.childs.mapM (window num uniform)
    if sameLength (l.map fun e => e.2.1) ∧ sameLength (l.map fun e => e.2.2) then
      .ok (l.map fun e => e.2.1, .all (l.map fun e => e.2.2), l.map Prod.fst)
    else .error .valueError
  else do
    let d ← parseData num f.doc
    let a ← signalAxis num uniform f.doc
    .ok ([d.1], .one d.2, [a])

/-- `reshape_data`, lines 706-714: the size of one axis. -/
def axisSize (uniform : Bool) : Axis → Py Nat
  | .nav _ _ _ n => .ok n
  | .time _ n => .ok n
  | .times _ n => .ok n
  | .signal a => match a.cal, uniform with
    | .values l, false => .ok l.length
    | .uniform _ _ n, true => .ok n
    | _, _ => .error .keyError

/-- `reshape_data`, lines 716-719: one dataset; a row of the array of windows takes only one dimension. -/
def reshape (stack : Bool) (shape : List Nat) (d : List ℚ) : Py (List Nat × List ℚ) :=
  if size shape ≠ d.length then .error .valueError
  else if stack then
    if shape.dropLast.all (· = 1) then .ok ([d.length], d) else .error .valueError
  else .ok (shape, d)

/-- One signal. -/
structure Signal where
  shape : List Nat
  data : List ℚ
  axes : List (Axis × Int)

/-- `file_reader`, lines 722-778. -/
def read (num : Text → Py ℚ) (lazy uniform stack : Bool) (f : File) : Py (List Signal) :=
  if lazy then .error .notImplemented
  else do
    let r ← getData num uniform stack f
    let axes ← setAxes stack f r.2.1 r.2.2
    match axes with
    | [] => .error .indexError
    | as :: _ => do
      let shape ← as.mapM fun a => axisSize uniform a.1
      let ds ← r.1.mapM (reshape (stack ∧ f.count ≠ 0) shape)
      .ok ((ds.zip axes).map fun e => ⟨e.1.1, e.1.2, e.2⟩)

end Verif.Trivista
