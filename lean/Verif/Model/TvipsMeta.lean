import Verif.Model.TvipsScan
import Verif.Py.Float32
/-!
Model of the calibrations and metadata in `rsciio/tvips/_api.py`: what the writer puts into the main header and the headers of frames, and what the
reader makes of them. The bytes are in `Tvips`, the axes in `TvipsScan`.

Simplifications: `pint` is a parameter (which units are lengths and inverse lengths, and factors); floating-point arithmetic is exact, the rounding to single precision is a
parameter; the start of the recording is a number of seconds since 1970 (UTC), parsed by `dateutil`; the local time zone is a parameter. A number that does not fit into an unsigned integer of 32 bits raises (integers do, for
floating-point numbers the result is not defined). Metadata that are missing are 0, as in the code.
-/
namespace Verif.TvipsMeta
open Verif.Tvips (Header mainHeader)
open Verif.TvipsScan (Axis stackAxes)

/-- What `pint` knows: units of length (1) or of inverse length (2), factors to nm or 1/nm, and to ms. -/
structure Pint where
  kind : String → Option Nat
  factor : String → Rat
  toMs : String → Option Rat

structure Ax where
  size : Nat
  scale : Rat
  offset : Rat
  units : String
  navigate : Bool
  deriving DecidableEq

/-- The metadata that are written or read. `tiltAlpha` and `tiltBeta` are in `TEM`, where the writer looks for them, `stageAlpha` and `stageBeta` in `TEM.Stage`. -/
structure Given where
  start : Rat
  energy : Rat
  camera : Rat
  magnification : Rat
  x : Rat
  y : Rat
  z : Rat
  tiltAlpha : Rat
  tiltBeta : Rat
  stageAlpha : Rat
  stageBeta : Rat
  current : Rat
  defocus : Rat

/-- A signal: its axes, the bytes of a number, and metadata. -/
structure Signal where
  axes : List Ax
  itemsize : Nat
  given : Given

/-- `axes[-k]`. -/
def fromEnd (axes : List Ax) (k : Nat) : Py Ax := if k = 0 then .error .indexError else match axes.reverse[k - 1]? with
  | some a => .ok a
  | none => .error .indexError

/-! ### Writing -/

/-- `_guess_image_mode`, lines 83-105. -/
def guessMode (u : Pint) (y : Ax) : Option Nat := u.kind y.units

/-- An integer in a field `u4`. -/
def storeInt (i : Int) : Py Nat := if 0 ≤ i ∧ i < 2 ^ 32 then .ok i.toNat else .error .overflowError

/-- Numbers are cut off. -/
def truncate (r : Rat) : Int := if 0 ≤ r then ⌊r⌋ else -⌊-r⌋

/-- Lines 121-139: rounded to whole nm or 1/nm, or as it is. -/
def storeLength (u : Pint) (mode : Option Nat) (unit : String) (r : Rat) : Py Nat :=
  match mode with
  | some _ => storeInt (roundEven (r * u.factor unit))
  | none => storeInt (truncate r)

/-- Lines 152-160. -/
def magTotal (mode : Option Nat) (g : Given) : Rat :=
  if g.camera ≠ 0 ∧ g.magnification ≠ 0 then 0
  else if g.camera ≠ 0 ∧ mode = some 2 then g.camera
  else if g.magnification ≠ 0 ∧ mode = some 1 then g.magnification
  else 0

/-- `_get_main_header_from_signal`, lines 108-161: the scale is that of the first axis. -/
def mainHead (u : Pint) (version extra : Nat) (s : Signal) : Py Header := do
  let first ← match s.axes with
    | [] => .error .indexError
    | a :: _ => .ok a
  let y ← fromEnd s.axes 2
  let x ← fromEnd s.axes 1
  let mode := guessMode u y
  let scale ← storeLength u mode y.units first.scale
  let ox ← storeLength u mode y.units x.offset
  let oy ← storeLength u mode y.units y.offset
  let ht ← storeInt (truncate s.given.energy)
  let mag ← storeInt (truncate (magTotal mode s.given))
  .ok (mainHeader version extra x.size y.size s.itemsize ox oy scale ht mag)

/-- Fields of the header of a frame, lines 63-80. -/
structure FrameHead where
  timestamp : Nat
  ms : Nat
  mode : Nat
  current : Rat
  x : Rat
  y : Rat
  z : Rat
  alpha : Rat
  beta : Rat
  rotidx : Nat
  objective : Rat

/-- `num_frames`, lines 536-537. -/
def numFrames (s : Signal) : Nat :=
  let nav := s.axes.filter Ax.navigate
  if nav = [] then 0 else (nav.map Ax.size).prod

/-- Milliseconds from frame to frame, lines 569-577. -/
def increment (u : Pint) (a : Ax) : Rat :=
  match u.toMs a.units with
  | some f => a.scale * f
  | none => 1

/-- The header of frame `k`, lines 581-587, 617-634. -/
def frameHead (f4 : Rat → Rat) (g : Given) (mode : Nat) (inc : Rat) (k : Nat) : FrameHead :=
  let ms : Rat := k * inc
  ⟨(truncate (g.start + ms / 1000) % 2 ^ 32).toNat, ⌊ms - 1000 * ⌊ms / 1000⌋⌋.toNat, mode, f4 g.current, f4 g.x, f4 g.y, f4 g.z,
    f4 g.tiltAlpha, f4 g.tiltBeta, (k + 1) % 2 ^ 32, 0⟩

/-- `file_writer`, lines 532-643: main header and headers of frames. Without navigation axes `time_increment` is not defined. -/
def write (u : Pint) (f4 : Rat → Rat) (version extra : Nat) (mode : Option Nat) (s : Signal) : Py (Header × List FrameHead) :=
  if (s.axes.filter fun a => !a.navigate).length ≠ 2 then .error .valueError
  else do
    let h ← mainHead u version extra s
    if numFrames s = 0 then .error .nameError
    else do
      let nav ← fromEnd s.axes 3
      let y ← fromEnd s.axes 2
      let m := (mode.orElse fun _ => guessMode u y).getD 2
      .ok (h, (List.range (numFrames s)).map (frameHead f4 s.given m (increment u nav)))

/-! ### Reading -/

/-- The metadata of a file: date and time are seconds since 1970, said to be UTC. -/
structure Found where
  seconds : Int
  magnification : Rat
  energy : Rat
  current : Rat
  defocus : Rat
  alpha : Rat
  beta : Rat
  x : Rat
  y : Rat
  z : Rat
  diffraction : Bool
  deriving DecidableEq

/-- Lines 453-496. `zone` is the local time minus UTC in seconds. -/
def readMeta (zone : Int) (h : Header) (fs : List FrameHead) : Py Found :=
  match fs with
  | [] => .error .indexError
  | f :: _ => .ok ⟨f.timestamp + zone, h.magtotal, h.ht, f.current, f.objective, f.alpha, f.beta, f.x, f.y, f.z, f.mode = 2⟩

/-- `file_reader` without a shape of a scan: axes and metadata. -/
def readBack (zone : Int) (h : Header) (fs : List FrameHead) : Py (List Axis × Found) := do
  let m ← readMeta zone h fs
  let axes ← stackAxes (fs.map fun f => (f.timestamp, f.ms)) h (match fs with | [] => 0 | f :: _ => f.mode)
  .ok (axes, m)

/-- Written and read again. -/
def roundTrip (u : Pint) (f4 : Rat → Rat) (version extra : Nat) (mode : Option Nat) (zone : Int) (s : Signal) : Py (List Axis × Found) := do
  let w ← write u f4 version extra mode s
  readBack zone w.1 w.2

end Verif.TvipsMeta
