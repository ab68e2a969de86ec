import Verif.Model.Tvips
import Verif.Py.Basic
/-!
Model of the reconstruction of scans from the rotator indices in `rsciio/tvips/_api.py` (`scan_shape="auto"`), and of the axes of scans and stacks.

Simplifications: rotator indices are numbers below 2³²; the arithmetic of the code on them is that of `uint32` in NumPy 2 (differences wrap around); `numba` is not modelled. Time stamps are exact seconds.
-/
namespace Verif.TvipsScan
open Verif.Tvips

/-- `a - b` and `a + b` of `uint32`. -/
def sub32 (a b : Nat) : Nat := (a + 2 ^ 32 - b) % 2 ^ 32
def add32 (a b : Nat) : Nat := (a + b) % 2 ^ 32

/-- `np.where(diff > 0)[0]`, lines 191-192. -/
def changes (rot : List Nat) : List Nat := (List.range (rot.length - 1)).filter fun i => 0 < sub32 (rot.getD (i + 1) 0) (rot.getD i 0)

/-- `_find_auto_scan_start_stop`, lines 189-199. -/
def startStop (rot : List Nat) : Option (Nat × Nat) := match changes rot with
  | [] => none
  | s :: l => some (if rot.getD s 0 = 0 then s + 1 else s, (s :: l).getLastD 0 + 1)

/-- `a[lo:hi] = ...`. -/
def assign (a : List Nat) (lo hi : Nat) (v : Nat → Nat) : List Nat := a.mapIdx fun k x => if lo ≤ k ∧ k < hi then v (k - lo) else x

/-- One step of the loop of `_guess_scan_index_grid`, lines 207-215. -/
def fill (rot : List Nat) (st : List Nat × Nat) (i : Nat) : Py (List Nat × Nat) :=
  if rot.getD st.2 0 ≠ rot.getD i 0 then
    let ps := sub32 (rot.getD st.2 0) 1
    let pe := sub32 (rot.getD i 0) 1
    let stack := ((List.range (i - st.2)).map (st.2 + ·)).take (sub32 pe ps)
    let a := assign st.1 ps pe fun _ => stack.getLastD 0
    let hi := add32 ps stack.length
    if min a.length hi - min a.length ps = stack.length ∨ stack.length = 1 then .ok (assign a ps hi fun k => stack.getD k 0, i)
    else .error .valueError
  else .ok st

/-- `_guess_scan_index_grid`, lines 203-218. -/
def guessGrid (rot : List Nat) (start stop : Nat) : Py (List Nat) :=
  let r := (rot.drop start).take (stop + 1 - start)
  match (List.range r.length).foldlM (fill r) (List.replicate (rot.getD stop 0) 0, 0) with
  | .error e => .error e
  | .ok (a, inv) => .ok ((assign a (sub32 (r.getD inv 0) 1) a.length fun _ => inv).map (· + start))

/-- Lines 355-374: the size of the square scan, and the frame of each position. Numbers of frames that are not squares are found by the comparison of lines 365-369 or, when they are too close to a square for
it, by `reshape`. -/
def autoScan (rot : List Nat) : Py (Nat × List Nat) := match startStop rot with
  | none => .error .valueError
  | some (start, stop) =>
    let d := (rot.getD stop 0).sqrt
    if d * d ≠ rot.getD stop 0 then .error .valueError
    else match guessGrid rot start stop with
      | .error e => .error e
      | .ok g => .ok (d, g)

/-- The frame of a scan point, lines 390-408. -/
def autoFrame {α : Type} (frames : List α) (d : Nat) (grid : List Nat) (w : Winding) (h : Int) (y x : Nat) : Option α := match grid[windingIndex w h 0 d d 0 y x]? with
  | some f => frames[f]?
  | none => none

structure Axis where
  size : Nat
  name : String
  scale : Rat
  offset : Rat
  units : String
  navigate : Bool
  deriving DecidableEq

/-- The units of the signal axes, line 347. -/
def dpu (mode : Nat) : String := if mode = 2 then "1/nm" else "nm"

/-- The axes of a scan, lines 409-429: `scan` is the shape of the scan. -/
def scanAxes (scan : List Nat) (h : Header) (mode : Nat) : List Axis :=
  let sizes := scan ++ [h.dimy, h.dimx]
  let lead := scan.length - 2
  let names := List.replicate lead "" ++ ["y", "x", "dy", "dx"]
  let units := List.replicate lead "" ++ ["nm", "nm", dpu mode, dpu mode]
  let scales : List Rat := List.replicate lead 1 ++ [1, 1, (h.pixelsize : Rat), (h.pixelsize : Rat)]
  let offsets : List Rat := List.replicate lead 0 ++ [0, 0, (h.offy : Rat), (h.offx : Rat)]
  (List.range sizes.length).map fun i => ⟨sizes.getD i 0, names.getD i "", scales.getD i 0, offsets.getD i 0, units.getD i "", decide (i < scan.length)⟩

/-- The axes of a stack, lines 430-452; `times` are seconds and milliseconds of the frames. -/
def stackAxes (times : List (Nat × Nat)) (h : Header) (mode : Nat) : Py (List Axis) :=
  match times.map fun t => (t.1 : Rat) + (t.2 : Rat) / 1000 with
  | t0 :: t1 :: rest => .ok [⟨rest.length + 2, "time", t1 - t0, t0, "s", true⟩, ⟨h.dimy, "dy", h.pixelsize, h.offy, dpu mode, false⟩, ⟨h.dimx, "dx", h.pixelsize, h.offx, dpu mode, false⟩]
  | _ => .error .indexError

end Verif.TvipsScan
