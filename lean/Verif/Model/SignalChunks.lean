import Verif.Py.Basic
/-!
Model of `get_signal_chunks`, `rsciio/_hierarchical.py` lines 91-157.

The floating-point expression of lines 139-144 is the parameter `root s p k`, standing for
`int(floor((s / p) ** (1 / k)))`. `target_size` (a float holding a whole number, `1e6` or `1e8`)
is a `Nat`. `np.prod` is exact (no 64-bit overflow).
-/
namespace Verif.SignalChunks

/-- The result: `True` (h5py's automatic chunks) or a chunk shape. -/
inductive Chunks where
  | auto
  | shape (chunks : List Nat)
  deriving Repr, DecidableEq

/-- `shape[i]`; the indices come from `enumerate(shape)` or are valid signal axes. -/
def size (shape : List Nat) (i : Nat) : Nat := shape.getD i 0

/-- `np.prod([shape[i] for i in axes])`. -/
def prodSizes (shape : List Nat) (axes : List Nat) : Nat := (axes.map (size shape)).prod

/-- Line 116: the axes that are not signal axes. -/
def navAxes (shape sig : List Nat) : List Nat :=
  (List.range shape.length).filter fun i => !sig.contains i

/-- Lines 145-151: one pass over the axes, returning the axes appended to `small_idx`.
`small_idx` grows during the pass, but only by indices the pass has gone past. -/
def pass (shape sig small : List Nat) (c : Nat) : List Nat :=
  (List.range shape.length).filter fun i =>
    !(sig.contains i) && !(small.contains i) && decide (size shape i < c)

/-- Lines 131-152: the `while iterate` loop; returns `small_idx` and `nav_axes_chunks`.
`1 / (num_nav_axes - len(small_sizes))` is a `ZeroDivisionError` when all axes are small.
The fuel bounds the number of iterations. -/
def loop (root : Nat → Nat → Nat → Nat) (shape sig : List Nat) (s : Nat) :
    Nat → List Nat → Py (List Nat × Nat)
  | 0, _ => .error .runtimeError
  | fuel + 1, small =>
    let k := (navAxes shape sig).length - small.length
    if k = 0 then .error .zeroDivision
    else
      let c := root s (prodSizes shape small) k
      let new := pass shape sig small c
      if new = [] then .ok (small, c) else loop root shape sig s fuel (small ++ new)

/-- `get_signal_chunks`, lines 108-157. With an empty signal, `floor_divide(target, 0)` is
infinite and `int` of it raises `OverflowError`. -/
def getSignalChunks (root : Nat → Nat → Nat → Nat) (shape : List Nat) (itemsize : Nat)
    (signalAxes : Option (List Nat)) (target : Nat) : Py Chunks :=
  match signalAxes with
  | none => .ok .auto                                                       -- line 109
  | some sig =>
    if shape = [0] then .ok .auto                                           -- line 109
    else
      let bytesPerSignal := prodSizes shape sig * itemsize                  -- line 114
      if bytesPerSignal = 0 then .error .overflowError                      -- line 115
      else
        let s := target / bytesPerSignal
        let numSignals := prodSizes shape (navAxes shape sig)               -- line 118
        if s < 2 ∨ (navAxes shape sig).length = 0 then                      -- lines 119-122
          .ok (.shape ((List.range shape.length).map fun i =>
            if sig.contains i then size shape i else 1))
        else if s > numSignals then .ok (.shape shape)                      -- lines 123-124
        else
          match loop root shape sig s (shape.length + 1) [] with
          | .error e => .error e
          | .ok (small, c) =>                                               -- lines 153-157
            .ok (.shape ((List.range shape.length).map fun i =>
              if sig.contains i || small.contains i then size shape i else c))

end Verif.SignalChunks
