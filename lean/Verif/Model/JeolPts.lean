import Verif.Model.Jeol
import Verif.Py.IntLit
import Verif.Py.Float32
/-!
Model of the loading of spectrum images of JEOL in memory: `_read_pts` and the set-up of `_readcube` in `rsciio/jeol/_api.py`, lines
274-643 and 791-922. The loops over the stream are in `Verif/Model/Jeol.lean`.

The header is the record of the values that are used (its tree is in `Verif/Model/JeolTree.lean`). Numbers are rationals (no
rounding). `rebin_energy`, the factors of `downsample` and the number of sweeps are not negative; `frame_start_index` is a list
with `none` for -1. The S(T)EM image itself is left out except for its axes. Lazy loading, metadata and dates are not modelled here.
-/
namespace Verif.Jeol

/-- The values of the header that are used. -/
structure PtsHeader where
  pixels : Text
  scanSize : Rat
  mag : Rat
  coefA : Rat
  coefB : Rat
  digZ : Rat
  dwell : Rat
  sweep : Nat

/-- The argument `downsample`: a number or an iterable. -/
inductive Down
  | one (n : Nat)
  | many (l : List Nat)

/-- The arguments of `_read_pts`; `maxv` is the largest value of `SI_dtype`. -/
structure Opts where
  rebin : Nat
  sumFrames : Bool
  maxv : Nat
  cutoff : Option Rat
  down : Down
  onlyValid : Bool
  frames : Option (List Int)
  starts : Option (List (Option Nat))
  shifts : Option (List (List Int))

/-- `_check_divisor`, lines 340-342. -/
def checkDivisor (factor number : Nat) : Py Unit := if 1 < factor ∧ number % factor ≠ 0 then .error .valueError else .ok ()

/-- Lines 364-366: width and height from a text like `512x384`. -/
def parsePixels (t : Text) : Py (Int × Int) :=
  match splitChar 'x' t with
  | [a, b] => do
    let w ← intLit a
    let h ← intLit b
    .ok (w, h)
  | _ => .error .valueError

/-- The two factors, lines 368-383. -/
def downFactors (d : Down) (w h : Nat) : Py (Nat × Nat) :=
  match d with
  | .one n => do
    checkDivisor n w
    checkDivisor n h
    .ok (n, n)
  | .many l =>
    if 2 < l.length then .error .valueError
    else match l with
      | [a, b] => do
        checkDivisor a w
        checkDivisor b h
        .ok (a, b)
      | _ => .error .indexError

/-- `int(4096 / n * d)`, lines 387-388. -/
def normOf (n d : Nat) : Py Nat := if n = 0 then .error .zeroDivision else .ok (4096 * d / n)

/-- `int(n / d)`, lines 390-391. -/
def divBy (n d : Nat) : Py Nat := if d = 0 then .error .zeroDivision else .ok (n / d)

/-- The number of channels, lines 393 and 418-421. -/
def channelNumber (o : Opts) (offset scale : Rat) : Py Int :=
  if o.rebin = 0 then .error .zeroDivision
  else match o.cutoff with
    | none => .ok ((4096 / o.rebin : Nat) : Int)
    | some kv => if scale = 0 then .error .zeroDivision else .ok (roundEven ((kv - offset) / scale))

/-- The frames that are asked for, lines 429-434. -/
def askedFrames (o : Opts) (sweep : Nat) : List Int :=
  match o.frames with
  | some (k :: ks) => k :: ks
  | _ => (List.range (sweep + 1)).map fun (k : Nat) => (k : Int)

/-- There is a shift for the frame. -/
def inShifts (o : Opts) (k : Int) : Bool :=
  match o.shifts with
  | none => true
  | some s => decide (k < s.length)

/-- The frames that are in range, lines 436-457. -/
def frameList (o : Opts) (sweep : Nat) : List Nat :=
  ((askedFrames o sweep).filter fun (k : Int) => decide (0 ≤ k ∧ k ≤ (sweep : Int)) && inShifts o k).map Int.toNat

/-- Line 466: the largest frame number and one; an empty array has no maximum. -/
def maxFrame : List Nat → Py Nat
  | [] => .error .valueError
  | k :: ks => .ok (ks.foldl max k + 1)

/-- `frame_start_index`, lines 468-478. -/
def startTable (o : Opts) (n : Nat) : List (Option Nat) :=
  match o.starts with
  | none => (List.replicate n none).set 0 (some 0)
  | some l => if l.length < n then l ++ List.replicate (n - l.length) none else l

/-- `frame_shifts`, lines 480-486: rows of three numbers. Rows of other lengths than two or three are not modelled beyond the
`IndexError` of short ones; rows of different lengths make no array. -/
def shiftTable (o : Opts) (n : Nat) : Py (List (Int × Int × Int)) :=
  match o.shifts with
  | none => .ok (List.replicate n (0, 0, 0))
  | some [] => .error .indexError
  | some (r :: rs) =>
    if r.length = 2 then
      if n < rs.length + 1 ∨ ¬ rs.all (·.length = 2) then .error .valueError
      else .ok ((r :: rs).map (fun r => (r.getD 0 0, r.getD 1 0, 0)) ++ List.replicate (n - (rs.length + 1)) (0, 0, 0))
    else if r.length = 3 then
      if ¬ rs.all (·.length = 3) then .error .valueError
      else .ok ((r :: rs).map fun r => (r.getD 0 0, r.getD 1 0, r.getD 2 0))
    else .error .indexError

/-- Largest and smallest of a list that is not empty. -/
def maxOf (l : List Int) : Int := match l with
  | [] => 0
  | k :: ks => ks.foldl max k
def minOf (l : List Int) : Int := match l with
  | [] => 0
  | k :: ks => ks.foldl min k

/-- The shifts of the frames that are loaded (`frame_shifts[frame_list]`). -/
def shiftsOf (t : List (Int × Int × Int)) (ks : List Nat) : List (Int × Int × Int) := ks.map fun k => t.getD k (0, 0, 0)

/-- What `_readcube` is called with, and the shifts. -/
structure Setup where
  width : Nat
  height : Nat
  channels : Int
  wnorm : Nat
  hnorm : Nat
  frames : List Nat
  starts : List (Option Nat)
  shifts : List (Int × Int × Int)
  offset : Rat
  scale : Rat

/-- `_read_pts` until `_readcube`, lines 344-486. -/
def setup (h : PtsHeader) (o : Opts) : Py Setup := do
  checkDivisor o.rebin 4096
  let (w, ht) ← parsePixels h.pixels
  let (dw, dh) ← downFactors o.down w.toNat ht.toNat
  let wnorm ← normOf w.toNat dw
  let hnorm ← normOf ht.toNat dh
  let width ← divBy w.toNat dw
  let height ← divBy ht.toNat dh
  let offset := h.coefB - h.coefA * h.digZ
  let scale := h.coefA * (o.rebin : Rat)
  let channels ← channelNumber o offset scale
  let ks := frameList o h.sweep
  let n ← maxFrame ks
  let shifts ← shiftTable o n
  .ok ⟨width, height, channels, wnorm, hnorm, ks, startTable o n, shifts, offset, scale⟩

/-- `max_shift` and `min_shift` of rows and columns, lines 816-820. -/
def maxShift (s : Setup) : Int × Int := (maxOf ((shiftsOf s.shifts s.frames).map (·.1)), maxOf ((shiftsOf s.shifts s.frames).map (·.2.1)))
def minShift (s : Setup) : Int × Int := (minOf ((shiftsOf s.shifts s.frames).map (·.1)), minOf ((shiftsOf s.shifts s.frames).map (·.2.1)))

/-- The size of the area that all frames have, lines 821-824. -/
def areaWidth (s : Setup) : Int := s.width + ((minShift s).2 - (maxShift s).2)
def areaHeight (s : Setup) : Int := s.height + ((minShift s).1 - (maxShift s).1)

/-- The parameters of a frame, lines 822 and 865-886; the modulus of the S(T)EM image is that of `EM_dtype`, lines 794-799. -/
def framePar (s : Setup) (o : Opts) (sweep : Nat) (k : Nat) : Par :=
  let f := s.shifts.getD k (0, 0, 0)
  ⟨areaWidth s, areaHeight s, s.channels, s.wnorm, s.hnorm, o.rebin, f.2.1 - (maxShift s).2, f.1 - (maxShift s).1, f.2.2, o.maxv,
    s.width, s.height, if o.sumFrames = true ∧ 16 ≤ sweep then 2 ^ 32 else 2 ^ 16⟩

/-- The length of `a[:stop]` for an axis of `n` elements. -/
def sliceLen (n : Nat) (stop : Int) : Nat := if stop < 0 then ((n : Int) + stop).toNat else min n stop.toNat

/-- `frame_num` at the end of the loop: `n` frames of the list were accepted. -/
def frameNum (ks : List Nat) (n : Nat) : Nat :=
  match ks[n]? with
  | some k => k
  | none => match ks.getLast? with
    | none => 0
    | some k => k + 1

/-- The loop without `sum_frames` in an array for `sweep + 1` frames. -/
def loadFrames (s : Setup) (o : Opts) (sweep : Nat) (raw : List Nat) : Py (List Map × List (Option Nat)) :=
  match cubeFrames (framePar s o sweep) o.onlyValid raw (s.frames.take (sweep + 1)) s.starts with
  | .error e => .error e
  | .ok (ms, idx) =>
    if ms.length = sweep + 1 ∧ sweep + 1 < s.frames.length then .error .indexError else .ok (ms, idx)

structure PtsAxis where
  name : Text
  size : Int
  offset : Rat
  scale : Rat
  navigate : Bool
  deriving DecidableEq

/-- A spectrum image: the maps (one, or one for each frame), the shape of the array, its axes, and the axes of the S(T)EM image. -/
structure PtsSignal where
  maps : List Map
  shape : List Int
  axes : List PtsAxis
  emAxes : List PtsAxis

/-- Lines 520-570. The axes of the image are the same dictionaries as those of the spectrum image: setting `navigate` sets
it for both. `frame`: the frame axis. -/
def ptsAxes (h : PtsHeader) (s : Setup) (frame : List PtsAxis) (width height : Nat) : List PtsAxis × List PtsAxis :=
  let fov := h.scanSize / h.mag * 1000
  let em := frame ++ [⟨['y'], height, (maxShift s).2, fov / s.height, true⟩, ⟨['x'], width, (maxShift s).1, fov / s.width, true⟩]
  (em ++ [⟨['E', 'n', 'e', 'r', 'g', 'y'], s.channels, s.offset, s.scale, false⟩], em)

/-- `_read_pts` in memory. A negative number of channels makes no array (line 808). -/
def readPts (h : PtsHeader) (o : Opts) (raw : List Nat) : Py PtsSignal := do
  let s ← setup h o
  if h.mag = 0 then .error .zeroDivision
  else if s.channels < 0 then .error .valueError
  else
    let w := sliceLen s.width (areaWidth s)
    let ht := sliceLen s.height (areaHeight s)
    if o.sumFrames then
      let (m, _) ← cubeSum (framePar s o h.sweep) o.onlyValid raw s.frames s.starts emptyMap emptyEm
      let (axes, em) := ptsAxes h s [] w ht
      .ok ⟨[m], [(ht : Int), w, s.channels], axes, em⟩
    else
      let (ms, _) ← loadFrames s o h.sweep raw
      let frame : PtsAxis := ⟨['F', 'r', 'a', 'm', 'e'], frameNum s.frames ms.length, 0,
        h.dwell * (s.height : Rat) * (s.width : Rat) / 1000, true⟩
      let (axes, em) := ptsAxes h s [frame] w ht
      .ok ⟨ms, [(ms.length : Int), ht, w, s.channels], axes, em⟩

end Verif.Jeol
