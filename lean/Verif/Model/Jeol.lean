import Verif.Py.Basic
/-!
Model of the reading of event streams in `rsciio/jeol/_api.py` (`_skip_frame`, `_readframe_dense`,
`_readframe_lazy`, `_readcube`).

The stream is a list of 16-bit words. Spectrum images are functions of row, column and channel with
natural numbers as values; the dtype is unsigned with maximum `maxv`. The functions are compiled with
numba; an index outside the S(T)EM image, which compiled code does not check, and a variable used
before it is set, which compiled code leaves undefined, are modelled by the exceptions of Python.
-/
namespace Verif.Jeol

/-- Parameters of `_readframe_*`: size of the map, normalisations, shifts, the largest value of the
dtype; dimensions and modulus of the S(T)EM image. -/
structure Par where
  width : Int
  height : Int
  channels : Int
  wnorm : Nat
  hnorm : Nat
  rebin : Nat
  dx : Int
  dy : Int
  dz : Int
  maxv : Nat
  emRows : Int
  emCols : Int
  emMod : Nat

abbrev Map := Int → Int → Int → Nat
abbrev Em := Int → Int → Nat

/-- Local variables of `_readframe_dense`. -/
structure Dense where
  x : Int
  y : Int
  prevX : Option Nat
  prevY : Int
  count : Nat
  hasEm : Bool
  map : Map
  em : Em

def setMap (m : Map) (y x z : Int) (v : Nat) : Map :=
  fun y' x' z' => if y' = y ∧ x' = x ∧ z' = z then v else m y' x' z'

def setEm (m : Em) (y x : Int) (v : Nat) : Em := fun y' x' => if y' = y ∧ x' = x then v else m y' x'

/-- `hypermap[y, x, z] += countup` for an unsigned dtype. -/
def bump (maxv : Nat) (up : Bool) (v : Nat) : Nat :=
  if up then (if v = maxv then 0 else v + 1) else (if v = 0 then maxv else v - 1)

/-- `em_image[y, x] += value * countup`. -/
def bumpEm (m : Nat) (up : Bool) (v a : Nat) : Nat :=
  if up then (v + a) % m else (v + (m - a % m)) % m

/-- The loop of `_readframe_dense`, lines 1062-1090. `up` is `countup = 1`. -/
def denseLoop (p : Par) (up : Bool) : Dense → List Nat → Py Dense
  | s, [] => .ok s
  | s, w :: ws =>
    let v := w % 4096
    let ty := w / 4096
    if ty = 8 then
      let x : Int := (v / p.wnorm : Nat) + p.dx
      denseLoop p up { s with x := if p.width ≤ x then -1 else x, prevX := some v,
                              count := s.count + 1 } ws
    else if ty = 9 then
      let y : Int := (v / p.hnorm : Nat) + p.dy
      if (v : Int) < s.prevY then .ok { s with y := y }
      else denseLoop p up { s with y := if p.height ≤ y then -1 else y, prevY := v,
                                   count := s.count + 1 } ws
    else if ty = 10 ∧ 0 ≤ s.x ∧ 0 ≤ s.y then
      if p.emRows ≤ s.y ∨ p.emCols ≤ s.x then .error .indexError
      else denseLoop p up { s with em := setEm s.em s.y s.x (bumpEm p.emMod up (s.em s.y s.x) v),
                                   hasEm := true, count := s.count + 1 } ws
    else if ty = 11 then
      let z : Int := (v / p.rebin : Nat) + p.dz
      if z < p.channels ∧ 0 ≤ s.x ∧ 0 ≤ s.y ∧ 0 ≤ z then
        let c := bump p.maxv up (s.map s.y s.x z)
        if c = p.maxv then .error .valueError
        else denseLoop p up { s with map := setMap s.map s.y s.x z c, count := s.count + 1 } ws
      else denseLoop p up { s with count := s.count + 1 } ws
    else denseLoop p up { s with count := s.count + 1 } ws

/-- What `_readframe_dense` returns, with the two arrays after the call. -/
structure Read where
  count : Nat
  hasEm : Bool
  valid : Bool
  map : Map
  em : Em

/-- `_readframe_dense`, lines 994-1103. -/
def readDense (p : Par) (up : Bool) (map : Map) (em : Em) (ws : List Nat) : Py Read :=
  match denseLoop p up ⟨0, 0, none, -1, 0, false, map, em⟩ ws with
  | .error e => .error e
  | .ok s =>
    if 4096 - (p.hnorm : Int) ≤ s.prevY then
      match s.prevX with
      | none => .error .nameError
      | some px => .ok ⟨s.count, s.hasEm, decide (4096 - (p.wnorm : Int) ≤ px) || !s.hasEm,
          s.map, s.em⟩
    else .ok ⟨s.count, s.hasEm, false, s.map, s.em⟩

/-- `_skip_frame`, lines 1208-1219. -/
def skipLoop : Nat → Nat → List Nat → Nat
  | n, _, [] => n
  | n, prev, w :: ws =>
    if w / 4096 = 9 then
      if w % 4096 < prev then n else skipLoop (n + 1) (w % 4096) ws
    else skipLoop (n + 1) prev ws

def skipFrame (ws : List Nat) : Nat := skipLoop 0 0 ws

/-- Local variables of `_readframe_lazy`. -/
structure Lazy where
  x : Option Int
  y : Option Int
  prevX : Nat
  prevY : Nat
  count : Nat
  hasEm : Bool
  data : List (Int × Int × Int)
  em : Em

/-- The loop of `_readframe_lazy`, lines 1171-1196 (`y >= width` is in the code). -/
def lazyLoop (p : Par) : Lazy → List Nat → Py Lazy
  | s, [] => .ok s
  | s, w :: ws =>
    let v := w % 4096
    let ty := w / 4096
    if ty = 8 then
      let x : Int := (v / p.wnorm : Nat) + p.dx
      lazyLoop p { s with x := some (if p.width ≤ x then -1 else x), prevX := v,
                          count := s.count + 1 } ws
    else if ty = 9 then
      if v < s.prevY then .ok { s with count := s.count + 1 }
      else
        let y : Int := (v / p.hnorm : Nat) + p.dy
        lazyLoop p { s with y := some (if p.width ≤ y then -1 else y), prevY := v,
                            count := s.count + 1 } ws
    else if ty = 10 then
      match s.x with
      | none => .error .nameError
      | some x =>
        if 0 ≤ x then
          match s.y with
          | none => .error .nameError
          | some y =>
            if 0 ≤ y then
              if p.emRows ≤ y ∨ p.emCols ≤ x then .error .indexError
              else lazyLoop p { s with em := setEm s.em y x (bumpEm p.emMod true (s.em y x) v),
                                       hasEm := true, count := s.count + 1 } ws
            else lazyLoop p { s with count := s.count + 1 } ws
        else lazyLoop p { s with count := s.count + 1 } ws
    else if ty = 11 then
      let z : Int := (v / p.rebin : Nat) + p.dz
      if 0 ≤ z ∧ z < p.channels then
        match s.x, s.y with
        | some x, some y =>
          lazyLoop p { s with data := s.data ++ [(y, x, z)], count := s.count + 1 } ws
        | _, _ => .error .nameError
      else lazyLoop p { s with count := s.count + 1 } ws
    else lazyLoop p { s with count := s.count + 1 } ws

structure ReadLazy where
  count : Nat
  hasEm : Bool
  valid : Bool
  data : List (Int × Int × Int)
  em : Em

/-- `_readframe_lazy`, lines 1107-1204. -/
def readLazy (p : Par) (em : Em) (ws : List Nat) : Py ReadLazy :=
  match lazyLoop p ⟨none, none, 0, 0, 0, false, [], em⟩ ws with
  | .error e => .error e
  | .ok s => .ok ⟨s.count, s.hasEm,
      decide ((s.prevY : Int) = 4096 - p.hnorm) &&
        (decide ((s.prevX : Int) = 4096 - p.wnorm) || !s.hasEm), s.data, s.em⟩

/-- The events kept for the sparse array, lines 937-946. -/
def validCube (p : Par) (d : List (Int × Int × Int)) : List (Int × Int × Int) :=
  d.filter fun (y, x, z) => 0 ≤ y ∧ y < p.height ∧ 0 ≤ x ∧ x < p.width ∧ 0 ≤ z ∧ z < p.channels

/-- Lines 852-863: the start of frame `k`, from the last known start before it; the starts passed on
the way are recorded. `idx` is `frame_start_index`; -1 is `none`. -/
def lastKnown (idx : List (Option Nat)) : Nat → Py (Nat × Nat)
  | 0 => match idx with
    | some s :: _ => .ok (0, s)
    | none :: _ => .ok (0, 0)      -- `rawdata[-1:]`; the first start is always known
    | [] => .error .indexError
  | k + 1 => match idx[k + 1]? with
    | some (some s) => .ok (k + 1, s)
    | some none => lastKnown idx k
    | none => .error .indexError

def skipTo (raw : List Nat) : Nat → Nat → Nat → List (Option Nat) → Nat × List (Option Nat)
  | 0, _, p, idx => (p, idx)
  | n + 1, num, p, idx =>
    let p := p + skipFrame (raw.drop p)
    skipTo raw n (num + 1) p (idx.set (num + 1) (some p))

/-- Start of frame `k` and the table after it. -/
def frameStart (raw : List Nat) (idx : List (Option Nat)) (k : Nat) :
    Py (Nat × List (Option Nat)) :=
  match lastKnown idx k with
  | .error e => .error e
  | .ok (i, p) => .ok (skipTo raw (k - i) i p idx)

def emptyMap : Map := fun _ _ _ => 0
def emptyEm : Em := fun _ _ => 0

/-- The loop of `_readcube` without `sum_frames`, in memory, lines 846-918: the spectrum images of the
frames of the list and the table of frame starts. `par` gives the parameters of a frame (the shifts
depend on it). -/
def cubeFrames (par : Nat → Par) (onlyValid : Bool) (raw : List Nat) :
    List Nat → List (Option Nat) → Py (List Map × List (Option Nat))
  | [], idx => .ok ([], idx)
  | k :: ks, idx =>
    match frameStart raw idx k with
    | .error e => .error e
    | .ok (p, idx) =>
      match readDense (par k) true emptyMap emptyEm (raw.drop p) with
      | .error e => .error e
      | .ok r =>
        if r.count = 0 then .ok ([], idx)
        else if r.valid || !onlyValid then
          match cubeFrames par onlyValid raw ks (idx.set (k + 1) (some (p + r.count))) with
          | .error e => .error e
          | .ok (ms, idx) => .ok (r.map :: ms, idx)
        else .ok ([], idx)

/-- The same loop with `sum_frames`: one map is filled; a frame that is not accepted is read again
with `countup = -1`. -/
def cubeSum (par : Nat → Par) (onlyValid : Bool) (raw : List Nat) :
    List Nat → List (Option Nat) → Map → Em → Py (Map × Em)
  | [], _, m, e => .ok (m, e)
  | k :: ks, idx, m, e =>
    match frameStart raw idx k with
    | .error er => .error er
    | .ok (p, idx) =>
      match readDense (par k) true m e (raw.drop p) with
      | .error er => .error er
      | .ok r =>
        if r.count = 0 then .ok (r.map, r.em)
        else if r.valid || !onlyValid then
          cubeSum par onlyValid raw ks (idx.set (k + 1) (some (p + r.count))) r.map r.em
        else match readDense (par k) false r.map r.em (raw.drop p) with
          | .error er => .error er
          | .ok r' => .ok (r'.map, r'.em)

end Verif.Jeol
