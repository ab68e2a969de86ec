import Verif.Py.Basic
/-!
Model of `rsciio/utils/_fei_stream_readers.py`.

The functions are numba-compiled in practice (`sparse`, imported at line 21, depends on
numba). Simplification: an index outside the array is `IndexError` (the pure-Python
behaviour); compiled code would touch foreign memory instead.
-/
namespace Verif.Fei

/-- The end-of-pixel marker of the stream (`65535`, e.g. lines 55, 70, 281, 409). -/
def marker : Nat := 65535

/-- A 4-D integer array `(frame, y, x, channel)`: shape and contents.
`np.zeros` arrays of lines 356-364 are of this kind. -/
structure Img4 where
  nf : Nat
  ny : Nat
  nx : Nat
  nc : Nat
  val : Nat → Nat → Nat → Nat → Nat

/-- A 3-D integer array `(y, x, channel)` (lines 375-378). -/
structure Img3 where
  ny : Nat
  nx : Nat
  nc : Nat
  val : Nat → Nat → Nat → Nat

/-- `np.zeros((nf, ny, nx, nc))`, lines 356-364. -/
def Img4.zeros (nf ny nx nc : Nat) : Img4 := ⟨nf, ny, nx, nc, fun _ _ _ _ => 0⟩

/-- `np.zeros((ny, nx, nc))`, lines 375-378. -/
def Img3.zeros (ny nx nc : Nat) : Img3 := ⟨ny, nx, nc, fun _ _ _ => 0⟩

/-- `a[f, y, x, c] += 1` for an unsigned dtype with `m` values (line 310-315). -/
def Img4.incr (m : Nat) (a : Img4) (f y x c : Nat) : Py Img4 :=
  if f < a.nf ∧ y < a.ny ∧ x < a.nx ∧ c < a.nc then
    .ok { a with val := fun f' y' x' c' =>
      if f' = f ∧ y' = y ∧ x' = x ∧ c' = c then (a.val f y x c + 1) % m else a.val f' y' x' c' }
  else .error .indexError

/-- `a[y, x, c] += 1` for an unsigned dtype with `m` values (line 283-287). -/
def Img3.incr (m : Nat) (a : Img3) (y x c : Nat) : Py Img3 :=
  if y < a.ny ∧ x < a.nx ∧ c < a.nc then
    .ok { a with val := fun y' x' c' =>
      if y' = y ∧ x' = x ∧ c' = c then (a.val y x c + 1) % m else a.val y' x' c' }
  else .error .indexError

/-- Loop of `_fill_array_with_stream`, lines 299-317. `nav`, `frame` are
`navigation_index` and `frame_number`; `m` is the number of values of the dtype. -/
def fillFrames (m first last rebin : Nat) : List Nat → Nat → Nat → Img4 → Py Img4
  | [], _, _, a => .ok a
  | v :: vs, nav, frame, a =>
    -- lines 301-306
    let wrap := nav = a.ny * a.nx
    let nav' := if wrap then 0 else nav
    let frame' := if wrap then frame + 1 else frame
    if wrap ∧ frame' = last then .ok a
    else if v ≠ marker then                                   -- line 308
      if first ≤ frame' then                                  -- line 309
        if a.nx = 0 ∨ rebin = 0 then .error .zeroDivision
        else
          match a.incr m (frame' - first) (nav' / a.nx) (nav' % a.nx) (v / rebin) with
          | .ok a' => fillFrames m first last rebin vs nav' frame' a'
          | .error e => .error e
      else fillFrames m first last rebin vs nav' frame' a
    else fillFrames m first last rebin vs (nav' + 1) frame' a -- line 317

/-- Loop of `_fill_array_with_stream_sum_frames`, lines 272-289. -/
def fillSum (m first last rebin : Nat) : List Nat → Nat → Nat → Img3 → Py Img3
  | [], _, _, a => .ok a
  | v :: vs, nav, frame, a =>
    -- lines 274-279
    let wrap := nav = a.ny * a.nx
    let nav' := if wrap then 0 else nav
    let frame' := if wrap then frame + 1 else frame
    if wrap ∧ frame' = last then .ok a
    else if v ≠ marker then                                   -- line 281
      if first ≤ frame' then                                  -- line 282
        if a.nx = 0 ∨ rebin = 0 then .error .zeroDivision
        else
          match a.incr m (nav' / a.nx) (nav' % a.nx) (v / rebin) with
          | .ok a' => fillSum m first last rebin vs nav' frame' a'
          | .error e => .error e
      else fillSum m first last rebin vs nav' frame' a
    else fillSum m first last rebin vs (nav' + 1) frame' a    -- line 289

/-- `stream_to_array(..., sum_frames=False, spectrum_image=None)`, lines 353-372.
`int(channels / rebin_energy)` is taken as exact integer division; a negative number of
frames makes `np.zeros` raise `ValueError`. -/
def streamToFrames (m : Nat) (stream : List Nat) (ny nx channels last first rebin : Nat) :
    Py Img4 :=
  if rebin = 0 then .error .zeroDivision
  else if last < first then .error .valueError
  else fillFrames m first last rebin stream 0 0 (Img4.zeros (last - first) ny nx (channels / rebin))

/-- `stream_to_array(..., sum_frames=True, spectrum_image=None)`, lines 374-386. -/
def streamToSum (m : Nat) (stream : List Nat) (ny nx channels last first rebin : Nat) :
    Py Img3 :=
  if rebin = 0 then .error .zeroDivision
  else fillSum m first last rebin stream 0 0 (Img3.zeros ny nx (channels / rebin))

/-- State of the sparse readers, lines 42-52 / 130-140. `out` is the list of stored
`(frame, navigation index, channel, count)` runs, in order. -/
structure SpState where
  nav : Nat
  frame : Nat
  data : Nat
  chan : Nat
  out : List (Nat × Nat × Nat × Nat)

/-- `coords_list.append(...)`, `data_list.append(data)` (e.g. lines 76-83). The division of
the coordinates by `xsize` and `rebin_energy` is done once at the end (`spCoord4`, `spCoord3`). -/
def SpState.store (s : SpState) : SpState :=
  { s with out := s.out ++ [(s.frame, s.nav, s.chan, s.data)] }

/-- One iteration of the loop of `_stream_to_sparse_COO_array` (lines 141-195) and
`_stream_to_sparse_COO_array_sum_frames` (lines 53-105), which differ only in the stored
coordinates. `none` is `break`. -/
def spStep (size first last : Nat) (s : SpState) (v : Nat) : Option SpState :=
  if s.frame < first then                                       -- line 142
    if v ≠ marker then some s
    else if s.nav + 1 = size then some { s with nav := 0, frame := s.frame + 1 }
    else some { s with nav := s.nav + 1 }
  else
    -- lines 152-156
    let wrap := s.nav = size
    let s := if wrap then { s with nav := 0, frame := s.frame + 1 } else s
    if wrap ∧ s.frame = last then none
    else if v ≠ marker then                                     -- line 158
      if s.data ≠ 0 then
        if v = s.chan then some { s with data := s.data + 1 }   -- line 161
        else some { s.store with data := 1, chan := v }         -- lines 164-176
      else some { s with data := 1, chan := v }                 -- lines 178-181
    else
      let s := if s.data ≠ 0 then s.store else s                -- lines 184-193
      some { s with nav := s.nav + 1, data := 0 }               -- lines 194-195

/-- The loop; a `break` drops the rest of the stream. -/
def spLoop (size first last : Nat) : List Nat → SpState → SpState
  | [], s => s
  | v :: vs, s =>
    match spStep size first last s v with
    | none => { s with nav := 0, frame := s.frame + 1 }          -- the break of line 156
    | some s' => spLoop size first last vs s'

/-- Lines 130-140 and 197-208: initial state, loop, final store. -/
def spRuns (size first last : Nat) (stream : List Nat) : List (Nat × Nat × Nat × Nat) :=
  let s := spLoop size first last stream ⟨0, 0, 0, 0, []⟩
  (if s.data ≠ 0 then s.store else s).out

/-- Coordinates of lines 200-207. -/
def spCoord4 (nx first rebin : Nat) (r : Nat × Nat × Nat × Nat) : Nat × Nat × Nat × Nat :=
  (r.1 - first, r.2.1 / nx, r.2.1 % nx, r.2.2.1 / rebin)

/-- Coordinates of lines 110-116. -/
def spCoord3 (nx rebin : Nat) (r : Nat × Nat × Nat × Nat) : Nat × Nat × Nat :=
  (r.2.1 / nx, r.2.1 % nx, r.2.2.1 / rebin)

/-- `stream_to_sparse_COO_array(..., sum_frames=False)`, lines 217-261, as the dense value
of the COO array: `sparse.COO` adds up entries with equal coordinates and raises
`ValueError` for coordinates outside the shape (external, assumed). -/
def sparseFrames (stream : List Nat) (ny nx channels last first rebin : Nat) : Py Img4 :=
  if nx = 0 ∨ rebin = 0 then .error .zeroDivision
  else
    let runs := spRuns (nx * ny) first last stream
    let inShape := fun r =>
      let q := spCoord4 nx first rebin r
      decide (q.1 < last - first ∧ q.2.1 < ny ∧ q.2.2.1 < nx ∧ q.2.2.2 < channels / rebin)
    if runs.all inShape then
      .ok ⟨last - first, ny, nx, channels / rebin, fun f y x c =>
        (runs.map fun r => if spCoord4 nx first rebin r = (f, y, x, c) then r.2.2.2 else 0).sum⟩
    else .error .valueError

/-- `stream_to_sparse_COO_array(..., sum_frames=True)`, lines 241-249. -/
def sparseSum (stream : List Nat) (ny nx channels last first rebin : Nat) : Py Img3 :=
  if nx = 0 ∨ rebin = 0 then .error .zeroDivision
  else
    let runs := spRuns (nx * ny) first last stream
    let inShape := fun r =>
      let q := spCoord3 nx rebin r
      decide (q.1 < ny ∧ q.2.1 < nx ∧ q.2.2 < channels / rebin)
    if runs.all inShape then
      .ok ⟨ny, nx, channels / rebin, fun y x c =>
        (runs.map fun r => if spCoord3 nx rebin r = (y, x, c) then r.2.2.2 else 0).sum⟩
    else .error .valueError

/-- Loop of `array_to_stream`, lines 403-409 (`channel` is the running channel). -/
def toStreamLoop (channels : Nat) : List Nat → Nat → List Nat
  | [], _ => []
  | v :: vs, channel =>
    List.replicate v channel ++
      (if (channel + 1) % channels = 0 then marker :: toStreamLoop channels vs 0
       else toStreamLoop channels vs (channel + 1))

/-- `array_to_stream`, lines 390-412: `flat` is `array.ravel()`, `channels` is
`array.shape[-1]`; the last element is removed (line 410). -/
def arrayToStream (channels : Nat) (flat : List Nat) : List Nat :=
  (toStreamLoop channels flat 0).dropLast

end Verif.Fei
