import Verif.Py.Basic
/-!
Model of `rsciio/utils/_distributed.py`.

External code and its assumed behaviour: `dask.array.core.normalize_chunks` returns one list of
chunk lengths per axis (the model starts from that list); `dask.array.map_blocks` calls the
function once per block and the element of the result at index `x` is the element of block `b`
at the local index, where block number and local index are found per axis from the chunk
lengths (`locate`).
-/
namespace Verif.Distributed

/-- An n-dimensional array: its shape and its element at each index. -/
structure Arr (α : Type) where
  shape : List Nat
  val : List Nat → α

/-- `np.ndindex(shape)` (line 68): all indices of an array, last axis fastest. -/
def ndindex : List Nat → List (List Nat)
  | [] => [[]]
  | n :: ns => (List.range n).flatMap fun i => (ndindex ns).map (i :: ·)

/-- Line 70: `int(np.sum(chunk[:i]))`. -/
def start (chunk : List Nat) (i : Nat) : Nat := (chunk.take i).sum

/-- Lines 69-72: `[start, stop]` for each axis of the chunk number `ind`. `chunk[i]` cannot
fail because `ind` comes from `np.ndindex`; the model returns `IndexError` otherwise. -/
def chunkSlices : List (List Nat) → List Nat → Py (List (Nat × Nat))
  | [], [] => .ok []
  | chunk :: chunks, i :: ind =>
    match chunk[i]?, chunkSlices chunks ind with
    | some c, .ok rest => .ok ((start chunk i, start chunk i + c) :: rest)
    | _, _ => .error .indexError
  | _, _ => .error .indexError

/-- `get_chunk_slice`, lines 60-74, after `normalize_chunks`: the slices in `np.ndindex` order. -/
def getChunkSlice (chunks : List (List Nat)) : List (Py (List (Nat × Nat))) :=
  (ndindex (chunks.map List.length)).map (chunkSlices chunks)

/-- NumPy basic slicing `data[s0:e0, s1:e1, ...]` with non-negative bounds: bounds are clipped
to the axis length. -/
def sliceArr {α : Type} (a : Arr α) (s : List (Nat × Nat)) : Arr α where
  shape := List.zipWith (fun n p => min p.2 n - min p.1 n) a.shape s
  val := fun idx => a.val (List.zipWith (fun p i => p.1 + i) s idx)

/-- `slice_memmap(..., positions=False)`, lines 164-182. `np.squeeze` of a `(1, ..., 1, n, 2)`
block is the `(n, 2)` table of slices; for `n = 1` it is the vector `[start, stop]` and the
special case of line 177 builds the single slice. -/
def sliceMemmap {α : Type} (data : Arr α) (slices : List (Nat × Nat)) : Arr α :=
  match slices with
  | [s] => sliceArr data [s]         -- lines 177-179
  | ss => sliceArr data ss           -- line 181

/-- Which block holds index `x` along one axis, and where in the block (dask). -/
def locate : List Nat → Nat → Option (Nat × Nat)
  | [], _ => none
  | c :: cs, x =>
    if x < c then some (0, x)
    else (locate cs (x - c)).map fun q => (q.1 + 1, q.2)

/-- Block number and local index for all axes (dask). -/
def locateAll : List (List Nat) → List Nat → Option (List Nat × List Nat)
  | [], [] => some ([], [])
  | c :: cs, x :: xs =>
    match locate c x, locateAll cs xs with
    | some q, some r => some (q.1 :: r.1, q.2 :: r.2)
    | _, _ => none
  | _, _ => none

/-- `memmap_distributed(..., positions=None)`, lines 268-296: element `idx` of the computed
dask array. -/
def loadElem {α : Type} (data : Arr α) (chunks : List (List Nat)) (idx : List Nat) : Py α :=
  match locateAll chunks idx with
  | none => .error .indexError
  | some (b, loc) =>
    match chunkSlices chunks b with
    | .ok s => .ok ((sliceMemmap data s).val loc)
    | .error e => .error e

/-! ### Arbitrary positions -/

/-- One coordinate of a NumPy integer index: negative values count from the end. -/
def normIndex (n : Nat) (p : Int) : Py Nat :=
  if 0 ≤ p ∧ p < n then .ok p.toNat
  else if -(n : Int) ≤ p ∧ p < 0 then .ok (p + n).toNat
  else .error .indexError

/-- `tuple(p)` as an index of the navigation axes (line 121). Simplification: a position with
a number of coordinates different from the number of navigation axes is an error. -/
def normPos : List Nat → List Int → Py (List Nat)
  | [], [] => .ok []
  | n :: ns, p :: ps =>
    match normIndex n p, normPos ns ps with
    | .ok i, .ok is => .ok (i :: is)
    | .error e, _ => .error e
    | _, .error e => .error e
  | _, _ => .error .indexError

/-- Lines 118-121: the loop `pos_mapping[tuple(p)] = i + 1`. -/
def posLoop (nav : List Nat) : List (List Int) → Nat → (List Nat → Nat) → Py (List Nat → Nat)
  | [], _, m => .ok m
  | p :: ps, i, m =>
    match normPos nav p with
    | .ok q => posLoop nav ps (i + 1) (fun x => if x = q then i + 1 else m x)
    | .error e => .error e

/-- Lines 118-122: the position map, `-1` where no frame was recorded. -/
def posMapping (nav : List Nat) (positions : List (List Int)) : Py (List Nat → Int) :=
  match posLoop nav positions 0 (fun _ => 0) with
  | .ok m => .ok fun x => (m x : Int) - 1
  | .error e => .error e

/-- The index into a block with axes of length one removed (`np.squeeze`, line 164). -/
def unsqueeze : List Nat → List Nat → List Nat
  | [], _ => []
  | n :: ns, xs =>
    if n = 1 then 0 :: unsqueeze ns xs
    else match xs with
      | [] => 0 :: unsqueeze ns []
      | x :: xs => x :: unsqueeze ns xs

/-- `np.squeeze`, line 164. -/
def squeeze {α : Type} (a : Arr α) : Arr α where
  shape := a.shape.filter (· ≠ 1)
  val := fun xs => a.val (unsqueeze a.shape xs)

/-- `slice_memmap(..., positions=True)`, lines 164-175. `frames` holds the `n` recorded frames,
`zero` is a frame of zeros. `-1 in slices_` on a NumPy scalar is a `TypeError`. An index `-1`
selects the last frame, which is then overwritten by zeros. The result is an array of frames. -/
def sliceMemmapPos {α : Type} (n : Nat) (frames : Nat → α) (zero : α) (block : Arr Int) :
    Py (Arr α) :=
  if n = 0 then .error .valueError          -- np.memmap of an empty file region
  else
    let s := squeeze block
    if s.shape = [] then .error .typeError  -- line 170 on a scalar
    else .ok ⟨s.shape, fun xs =>
      if s.val xs = -1 then zero else frames (s.val xs).toNat⟩

/-- The part of an array that belongs to block `b` (dask `from_array` chunking, line 127). -/
def blockOf {α : Type} (m : List Nat → α) (slices : List (Nat × Nat)) : Arr α where
  shape := slices.map fun p => p.2 - p.1
  val := fun xs => m (List.zipWith (fun p i => p.1 + i) slices xs)

/-- Result of `slice_memmap` for block number `b` (lines 118-127, 164-175): `nav` is the
navigation shape, `chunks` the chunk lengths of the navigation axes. -/
def loadBlockPos {α : Type} (nav : List Nat) (positions : List (List Int)) (frames : Nat → α)
    (zero : α) (chunks : List (List Nat)) (b : List Nat) : Py (Arr α) :=
  match posMapping nav positions, chunkSlices chunks b with
  | .ok m, .ok s => sliceMemmapPos positions.length frames zero (blockOf m s)
  | .error e, _ => .error e
  | _, .error e => .error e

/-- `memmap_distributed(..., positions=...)`, lines 256-267 and 281-296: the frame at navigation
index `idx`. The block has to have the shape dask was promised (`chunks=data_chunks`, line 291);
otherwise the result does not have the shape of the navigation axes, which is reported here as
`ValueError`. -/
def loadFramePos {α : Type} (nav : List Nat) (positions : List (List Int)) (frames : Nat → α)
    (zero : α) (chunks : List (List Nat)) (idx : List Nat) : Py α :=
  match locateAll chunks idx with
  | none => .error .indexError
  | some (b, loc) =>
    match loadBlockPos nav positions frames zero chunks b, chunkSlices chunks b with
    | .ok a, .ok s => if a.shape = s.map (fun p => p.2 - p.1) then .ok (a.val loc) else .error .valueError
    | .error e, _ => .error e
    | _, .error e => .error e

end Verif.Distributed
