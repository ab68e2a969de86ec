import Verif.Py.Text
import Mathlib.Data.Rat.Defs
import Mathlib.Algebra.Order.Ring.Rat
/-!
Model of `rsciio/tofwerk/_reconstruction.py` and of the parts of `file_reader` and `available_signals` of
`rsciio/tofwerk/_api.py` that select, order and align data.

Simplifications: masses and limits are rational numbers (no NaN), counts are natural numbers (the code
accumulates them as `float32`, exact up to 2^24). `np.argsort` is a parameter (its result for equal
keys is not specified). Metadata, the pixel size, progress bars and the reading of HDF5 are left out.
-/
namespace Verif.Tofwerk

/-- An entry of the peak table. -/
structure Peak where
  label : Text
  mass : Rat
  lo : Rat
  hi : Rat
  deriving DecidableEq

/-! ### Reconstruction, `_reconstruction.py` -/

/-- `np.searchsorted(l, x, side="right")` for a sorted list: the number of entries up to `x`. -/
def searchRight (l : List Rat) (x : Rat) : Nat := l.countP (· ≤ x)

/-- `l[σ]` for an index array. -/
def takeAll {α : Type} (l : List α) (σ : List Nat) : Py (List α) :=
  match σ with
  | [] => .ok []
  | k :: σ => match l[k]? with
    | none => .error .indexError
    | some v => match takeAll l σ with
      | .error e => .error e
      | .ok vs => .ok (v :: vs)

/-- `np.cumsum` behind a start value. -/
def cumsum : Nat → List Nat → List Nat
  | _, [] => []
  | acc, n :: ns => (acc + n) :: cumsum (acc + n) ns

/-- `_flatten_event_row`, lines 137-147. -/
def flattenRow (row : List (List Nat)) : List Nat × List Nat :=
  let offsets := 0 :: cumsum 0 (row.map List.length)
  (if 0 < offsets.getLastD 0 then row.flatten else [], offsets)

/-- What both implementations are given. `low` and `high` are sorted. -/
structure Setup where
  clock : Nat
  samples : Nat
  mass : List Rat
  low : List Rat
  high : List Rat

/-- `result_sx[x, b] += 1`. -/
def bump (r : List (List Nat)) (x b : Nat) : List (List Nat) := r.modify x fun row => row.modify b (· + 1)

/-- Lines 191-197: one event. Integer division by zero raises in compiled code. -/
def accumulateEvent (S : Setup) (x : Nat) (e : Nat) (r : List (List Nat)) : Py (List (List Nat)) :=
  if S.clock = 0 then .error .zeroDivision
  else if S.samples ≤ e / S.clock then .ok r
  else match S.mass[e / S.clock]? with
    | none => .error .indexError
    | some m => match searchRight S.low m with
      | 0 => .ok r
      | b + 1 => match S.high[b]? with
        | none => .error .indexError
        | some h => .ok (if m ≤ h then bump r x b else r)

/-- Line 190: `n` events of the flat buffer from `i` on. -/
def accumulatePixel (S : Setup) (flat : List Nat) (x : Nat) : Nat → Nat → List (List Nat) → Py (List (List Nat))
  | _, 0, r => .ok r
  | i, n + 1, r => match flat[i]? with
    | none => .error .indexError
    | some e => match accumulateEvent S x e r with
      | .error e => .error e
      | .ok r => accumulatePixel S flat x (i + 1) n r

/-- `_accumulate_peak_counts`, lines 187-197: `n` pixels from `x` on. -/
def accumulate (S : Setup) (flat offsets : List Nat) : Nat → Nat → List (List Nat) → Py (List (List Nat))
  | _, 0, r => .ok r
  | x, n + 1, r => match offsets[x]?, offsets[x + 1]? with
    | some start, some stop => match accumulatePixel S flat x start (stop - start) r with
      | .error e => .error e
      | .ok r => accumulate S flat offsets (x + 1) n r
    | _, _ => .error .indexError

/-- `l[:, σ]`. -/
def takeColumns (r : List (List Nat)) (σ : List Nat) : Py (List (List Nat)) :=
  match r with
  | [] => .ok []
  | row :: r => match takeAll row σ with
    | .error e => .error e
    | .ok row => match takeColumns r σ with
      | .error e => .error e
      | .ok r => .ok (row :: r)

/-- Lines 318-332: one row with numba. -/
def numbaRow (S : Setup) (inv : List Nat) (row : List (List Nat)) : Py (List (List Nat)) :=
  let (flat, offsets) := flattenRow row
  match accumulate S flat offsets 0 row.length (List.replicate row.length (List.replicate S.low.length 0)) with
  | .error e => .error e
  | .ok r => takeColumns r inv

/-- `l[i]` with an index that may be negative. -/
def pyGet {α : Type} (l : List α) (i : Int) : Py α :=
  match (if 0 ≤ i then l[i.toNat]? else if (-i).toNat ≤ l.length then l[l.length - (-i).toNat]? else none) with
  | none => .error .indexError
  | some v => .ok v

/-- Lines 356-364: masses and their windows, one after the other: the bins of the masses that are inside. -/
def binsOf (S : Setup) : List Nat → Py (List Nat)
  | [] => .ok []
  | p :: ps => match S.mass[p]? with
    | none => .error .indexError
    | some m =>
      let b : Int := (searchRight S.low m : Int) - 1
      match pyGet S.high b with
      | .error e => .error e
      | .ok h => match binsOf S ps with
        | .error e => .error e
        | .ok bs => .ok (if 0 ≤ b ∧ b < S.low.length ∧ m ≤ h then b.toNat :: bs else bs)

/-- `np.bincount(bs, minlength=n)` for entries below `n`. -/
def bincount (n : Nat) (bs : List Nat) : List Nat := (List.range n).map fun k => bs.count k

/-- `row[σ] = counts`. -/
def scatter : List Nat → List Nat → List Nat → List Nat
  | k :: σ, c :: cs, row => scatter σ cs (row.set k c)
  | _, _, row => row

/-- Lines 349-366: one pixel with NumPy. Integer division by zero gives zero (with a warning). -/
def numpyPixel (S : Setup) (σ : List Nat) (events : List Nat) : Py (List Nat) :=
  let zeros := List.replicate S.low.length 0
  if events.length = 0 then .ok zeros
  else
    let processed := events.map (· / S.clock)
    let valid := processed.filter (· < S.samples)
    if valid.length = 0 then .ok zeros
    else match binsOf S valid with
      | .error e => .error e
      | .ok bs => .ok (scatter σ (bincount S.low.length bs) zeros)

def numpyRow (S : Setup) (σ : List Nat) : List (List Nat) → Py (List (List Nat))
  | [] => .ok []
  | es :: row => match numpyPixel S σ es with
    | .error e => .error e
    | .ok c => match numpyRow S σ row with
      | .error e => .error e
      | .ok cs => .ok (c :: cs)

/-- `compute_peak_data_from_eventlist`, lines 265-373, for one row of pixels, with the result of dividing by
`normalization` and casting (parameter `cast`). `σ` and `inv` are `sort_idx` and `inv_sort_idx`. -/
def computeRow {β : Type} (numba : Bool) (cast : Rat → β) (σ inv : List Nat) (clock samples norm : Nat)
    (mass : List Rat) (table : List Peak) (row : List (List Nat)) : Py (List (List β)) :=
  match takeAll (table.map Peak.lo) σ, takeAll (table.map Peak.hi) σ with
  | .ok low, .ok high =>
    let S : Setup := ⟨clock, samples, mass, low, high⟩
    match (if numba then numbaRow S inv row else numpyRow S σ row : Py (List (List Nat))) with
    | .error e => .error e
    | .ok r => .ok (r.map fun cs => cs.map fun (c : Nat) => cast ((c : Rat) / norm))
  | _, _ => .error .indexError

/-! ### `file_reader`: peak data -/

def tNominal : Text := ['n', 'o', 'm', 'i', 'n', 'a', 'l']

def isNominal (p : Peak) : Bool := tNominal.isPrefixOf p.label

/-- `[i for i, p in enumerate(table) if ...]`, lines 981-996. -/
def origIdx (f : Peak → Bool) : Nat → List Peak → List Nat
  | _, [] => []
  | i, p :: ps => if f p then i :: origIdx f (i + 1) ps else origIdx f (i + 1) ps

/-- `(masses >= mz_range[0]) & (masses <= mz_range[1])`. -/
def inRange (mz : Option (Rat × Rat)) (m : Rat) : Bool :=
  match mz with
  | none => true
  | some (a, b) => decide (a ≤ m) && decide (m ≤ b)

/-- `l[mask]`. -/
def masked {α : Type} : List α → List Bool → List α
  | a :: as, b :: bs => if b then a :: masked as bs else masked as bs
  | _, _ => []

/-- A list of results, up to the first exception. -/
def mapPy {α β : Type} (f : α → Py β) : List α → Py (List β)
  | [] => .ok []
  | a :: l => match f a with
    | .error e => .error e
    | .ok b => match mapPy f l with
      | .error e => .error e
      | .ok bs => .ok (b :: bs)

/-- A depth slice: rows of pixels of values, one per peak of the table. -/
abbrev Slice (β : Type) := List (List (List β))

/-- `peak_ds[w, :, :, cols]` with h5py: the columns must be strictly ascending. -/
def h5Columns {β : Type} (s : Slice β) (cols : List Nat) : Py (Slice β) :=
  if cols.Pairwise (· < ·) then mapPy (fun row => mapPy (fun px => takeAll px cols) row) s
  else .error .typeError

/-- `a[:, :, :, σ]` with NumPy or dask. -/
def columns {β : Type} (s : Slice β) (cols : List Nat) : Py (Slice β) :=
  mapPy (fun row => mapPy (fun px => takeAll px cols) row) s

/-- `peak_ds[w, :, :, cols][:, :, :, σ]`. -/
def twice {β : Type} (s : Slice β) (cols σ : List Nat) : Py (Slice β) :=
  match h5Columns s cols with
  | .error e => .error e
  | .ok s => columns s σ

/-- Lines 1111-1154: masses and data of the nominal peaks of a file with peak data (lazy or not). `none`: no
signal. -/
def nominalData {β : Type} (lazy : Bool) (table : List Peak) (mz : Option (Rat × Rat)) (slices : List (Slice β)) :
    Py (Option (List Rat × List (Slice β))) :=
  let masses := (table.filter isNominal).map Peak.mass
  let sel := origIdx isNominal 0 table
  let mask := masses.map (inRange mz)
  if mz.isSome ∧ mask.any id = false then .ok none
  else
    let masses := if mz.isSome then masked masses mask else masses
    let sel := if mz.isSome then masked sel mask else sel
    match mapPy (fun s => if lazy then columns s sel else h5Columns s sel) slices with
    | .error e => .error e
    | .ok d => .ok (some (masses, d))

/-- `range(0, n, step)`. -/
def starts (n step : Nat) : List Nat := if step = 0 then [] else (List.range ((n + step - 1) / step)).map (· * step)

/-- Lines 1254-1263, 1271-1280: `add_data[w0:w1] = f(slices[w0:w1])` batch by batch; `none` is what
`np.empty` leaves. -/
def batches {β : Type} (f : Slice β → Py (Slice β)) (slices : List (Slice β)) (step : Nat) :
    List Nat → List (Option (Slice β)) → Py (List (Option (Slice β)))
  | [], out => .ok out
  | w0 :: ws, out =>
    let w1 := min (w0 + step) slices.length
    match mapPy f ((slices.drop w0).take (w1 - w0)) with
    | .error e => .error e
    | .ok new => batches f slices step ws (out.take w0 ++ new.map some ++ out.drop w1)

/-- The order of the additional peaks, lines 1198-1218: sorted masses and file columns in that order. `σ` is
`np.argsort` of their masses. -/
def additionalOrder (σ : List Nat) (table : List Peak) (mz : Option (Rat × Rat)) :
    Py (Option (List Rat × List Nat)) :=
  let masses := (table.filter fun p => !isNominal p).map Peak.mass
  let idx := origIdx (fun p => !isNominal p) 0 table
  match takeAll masses σ, takeAll idx σ with
  | .ok masses, .ok idx =>
    let mask := masses.map (inRange mz)
    if mz.isSome ∧ mask.any id = false then .ok none
    else .ok (some (if mz.isSome then masked masses mask else masses, if mz.isSome then masked idx mask else idx))
  | _, _ => .error .indexError

/-- Lines 1233-1291: data of the additional peaks. `argsort` is `np.argsort` of the column numbers; `step` is
`peak_data_batch_size` (zero is a `ValueError` of `range`). -/
def additionalData {β : Type} (argsort : List Nat → List Nat) (lazy : Bool) (step : Nat) (σ : List Nat)
    (table : List Peak) (mz : Option (Rat × Rat)) (slices : List (Slice β)) :
    Py (Option (List Rat × List (Option (Slice β)))) :=
  match additionalOrder σ table mz with
  | .error e => .error e
  | .ok none => .ok none
  | .ok (some (masses, sorted)) =>
    let idx := origIdx (fun p => !isNominal p) 0 table
    let already := σ = List.range σ.length
    let data : Py (List (Option (Slice β))) :=
      if lazy then (mapPy (fun s => columns s sorted) slices).map (·.map some)
      else if mz = none then
        if step = 0 then .error .valueError
        else if already then
          batches (fun s => h5Columns s idx) slices step (starts slices.length step) (List.replicate slices.length none)
        else
          batches (fun s => twice s idx σ) slices step (starts slices.length step) (List.replicate slices.length none)
      else
        let asc := argsort sorted
        let undo := argsort asc
        match takeAll sorted asc with
        | .error e => .error e
        | .ok cols => (mapPy (fun s => twice s cols undo) slices).map (·.map some)
    match data with
    | .error e => .error e
    | .ok d => .ok (some (masses, d))

/-- Lines 1302-1310: the table used for the reconstruction of additional peaks from events. -/
def additionalTable (σ : List Nat) (table : List Peak) (mz : Option (Rat × Rat)) : Py (List Peak) :=
  match takeAll (table.filter fun p => !isNominal p) σ with
  | .error e => .error e
  | .ok ps => .ok (if mz.isSome then ps.filter fun p => inRange mz p.mass else ps)

/-- Lines 1165-1173. -/
def nominalTable (table : List Peak) (mz : Option (Rat × Rat)) : List Peak :=
  let ps := table.filter isNominal
  if mz.isSome then ps.filter fun p => inRange mz p.mass else ps

/-! ### The sum spectrum -/

/-- `np.argmax(mass >= 0)`: the first such sample, or the first of all. -/
def firstNonneg (mass : List Rat) : Nat :=
  let i := mass.findIdx (0 ≤ ·)
  if i < mass.length then i else 0

/-- Lines 1072-1076: the loop that skips samples. -/
def skipLoop : Nat → List Rat → Nat
  | i, a :: b :: l => if a ≥ b then skipLoop (i + 1) (b :: l) else i
  | i, [_] => i
  | i, [] => i

def firstValid (mass : List Rat) : Nat := skipLoop (firstNonneg mass) (mass.drop (firstNonneg mass))

/-- Lines 1063-1089: axis and data of the sum spectrum. -/
def sumSpectrum {β : Type} (mass : List Rat) (data : List β) : List Rat × List β :=
  (mass.drop (firstValid mass), data.drop (firstValid mass))

/-! ### Depth ranges -/

/-- Lines 942-952: the depth slices. -/
def depthRange (nwrites : Nat) (r : Option (Int × Int)) : Py (Nat × Nat) :=
  match r with
  | none => .ok (0, nwrites)
  | some (a, b) => if a < 0 ∨ b > nwrites ∨ a ≥ b then .error .valueError else .ok (a.toNat, b.toNat)

/-- `l[a:b]`. -/
def slice {α : Type} (l : List α) (a b : Nat) : List α := (l.drop a).take (b - a)

/-- Line 1399: `max(shape_counts, key=lambda s: (shape_counts[s], s))`, over the shapes in the order of their
first occurrence. -/
def better (shapes : List (Nat × Nat)) (s t : Nat × Nat) : Bool :=
  decide (shapes.count t < shapes.count s) || (decide (shapes.count t = shapes.count s) &&
    (decide (t.1 < s.1) || (decide (t.1 = s.1) && decide (t.2 < s.2))))

def dominant (all : List (Nat × Nat)) : List (Nat × Nat) → Option (Nat × Nat)
  | [] => none
  | s :: l => match dominant all l with
    | none => some s
    | some t => some (if better all t s then t else s)

/-- Lines 1389-1402: the images that are returned, from the images in the order of their names. -/
def fibImages {β : Type} (images : List ((Nat × Nat) × β)) (a b : Nat) : Py (List β) :=
  match dominant (images.map Prod.fst) (images.map Prod.fst) with
  | none => .error .valueError
  | some s => .ok ((slice (images.filter fun i => i.1 = s) a b).map Prod.snd)

/-! ### Availability -/

/-- What is in the file. -/
structure Content where
  peakData : Bool
  eventList : Bool
  table : Option (List Peak)
  images : Nat

inductive Sig | sum | nominal | additional | events | images
  deriving DecidableEq

/-- `available_signals`, lines 769-785. -/
def available (c : Content) : List Sig :=
  let canPeak := c.peakData || (c.eventList && c.table.isSome)
  [Sig.sum] ++
  (match c.table with
  | none => []
  | some t => if canPeak then
      (if (t.filter isNominal).isEmpty then [] else [Sig.nominal]) ++
      (if (t.filter fun p => !isNominal p).isEmpty then [] else [Sig.additional])
    else []) ++
  (if c.eventList then [Sig.events] else []) ++
  (if 0 < c.images then [Sig.images] else [])

/-- `file_reader`, lines 910-1041 and the conditions of the branches below: which signals are returned.
`want` is the list of requested signals, `none` is `"all"`. -/
def produced (c : Content) (lazy : Bool) (mz : Option (Rat × Rat)) (want : Option (List Sig)) : Py (List Sig) :=
  let wants (s : Sig) : Bool := match want with
    | none => true
    | some l => l.contains s
  let t := c.table.getD []
  let base := c.peakData || (c.eventList && c.table.isSome)
  let canNominal := base && !(t.filter isNominal).isEmpty
  let canAdditional := base && !(t.filter fun p => !isNominal p).isEmpty
  let canImages := decide (0 < c.images)
  if want.isSome ∧ (wants .nominal ∧ !canNominal ∨ wants .additional ∧ !canAdditional ∨
      wants .events ∧ !c.eventList ∨ wants .images ∧ !canImages) then .error .valueError
  else
    let some? (ps : List Peak) : Bool := mz.isNone || ps.any fun p => inRange mz p.mass
    let doNominal := wants .nominal && canNominal && some? (t.filter isNominal)
    let doAdditional := wants .additional && canAdditional && some? (t.filter fun p => !isNominal p)
    if lazy ∧ !c.peakData ∧ (doNominal ∨ doAdditional) then .error .notImplemented
    else .ok ((if wants .sum then [.sum] else []) ++ (if doNominal then [.nominal] else []) ++
      (if doAdditional then [.additional] else []) ++ (if wants .events && c.eventList then [.events] else []) ++
      (if wants .images && canImages then [.images] else []))

/-- The peak table of the metadata, lines 1133-1137, 1222-1226. -/
def nominalMeta (table : List Peak) : List Peak := table.filter isNominal

def additionalMeta (table : List Peak) : List Peak := table.filter fun p => !isNominal p

end Verif.Tofwerk
