import Verif.Model.JeolTree
/-!
Model of `_read_eds` of `rsciio/jeol/_api.py` (spectra of JEOL, `.eds`), lines 1222-1475.

The file handle is the list of the bytes that are left. Numbers are kept as the unsigned value of their bytes; `dbl` is the value of
the bits of a double (infinities and NaN are not modelled) and `dec` is `_decode` (UTF-8, or else Shift JIS). `np.fromfile(..)[0]` at
the end of the file is an `IndexError`, unpacking fewer values than names a `ValueError`; reading without an index never fails. The
dates (days since 1899-12-30) are kept as bits. The comparison of an empty array with 5, at the end of a file, is false.
-/
namespace Verif.JeolEds
open Verif.JeolTree

/-- Reading from a file. -/
def Rd (α : Type) := List UInt8 → Py (α × List UInt8)

instance : Monad Rd where
  pure a := fun f => .ok (a, f)
  bind m k := fun f => match m f with
    | .error e => .error e
    | .ok (a, g) => k a g

def fail {α : Type} (e : PyErr) : Rd α := fun _ => .error e

/-- `np.fromfile(fd, t, 1)[0]` for a type of `w` bytes. -/
def num (w : Nat) : Rd Nat := fun f => if f.length < w then .error .indexError else .ok (leVal (f.take w), f.drop w)

/-- `np.fromfile(fd, t, n)` that is not indexed; `n` bytes altogether. -/
def skip (n : Nat) : Rd Unit := fun f => .ok ((), f.drop n)

/-- `np.fromfile(fd, t, n)` unpacked into `n` names. -/
def unpack (w n : Nat) : Rd (List Nat) := fun f =>
  let l := itemsOf w n f
  if l.length = n then .ok (l, f.drop (n * w)) else .error .valueError

/-- `np.fromfile(fd, t, n)`; all that is left if `n` is negative. -/
def items (w : Nat) (n : Int) : Rd (List Nat) := fun f =>
  let k := if n < 0 then f.length / w else n.toNat
  .ok (itemsOf w k f, f.drop (k * w))

/-- `_decode(fd.read(n).rstrip(b"\x00"))`. -/
def text (dec : List UInt8 → Option Text) (n : Int) : Rd Text := fun f =>
  let (bs, g) := readLen n f
  match dec (rstripNul bs) with
  | none => .error .unicodeError
  | some t => .ok (t, g)

/-- What is kept of the header. -/
structure Header where
  date : Nat
  name : Text
  user : Text
  liveTime : Nat
  realTime : Nat
  deadTime : Nat
  countRate : Nat
  coefA : Nat
  coefB : Nat
  state : Text
  tpl : Text
  channels : Int
  deriving DecidableEq

/-- The header, lines 1236-1280. -/
def header (dec : List UInt8 → Option Text) : Rd Header := do
  let _ ← num 4
  skip 6
  let date ← num 8
  let name ← text dec 80
  let user ← text dec 32
  skip 4
  skip 80
  skip 4
  let _ ← num 8
  let _ ← num 8      -- Esc
  let _ ← num 8      -- Fnano F
  let _ ← num 8      -- E Noise
  let _ ← num 8      -- CH Res
  let liveTime ← num 8
  let realTime ← num 8
  let deadTime ← num 8
  let countRate ← num 8
  let _ ← num 4      -- CountRate n
  skip 16            -- CountRate sum
  let _ ← num 8      -- CountRate value
  let _ ← num 8
  let _ ← num 4      -- DeadTime n
  skip 16            -- DeadTime sum
  let _ ← num 8      -- DeadTime value
  let _ ← num 8
  let coefA ← num 8
  let coefB ← num 8
  let state ← text dec 32
  let _ ← num 4
  let _ ← num 8
  let tpl ← text dec 32
  let n ← num 4
  pure ⟨date, name, user, liveTime, realTime, deadTime, countRate, coefA, coefB, state, tpl, toSigned 4 n⟩

/-- The counts, line 1281: `int32`. -/
def counts (n : Int) : Rd (List Int) := do
  let l ← items 4 n
  pure (l.map (toSigned 4))

/-- The excluded elements, lines 1284-1289; none: the key is absent. -/
def excluded : Rd (Option (List Nat)) := do
  skip 4
  let n ← num 4
  if toSigned 4 n ≠ 0 then
    let l ← items 2 (toSigned 4 n)
    pure (some l)
  else pure none

/-- An entry of `lines`. -/
structure Line where
  energy : Nat
  z : Nat
  detection : Int
  deriving DecidableEq

/-- One line, lines 1309-1322: its name, its values. -/
def line (dec : List UInt8 → Option Text) : Rd (Text × Line) := do
  let _ ← num 4
  let energy ← num 8
  let z ← num 2
  let el ← num 1
  let eName ← text dec (toSigned 1 el)
  let ll ← num 1
  let lName ← text dec (toSigned 1 ll)
  let det ← num 4
  pure (eName ++ '_' :: lName, ⟨energy, z, toSigned 4 det⟩)

/-- The loop of line 1308; the last `z` (a variable of the function) is kept. -/
def lines (dec : List UInt8 → Option Text) : Nat → Option Nat → List (Text × Line) → Rd (List (Text × Line) × Option Nat)
  | 0, z, acc => pure (acc, z)
  | n + 1, _, acc => do
    let (k, l) ← line dec
    lines dec n (some l.z) (setKw k l acc)

/-- An entry of `elems`. -/
structure Elem where
  z : Nat
  roiMin : Nat
  roiMax : Nat
  energy : Nat
  lines : List (Text × Line)
  deriving DecidableEq

/-- One element, lines 1294-1330: the `z` of an element is the variable that the lines set (the number of the element itself is
dropped). -/
def elem (dec : List UInt8 → Option Text) (z : Option Nat) : Rd (Text × Elem) := do
  let _ ← num 4
  let _ ← num 2
  let _ ← unpack 4 2
  let roi ← unpack 2 2
  skip 14
  let vals ← unpack 8 4
  let name ← text dec 32
  let _ ← num 4
  let nl ← num 4
  let (ls, z) ← lines dec (toSigned 4 nl).toNat z []
  match z with
  | none => fail .nameError
  | some z => pure (name, ⟨z, roi.getD 0 0, roi.getD 1 0, vals.getD 0 0, ls⟩)

/-- The loop of line 1294. -/
def elems (dec : List UInt8 → Option Text) : Nat → Option Nat → List (Text × Elem) → Rd (List (Text × Elem))
  | 0, _, acc => pure acc
  | n + 1, z, acc => do
    let (k, e) ← elem dec z
    elems dec n (some e.z) (setKw k e acc)

/-- The selected elements, lines 1291-1331. -/
def selected (dec : List UInt8 → Option Text) : Rd (Option (List (Text × Elem))) := do
  let n ← num 4
  if toSigned 4 n ≠ 0 then
    let l ← elems dec (toSigned 4 n).toNat none []
    pure (some l)
  else pure none

/-- An entry of `quanti`. -/
structure Quant where
  z : Nat
  mass1 : Nat
  error : Nat
  atom : Nat
  mass2 : Nat
  counts : Nat
  energy : Nat
  deriving DecidableEq

/-- One entry, lines 1343-1373. -/
def quant (dec : List UInt8 → Option Text) : Rd (Text × Quant) := do
  let _ ← num 4
  let z ← num 2
  let _ ← unpack 4 2
  let en ← unpack 8 2
  let mass1 ← num 8
  let error ← num 8
  let atom ← num 8
  let name ← text dec 16
  let mass2 ← num 8
  let _ ← num 8
  let cts ← num 8
  let _ ← num 8
  let _ ← num 8
  let _ ← num 4
  let _ ← num 4
  let _ ← num 8
  pure (name, ⟨z, mass1, error, atom, mass2, cts, en.getD 0 0⟩)

/-- The loop of line 1343. -/
def quants (dec : List UInt8 → Option Text) : Nat → List (Text × Quant) → Rd (List (Text × Quant))
  | 0, acc => pure acc
  | n + 1, acc => do
    let (k, q) ← quant dec
    quants dec n (setKw k q acc)

/-- The quantification, lines 1333-1374. -/
def quanti (dec : List UInt8 → Option Text) : Rd (Option (List (Text × Quant))) := do
  let n ← num 4
  if toSigned 4 n ≠ 0 then
    let _ ← num 4
    let _ ← num 4
    let _ ← num 4
    let _ ← num 8
    let _ ← num 4
    let _ ← num 4
    let l ← quants dec (toSigned 4 n).toNat []
    pure (some l)
  else pure none

/-- What is kept of the parameters. -/
structure Params where
  detT : Text
  accKV : Nat
  mnKaRes : Nat
  scanSize : Nat
  dirAng : Nat
  elevAng : Nat
  deriving DecidableEq

/-- The parameters, lines 1377-1428. -/
def params (dec : List UInt8 → Option Text) : Rd Params := do
  let detT ← text dec 16
  let _ ← text dec 16     -- SEM
  let _ ← text dec 16     -- Port
  let accKV ← num 8
  let _ ← num 8           -- AccNA
  skip 38
  let mnKaRes ← num 8
  let _ ← num 8           -- WorkD
  let _ ← num 8           -- InsD
  let _ ← num 8           -- XtiltAng
  let _ ← num 8           -- TakeAng
  let _ ← num 8           -- IncAng
  let _ ← num 4           -- skip2
  let scanSize ← num 8
  let _ ← num 2
  let _ ← num 2
  let _ ← num 2
  let _ ← num 2
  let _ ← num 2
  let _ ← num 8           -- DetH
  let dirAng ← num 8
  let _ ← num 8           -- XtalAng
  let elevAng ← num 8
  let _ ← num 8           -- ValidSize
  let _ ← text dec 4      -- WinCMat
  let _ ← num 2           -- WinCZ
  let _ ← num 8           -- WinCThic
  let _ ← text dec 16     -- WinChem
  let _ ← num 2
  let _ ← num 2
  let _ ← num 2
  let _ ← num 2
  let _ ← num 2
  let _ ← num 2
  let _ ← num 8
  let _ ← num 8
  let _ ← num 8
  let _ ← num 8
  let _ ← num 8
  let _ ← num 8           -- WinThic
  let _ ← num 8           -- WinDens
  let _ ← text dec 4      -- SpatMat
  let _ ← num 2           -- SpatZ
  let _ ← num 8
  let _ ← num 8
  let _ ← num 8
  pure ⟨detT, accKV, mnKaRes, scanSize, dirAng, elevAng⟩

/-- Lines 1376-1377: the parameters are there if the next number is 5. -/
def parameters (dec : List UInt8 → Option Text) : Rd (Option Params) := fun f =>
  if 4 ≤ f.length ∧ leVal (f.take 4) = 5 then
    match params dec (f.drop 4) with
    | .error e => .error e
    | .ok (p, g) => .ok (some p, g)
  else .ok (none, f.drop 4)

/-- The signal: data, the axis, metadata, and the footer. -/
structure Signal where
  data : List Int
  size : Int
  offset : Rat
  scale : Rat
  mode : Text
  beamEnergy : Rat
  azimuth : Rat
  elevation : Rat
  resolution : Rat
  liveTime : Rat
  detector : Text
  signalType : Text
  header : Header
  excluded : Option (List Nat)
  selected : Option (List (Text × Elem))
  quanti : Option (List (Text × Quant))

/-- Lines 1431-1434. -/
def mode (hv : Rat) : Text := if hv ≤ 30 then ['S', 'E', 'M'] else ['T', 'E', 'M']

/-- `_read_eds`, lines 1222-1475. -/
def readEds (dec : List UInt8 → Option Text) (dbl : Nat → Rat) (file : List UInt8) : Py Signal := do
  let (h, f) ← header dec file
  let (data, f) ← counts h.channels f
  let (ex, f) ← excluded f
  let (sel, f) ← selected dec f
  let (q, f) ← quanti dec f
  let (p, _) ← parameters dec f
  match p with
  | none => .error .keyError
  | some p =>
    let hv := dbl p.accKV
    .ok ⟨data, h.channels, dbl h.coefB, dbl h.coefA, mode hv, hv, dbl p.dirAng, dbl p.elevAng, dbl p.mnKaRes, dbl h.liveTime, p.detT,
      ['E', 'D', 'S', '_'] ++ mode hv, h, ex, sel, q⟩

end Verif.JeolEds
