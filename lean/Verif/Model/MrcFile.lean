import Verif.Model.Mrc
import Verif.Py.Bytes
import Verif.Py.Ravel
import Verif.Py.Float32
/-!
Model of the file level of `rsciio/mrc/_api.py`: the header of an MRC file, what is read of its data, its axes, and the
`.txt` file of metadata that Direct Electron cameras save beside it.

A file is its bytes. `memmap_distributed` (modelled in `Verif.Model.Distributed`) appears as the request it gets: where
the data begins, its type, its shape and the positions of the frames; it raises an error when the file is too short.
Numbers of the header are the exact values of their single-precision patterns and quotients are exact. Conversion of
text to numbers is a parameter. The scan position file is the list of its rows; a file of one row is read by
`np.loadtxt` as an array of one dimension. The navigators (modelled in `Verif.Model.Mrc`), the chunks, and the values
that are copied to the metadata unchanged are left out (those of the header of FEI are in `Verif.Model.MrcFei`).
-/
namespace Verif.MrcFile

/-! ### Header -/

/-- A field of four bytes, lines 172-222: an unsigned number of the endianness of the header. -/
def u4 (big : Bool) (b : List UInt8) (off : Nat) : Nat :=
  if big then beVal ((b.drop off).take 4) else leVal ((b.drop off).take 4)

/-- A field of type `f4`. -/
def f4 (big : Bool) (b : List UInt8) (off : Nat) : Rat := f32Dec (u4 big b off)

/-- The fields of the header that are used, lines 172-222. -/
structure Header where
  nx : Nat
  ny : Nat
  nz : Nat
  mode : Nat
  mx : Nat
  my : Nat
  mz : Nat
  xlen : Rat
  ylen : Rat
  zlen : Rat
  next : Nat
  xorigin : Rat
  yorigin : Rat
  zorigin : Rat
  deriving DecidableEq

/-- Line 578. A file without the 1024 bytes of the header gives an empty array. -/
def header (big : Bool) (b : List UInt8) : Py Header :=
  if b.length < 1024 then .error .indexError
  else .ok {
    nx := u4 big b 0
    ny := u4 big b 4
    nz := u4 big b 8
    mode := u4 big b 12
    mx := u4 big b 28
    my := u4 big b 32
    mz := u4 big b 36
    xlen := f4 big b 40
    ylen := f4 big b 44
    zlen := f4 big b 48
    next := u4 big b 92
    xorigin := f4 big b 196
    yorigin := f4 big b 200
    zorigin := f4 big b 204 }

/-- Lines 579-587: the pixel size of the first record of the FEI header, if there is one: an extended header of 128
kilobytes, all of it in the file. -/
def feiPixel (big : Bool) (b : List UInt8) (h : Header) : Option Rat :=
  if h.next = 131072 ∧ 1024 + 131072 ≤ b.length then some (f4 big b (1024 + 44)) else none

inductive DType
  | u1
  | i2
  | f4
  | c8
  | u2
  | f2
  deriving Repr, DecidableEq

def DType.itemSize : DType → Nat
  | .u1 => 1
  | .i2 => 2
  | .f4 => 4
  | .c8 => 8
  | .u2 => 2
  | .f2 => 2

/-- `get_data_type`, lines 252-266. -/
def dataType (mode : Nat) : Py DType :=
  if mode = 0 then .ok .u1
  else if mode = 1 then .ok .i2
  else if mode = 2 then .ok .f4
  else if mode = 4 then .ok .c8
  else if mode = 6 then .ok .u2
  else if mode = 12 then .ok .f2
  else .error .valueError

/-! ### Data -/

/-- What is asked of `memmap_distributed`, lines 593-600. The types of line 264 have the byte order of the machine,
which is little. -/
structure Request where
  offset : Nat
  dtype : DType
  bigEndian : Bool
  shape : List Nat
  positions : Option (List (List Nat))
  deriving DecidableEq

/-- Number of items of the file that are used: with positions, one frame for every position. -/
def items (shape : List Nat) : Option (List (List Nat)) → Nat
  | none => size shape
  | some ps => ps.length * size (shape.drop (shape.length - 2))

/-- Lines 593-600. -/
def request (b : List UInt8) (h : Header) (shape : List Nat) (positions : Option (List (List Nat))) : Py Request := do
  let t ← dataType h.mode
  if b.length < 1024 + h.next + items shape positions * t.itemSize then .error .valueError
  else .ok ⟨1024 + h.next, t, false, shape, positions⟩

/-! ### Axes without metadata file -/

/-- Lines 636-638 and 641-643: the scale of a length in Ångström over a number of cells, in nm. -/
def cellScale (len : Rat) (n : Nat) : Rat := if n ≠ 0 then len / n / 10 else 1

/-- Lines 631-633. -/
def depthScale (len : Rat) (n : Nat) : Rat := if len ≠ 0 ∧ n ≠ 0 then len / n / 10 else 1

/-- Lines 627-663: the scales, the inner axis last. -/
def scales (h : Header) : Option Rat → List Rat
  | none => [depthScale h.zlen h.mz, cellScale h.ylen h.my, cellScale h.xlen h.mx]
  | some p => [1, p * 10 ^ 9, p * 10 ^ 9]

def offsets (h : Header) : Option Rat → List Rat
  | none => [h.zorigin / 10, h.yorigin / 10, h.xorigin / 10]
  | some _ => [0, 0, 0]

structure Axis where
  size : Nat
  index : Nat
  name : Text
  scale : Rat
  offset : Rat
  units : Option Text
  navigate : Bool
  deriving Repr, DecidableEq

/-- The navigation axes in addition to the one of the file, lines 669-676. -/
def extra : Option (List Nat) → Nat
  | none => 0
  | some nav => nav.length - 1

/-- The entries of lines 666-676 for each axis: name, scale, offset, units, navigate. -/
def entries (k : Nat) (scales offsets : List Rat) : List (Text × Rat × Rat × Option Text × Bool) :=
  let names := List.replicate k [] ++ [['z'], ['y'], ['x']]
  let units := List.replicate (k + 1) none ++ [some ['n', 'm'], some ['n', 'm']]
  let navigate := List.replicate (k + 1) true ++ [false, false]
  names.zip ((List.replicate k 1 ++ scales).zip ((List.replicate k 0 ++ offsets).zip (units.zip navigate)))

/-- Lines 680-692: axis `i` of the data gets entry `i + nav_axis_to_add + 3 - dim`. -/
def plainAxes (ents : List (Text × Rat × Rat × Option Text × Bool)) (full dataShape : List Nat) : List Axis :=
  (List.range dataShape.length).filterMap fun i =>
    match ents[i + full.length - dataShape.length]? with
    | some e => some ⟨dataShape.getD i 0, i, e.1, e.2.1, e.2.2.1, e.2.2.2.1, e.2.2.2.2⟩
    | none => none

/-! ### Metadata of Direct Electron -/

abbrev Meta := List (Text × Text)

/-- Lines 289-302: a line is used if it has one `=`. -/
def metaLine (d : Meta) (line : Text) : Meta :=
  match splitChar '=' line with
  | [k, v] => setKw (stripBy isSpace k) (stripBy isSpace v) d
  | _ => d

def metaOf (t : Text) : Meta := (fileLines t).foldl metaLine []

/-- Conversion of text to numbers. -/
structure Env where
  int : Text → Option Int
  float : Text → Option Rat
  /-- The text of a number in an array of texts. -/
  text : Rat → Text

def intOr (env : Env) (md : Meta) (key : String) (d : Int) : Py Int :=
  match getKw key.toList md with
  | none => .ok d
  | some t => match env.int t with
    | some v => .ok v
    | none => .error .valueError

def floatOr (env : Env) (md : Meta) (key : String) (d : Rat) : Py Rat :=
  match getKw key.toList md with
  | none => .ok d
  | some t => match env.float t with
    | some v => .ok v
    | none => .error .valueError

def textOr (md : Meta) (key d : String) : Text := (getKw key.toList md).getD d.toList

/-- Line 304. -/
def scanning (md : Meta) : Bool := textOr md "Scan - Enable" "Disable" = "Enable".toList

/-- Line 305. -/
def raster (md : Meta) : Bool := textOr md "Scan - Type" "Raster" = "Raster".toList

/-- Lines 303 and 331-336. -/
def stemMode (env : Env) (md : Meta) : Py Bool :=
  match intOr env md "Instrument Project TEMorSTEM Mode" (-1) with
  | .ok m => .ok (if m = -1 then scanning md else if m = 0 then false else true)
  | .error e => .error e

/-! ### Scan positions -/

/-- The number of earlier positions that are the same. -/
def earlier (done : List (Nat × Nat)) (p : Nat × Nat) : Nat := done.count p

/-- Lines 319-322: the third column. `done` are the positions before. -/
def numberFrom (done : List (Nat × Nat)) : List (Nat × Nat) → List (List Nat)
  | [] => []
  | p :: ps => [p.1, p.2, earlier done p] :: numberFrom (p :: done) ps

def maxNat (l : List Nat) : Nat := l.foldl max 0

structure Positions where
  list : List (List Nat)
  nav : List Nat
  deriving DecidableEq

/-- Lines 310-327, from the rows (x, y) of the position file. -/
def positionsOf (rows : List (Nat × Nat)) : Py Positions :=
  if rows.length ≤ 1 then .error .indexError
  else
    let ps := rows.map fun r => (r.2, r.1)
    let n1 := maxNat (ps.map Prod.fst) + 1
    let n2 := maxNat (ps.map Prod.snd) + 1
    let repeats := maxNat (ps.map fun p => ps.count p)
    if 1 < repeats then .ok ⟨numberFrom [] ps, [repeats, n1, n2]⟩
    else .ok ⟨ps.map fun p => [p.1, p.2], [n1, n2]⟩

/-- Lines 307-329. -/
def scanPositions (md : Meta) (csv : Option (List (Nat × Nat))) : Py (Option Positions) :=
  if scanning md && !raster md then
    match csv with
    | none => .error .valueError
    | some rows => match positionsOf rows with
      | .ok p => .ok (some p)
      | .error e => .error e
  else .ok none

/-! ### Axes of Direct Electron files -/

inductive Scale
  | num (r : Rat)
  | text (t : Text)
  deriving Repr, DecidableEq

structure DeAxis where
  name : Text
  size : Int
  units : Text
  scale : Scale
  navigate : Bool
  index : Nat
  deriving Repr, DecidableEq

/-- Lines 350-353: the sum of two texts is their concatenation, of a text and 1 a `TypeError`. -/
def timeScale (env : Env) (md : Meta) : Py Rat :=
  match getKw "Scan - Time (seconds)".toList md, getKw "Scan - Repeat Delay (seconds)".toList md with
  | none, none => .ok 2
  | some a, some b => match env.float (a ++ b) with
    | some x => .ok x
    | none => .error .valueError
  | _, _ => .error .typeError

/-- Lines 348-361. -/
def scanScales (env : Env) (md : Meta) : Py (List Scale) := do
  let t ← timeScale env md
  let sy ← floatOr env md "Specimen Pixel Size Y (nanometers)" 1
  let sx ← floatOr env md "Specimen Pixel Size X (nanometers)" 1
  let dy ← floatOr env md "Diffraction Pixel Size Y" 1
  let dx ← floatOr env md "Diffraction Pixel Size X" 1
  .ok ([t, sy, sx, 1, dy, dx].map fun s => .num (if s ≠ -1 then 1 else s))

/-- Lines 364-369: the size of the scan (x, y) that the file gives. -/
def scanSize (env : Env) (md : Meta) : Py (Int × Int) :=
  if textOr md "Scan - ROI Enable" "Disable" = "Enable".toList then do
    let x ← intOr env md "Scan - ROI Size X" 1
    let y ← intOr env md "Scan - ROI Size Y" 1
    .ok (x, y)
  else do
    let x ← intOr env md "Scan - Size X" 1
    let y ← intOr env md "Scan - Size Y" 1
    .ok (x, y)

/-- Lines 370-383: time, y and x. -/
def navSizes (size : Int × Int) : Option (List Nat) → Int × Int × Int
  | some [t, y, x] => (t, y, x)
  | some [y, x] => (1, y, x)
  | some [x] => (1, 1, x)
  | _ => (1, size.2, size.1)

/-- The columns of the axes of a scan: name, units and navigate, lines 362-363 and 386. -/
def scanColumns : List (Text × Text × Bool) :=
  [("time".toList, "sec".toList, true), ("y".toList, "nm".toList, true), ("x".toList, "nm".toList, true),
   ("repeats".toList, "times".toList, true), ("ky".toList, "nm^-1".toList, false), ("kx".toList, "nm^-1".toList, false)]

/-- The columns of the axes of a movie, lines 390 and 397-416. -/
def movieColumns (diffracting : Bool) : List (Text × Text × Bool) :=
  if diffracting then
    [("time".toList, "sec".toList, true), ("ky".toList, "nm^-1".toList, false), ("kx".toList, "nm^-1".toList, false)]
  else [("time".toList, "sec".toList, true), ("y".toList, "nm".toList, false), ("x".toList, "nm".toList, false)]

/-- Lines 417-433: the axes whose size is not 1, numbered. -/
def keepAxes (ind : Nat) : List ((Text × Text × Bool) × Int × Scale) → List DeAxis
  | [] => []
  | (c, n, s) :: l =>
    if n ≠ 1 then
      ⟨c.1, n, c.2.1, if s = .num (-1) then .num 1 else s, c.2.2, ind⟩ :: keepAxes (ind + 1) l
    else keepAxes ind l

structure DeResult where
  axes : List DeAxis
  nav : Option (List Int)
  positions : Option (List (List Nat))
  gain : Rat
  deriving DecidableEq

/-- Lines 348-388. -/
def scanAxes (env : Env) (md : Meta) (nav : Option (List Nat)) : Py (List DeAxis × Option (List Int)) := do
  let sc ← scanScales env md
  let sz ← scanSize env md
  let kx ← intOr env md "Image Size X (pixels)" (-1)
  let ky ← intOr env md "Image Size Y (pixels)" (-1)
  let n := navSizes sz nav
  .ok (keepAxes 0 (scanColumns.zip ([n.1, n.2.1, n.2.2, 1, ky, kx].zip sc)),
    some ([n.1, n.2.2, n.2.1, 1].filter (· ≠ 1)))

/-- Lines 397-416: an array of texts as soon as one of the pixel sizes is given. -/
def movieScales (env : Env) (md : Meta) (diffracting : Bool) (sec : Rat) : List Scale :=
  match getKw (if diffracting then "Diffraction Pixel Size Y" else "Specimen Pixel Size Y (nanometers)").toList md,
    getKw (if diffracting then "Diffraction Pixel Size X" else "Specimen Pixel Size X (nanometers)").toList md with
  | none, none => [.num sec, .num 1, .num 1]
  | y, x => [.text (env.text sec), .text (y.getD ['1']), .text (x.getD ['1'])]

/-- Lines 390-416. -/
def movieAxes (env : Env) (md : Meta) (diffracting : Bool) : Py (List DeAxis × Option (List Int)) := do
  let sum ← floatOr env md "Autosave Movie Sum Count" 1
  let fps ← floatOr env md "Frames Per Second" 1
  if fps * sum = 0 then .error .zeroDivision
  else .ok (keepAxes 0 ((movieColumns diffracting).zip
    ([-1, -1, -1].zip (movieScales env md diffracting (1 / (fps * sum))))), none)

/-- Lines 338-343: is the file a diffraction pattern; -1 is no camera length. -/
def diffracting (env : Env) (md : Meta) (stem : Bool) : Py Bool :=
  match floatOr env md "Instrument Project Camera Length (centimeters)" (-1) with
  | .ok c => .ok (decide (c ≠ -1) || stem)
  | .error e => .error e

/-- Lines 345-347: which of the two kinds of axes. -/
def deAxes (env : Env) (md : Meta) (nav : Option (List Nat)) (stem diff : Bool) :
    Py (List DeAxis × Option (List Int)) :=
  if (stem && scanning md && raster md) || nav.isSome then scanAxes env md nav else movieAxes env md diff

/-- Lines 434 and 449. -/
def gainOf (env : Env) (md : Meta) : Py Rat :=
  match floatOr env md "ADUs Per Electron Bin1x" 1 with
  | .ok g => if g = 0 then .error .zeroDivision else .ok (1 / g)
  | .error e => .error e

/-- Lines 311-327: the shape of the positions replaces that of the user. -/
def navFor (nav : Option (List Nat)) : Option Positions → Option (List Nat)
  | some p => some p.nav
  | none => nav

/-- `read_de_metadata_file`, lines 269-454, after the file was read. -/
def deRead (env : Env) (md : Meta) (nav : Option (List Nat)) (csv : Option (List (Nat × Nat))) : Py DeResult := do
  let pos ← scanPositions md csv
  let stem ← stemMode env md
  let diff ← diffracting env md stem
  let a ← deAxes env md (navFor nav pos) stem diff
  let g ← gainOf env md
  .ok ⟨a.1, a.2, pos.map Positions.list, g⟩

/-! ### File -/

inductive Axes
  | plain (l : List Axis)
  | de (l : List DeAxis)
  deriving DecidableEq

structure Signal where
  data : Request
  /-- The shape of the returned array. -/
  shape : List Nat
  axes : Axes
  gain : Option Rat
  deriving DecidableEq

/-- Sizes that NumPy accepts. -/
def natSizes (l : List Int) : Py (List Nat) :=
  if l.all (0 ≤ ·) then .ok (l.map Int.toNat) else .error .valueError

/-- Lines 694-696: sizes taken from the file, as far as both lists go. -/
def setSizes : List DeAxis → List Nat → List DeAxis
  | a :: l, n :: ns => { a with size := n } :: setSizes l ns
  | l, _ => l

/-- The metadata file and the scan position file that go with a file. -/
structure Side where
  md : Meta
  csv : Option (List (Nat × Nat))

/-- Lines 512-530. -/
def sideRead (env : Env) (nav : Option (List Nat)) : Option Side → Py (Option DeResult)
  | none => .ok none
  | some s => match deRead env s.md nav s.csv with
    | .ok r => .ok (some r)
    | .error e => .error e

/-- Lines 523-524: the navigation shape that is used. -/
def navOf (nav : Option (List Nat)) : Option DeResult → Py (Option (List Nat))
  | none => .ok nav
  | some r => match nav, r.nav with
    | some n, _ => .ok (some n)
    | none, none => .ok none
    | none, some l => match natSizes l with
      | .ok n => .ok (some n)
      | .error e => .error e

/-- Lines 589-591, in the order of the data. -/
def fullShape (h : Header) (nav : Option (List Nat)) : List Nat :=
  ([h.nx, h.ny] ++ nav.getD [h.nz]).reverse

/-- Lines 627-696: the axes of a file with and without metadata file. -/
def axesOf (h : Header) (fei : Option Rat) (nav : Option (List Nat)) (full : List Nat) : Option DeResult → Axes
  | none => .plain (plainAxes (entries (extra nav) (scales h fei) (offsets h fei)) full (full.filter (· ≠ 1)))
  | some r => .de (setSizes r.axes full)

/-- `file_reader`, lines 460-708. -/
def reader (env : Env) (big : Bool) (b : List UInt8) (nav : Option (List Nat)) (side : Option Side) : Py Signal := do
  let r ← sideRead env nav side
  let n ← navOf nav r
  let h ← header big b
  let req ← request b h (fullShape h n) (r.bind DeResult.positions)
  .ok ⟨req, (fullShape h n).filter (· ≠ 1), axesOf h (feiPixel big b h) n (fullShape h n) r, r.map DeResult.gain⟩

end Verif.MrcFile
