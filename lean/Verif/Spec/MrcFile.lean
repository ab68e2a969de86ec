import Verif.Model.MrcFile
/-!
What MRC files and the metadata of Direct Electron cameras hold, independently of the reader.
-/
namespace Verif.MrcFile

/-! ### Files -/

/-- The four bytes at an offset are a number below `2 ^ 32`. -/
def Has4 (big : Bool) (b : List UInt8) (off v : Nat) : Prop :=
  v < 2 ^ 32 ∧ (b.drop off).take 4 = if big then beBytes 4 v else leBytes 4 v

/-- The four bytes at an offset are a number of single precision. -/
def HasF (big : Bool) (b : List UInt8) (off : Nat) (r : Rat) : Prop := ∃ n, Has4 big b off n ∧ f32Dec n = r

/-- The words of the header of MRC2014: columns, rows, sections, mode, cells, lengths in Ångström, size of the extended header, origin. -/
structure Holds (big : Bool) (b : List UInt8) (f : Header) : Prop where
  full : 1024 ≤ b.length
  nx : Has4 big b (4 * 0) f.nx
  ny : Has4 big b (4 * 1) f.ny
  nz : Has4 big b (4 * 2) f.nz
  mode : Has4 big b (4 * 3) f.mode
  mx : Has4 big b (4 * 7) f.mx
  my : Has4 big b (4 * 8) f.my
  mz : Has4 big b (4 * 9) f.mz
  xlen : HasF big b (4 * 10) f.xlen
  ylen : HasF big b (4 * 11) f.ylen
  zlen : HasF big b (4 * 12) f.zlen
  next : Has4 big b (4 * 23) f.next
  xorigin : HasF big b (4 * 49) f.xorigin
  yorigin : HasF big b (4 * 50) f.yorigin
  zorigin : HasF big b (4 * 51) f.zorigin

/-- The modes: bytes, 16-bit integers, single precision, complex numbers, unsigned 16-bit integers, half precision; with the bytes of an item. -/
def modes : List (Nat × DType × Nat) := [(0, .u1, 1), (1, .i2, 2), (2, .f4, 4), (4, .c8, 8), (6, .u2, 2), (12, .f2, 2)]

/-- Items of an array. -/
def product : List Nat → Nat
  | [] => 1
  | n :: l => n * product l

/-- The dimensions of the file in front of those of an image: the sections, or those of the user, the fastest one first. -/
def navDims (f : Header) (nav : Option (List Nat)) : List Nat := (nav.getD [f.nz]).reverse

/-- Scale and offset in nm of a length of `n` cells. -/
def Calibrated (big : Bool) (b : List UInt8) (f : Header) (len : Rat) (n : Nat) (origin : Rat) (scale offset : Rat) : Prop :=
  (f.next = 131072 → (∀ p, HasF big b 1068 p → scale = p * 1000000000) ∧ offset = 0) ∧
  (f.next ≠ 131072 → (n ≠ 0 → scale * n * 10 = len) ∧ (n = 0 → scale = 1) ∧ offset * 10 = origin)

/-- The same for the sections: these are numbered with an FEI header or when there is no length. -/
def CalibratedZ (f : Header) (scale offset : Rat) : Prop :=
  (f.next = 131072 → scale = 1 ∧ offset = 0) ∧
  (f.next ≠ 131072 → (f.mz ≠ 0 → f.zlen ≠ 0 → scale * f.mz * 10 = f.zlen) ∧ (f.mz = 0 ∨ f.zlen = 0 → scale = 1) ∧
    offset * 10 = f.zorigin)

/-- The axes of a file without metadata. -/
def AxesFor (big : Bool) (b : List UInt8) (f : Header) (shape : List Nat) (l : List Axis) : Prop :=
  l.length = shape.length ∧ ∀ (i : Nat) a, l[i]? = some a →
    a.index = i ∧ shape[i]? = some a.size ∧
    (i + 1 = shape.length → a.name = "x".toList ∧ a.units = some "nm".toList ∧ a.navigate = false ∧
      Calibrated big b f f.xlen f.mx f.xorigin a.scale a.offset) ∧
    (i + 2 = shape.length → a.name = "y".toList ∧ a.units = some "nm".toList ∧ a.navigate = false ∧
      Calibrated big b f f.ylen f.my f.yorigin a.scale a.offset) ∧
    (i + 3 = shape.length → a.name = "z".toList ∧ a.units = none ∧ a.navigate = true ∧ CalibratedZ f a.scale a.offset) ∧
    (i + 3 < shape.length → a.name = [] ∧ a.units = none ∧ a.navigate = true ∧ a.scale = 1 ∧ a.offset = 0)

/-! ### Metadata -/

/-- A value of the metadata, or the one that is used if it is not there. -/
def NumIs (env : Env) (md : Meta) (key : String) (d r : Rat) : Prop :=
  (getKw key.toList md = none → r = d) ∧ ∀ t, getKw key.toList md = some t → env.float t = some r

def IntIs (env : Env) (md : Meta) (key : String) (d n : Int) : Prop :=
  (getKw key.toList md = none → n = d) ∧ ∀ t, getKw key.toList md = some t → env.int t = some n

/-- A scan is made. -/
def Scans (md : Meta) : Prop := getKw "Scan - Enable".toList md = some "Enable".toList

/-- The scan is row by row (which is so if the type is not given). -/
def IsRaster (md : Meta) : Prop := ∀ t, getKw "Scan - Type".toList md = some t → t = "Raster".toList

/-- The microscope scans: mode 1, or, if the mode was not read, there is a scan. -/
def IsStem (env : Env) (md : Meta) : Prop :=
  ∃ m, IntIs env md "Instrument Project TEMorSTEM Mode" (-1) m ∧ m ≠ 0 ∧ (m = -1 → Scans md)

def IsTem (env : Env) (md : Meta) : Prop :=
  ∃ m, IntIs env md "Instrument Project TEMorSTEM Mode" (-1) m ∧ (m = 0 ∨ (m = -1 ∧ ¬Scans md))

/-- The size of the scan: of the region of interest if there is one. -/
def ScanSizeIs (env : Env) (md : Meta) (x y : Nat) : Prop :=
  (getKw "Scan - ROI Enable".toList md = some "Enable".toList →
    IntIs env md "Scan - ROI Size X" 1 x ∧ IntIs env md "Scan - ROI Size Y" 1 y) ∧
  (getKw "Scan - ROI Enable".toList md ≠ some "Enable".toList →
    IntIs env md "Scan - Size X" 1 x ∧ IntIs env md "Scan - Size Y" 1 y)

/-- What else is read of the metadata of a scan: pixel sizes that are numbers, no time of the scan, an image of more than one row and
column. -/
def Readable (env : Env) (md : Meta) : Prop :=
  getKw "Scan - Time (seconds)".toList md = none ∧ getKw "Scan - Repeat Delay (seconds)".toList md = none ∧
  (∃ r, NumIs env md "Specimen Pixel Size Y (nanometers)" 1 r) ∧ (∃ r, NumIs env md "Specimen Pixel Size X (nanometers)" 1 r) ∧
  (∃ r, NumIs env md "Diffraction Pixel Size Y" 1 r) ∧ (∃ r, NumIs env md "Diffraction Pixel Size X" 1 r) ∧
  (∃ n, IntIs env md "Image Size X (pixels)" (-1) n ∧ n ≠ 1) ∧ (∃ n, IntIs env md "Image Size Y (pixels)" (-1) n ∧ n ≠ 1)

/-- Name, units and kind of the axes of a scan. -/
def navAxis (name : String) (n : Nat) : Text × Text × Bool × Int := (name.toList, "nm".toList, true, n)
def sigAxis (name units : String) (n : Nat) : Text × Text × Bool × Int := (name.toList, units.toList, false, n)

def DeAxis.view (a : DeAxis) : Text × Text × Bool × Int := (a.name, a.units, a.navigate, a.size)

/-- The axes of a scan of x by y points: those of one point are left out. -/
def scanViews (x y nx ny : Nat) : List (Text × Text × Bool × Int) :=
  (if y = 1 then [] else [navAxis "y" y]) ++ (if x = 1 then [] else [navAxis "x" x]) ++
    [sigAxis "ky" "nm^-1" ny, sigAxis "kx" "nm^-1" nx]

/-- The axes are numbered. -/
def Numbered (l : List DeAxis) : Prop := ∀ (i : Nat) a, l[i]? = some a → a.index = i

/-- A text without separators and without blanks at its ends. -/
def Plain (s : Text) : Prop :=
  '=' ∉ s ∧ '\n' ∉ s ∧ '\r' ∉ s ∧ (∀ c, s.head? = some c → isSpace c = false) ∧ ∀ c, s.getLast? = some c → isSpace c = false

/-- One more than the largest. -/
def IsBound (l : List Nat) (n : Nat) : Prop := (∀ v ∈ l, v < n) ∧ ∃ v ∈ l, v + 1 = n

/-- The places of the frames of a scan whose positions (x, y) are listed: row and column, and, if positions are visited again, the
number of the visit. -/
def Places (rows : List (Nat × Nat)) (p : Positions) : Prop :=
  p.list.length = rows.length ∧ p.list.Nodup ∧
  (rows.Nodup → ∃ ny nx, p.nav = [ny, nx] ∧ IsBound (rows.map Prod.snd) ny ∧ IsBound (rows.map Prod.fst) nx ∧
    ∀ (k : Nat) x y, rows[k]? = some (x, y) → p.list[k]? = some [y, x]) ∧
  (¬rows.Nodup → ∃ r ny nx, p.nav = [r, ny, nx] ∧ IsBound (rows.map Prod.snd) ny ∧ IsBound (rows.map Prod.fst) nx ∧
    ∀ (k : Nat) x y, rows[k]? = some (x, y) → (rows.take k).count (x, y) < r ∧
      p.list[k]? = some [y, x, (rows.take k).count (x, y)])

end Verif.MrcFile
