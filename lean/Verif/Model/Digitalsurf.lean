import Verif.Py.Text
import Verif.Py.Bytes
import Verif.Py.Ravel
import Verif.Py.Float32
/-!
Model of `rsciio/digitalsurf/_api.py`: the binary format of `.sur` and `.pro` files (all fields), the compression of points,
the normalisation of data to integers and its inverse, and the mapping of signals to objects and back.

Simplifications: `zlib` is a pair of functions; floating-point numbers are
rationals and arithmetic in double precision is exact (the rounding of single precision is a parameter); infinities, and data without
any finite value, are left out; axes have all their entries. `post_process_RGB` and `post_process_binary` are in
`Verif.Model.DigitalsurfPost`; the mapping of header fields to metadata is left out here, but for the headers in
`original_metadata`.
-/
namespace Verif.Digitalsurf

abbrev Bytes := List UInt8

/-! ### Fields -/

/-- How a field is packed, lines 2050-2149. -/
inductive Kind
  | str (n : Nat)
  | i16
  | u16
  | i32
  | u32
  | f32
  | raw (n : Nat)
  deriving DecidableEq

inductive Val
  | text (t : Text)
  | int (i : Int)
  | float (r : Rat)
  | raw (b : Bytes)
  deriving DecidableEq

/-- `_work_dict`, lines 192-535: the fields 1 to 59. -/
def layout : List Kind :=
  [.str 12, .i16, .u16, .i16, .i16, .str 30, .str 30, .i16, .i16, .i16,
   .i16, .i16, .f32, .u32, .i16, .i32, .i32, .i32, .i32, .i32,
   .f32, .f32, .f32, .str 16, .str 16, .str 16, .str 16, .str 16, .str 16, .str 16,
   .str 16, .str 16, .f32, .f32, .f32, .i16, .i16, .i16, .raw 12, .i16,
   .i16, .i16, .i16, .i16, .i16, .i16, .f32, .u32, .raw 6, .i16,
   .i16, .raw 128, .f32, .f32, .f32, .f32, .f32, .str 13, .str 13]

/-- `str.encode("latin-1")`. -/
def latin1 : Text → Py Bytes
  | [] => .ok []
  | c :: t => if c.toNat < 256 then (latin1 t).map (UInt8.ofNat c.toNat :: ·) else .error .unicodeError

/-- `bytes.decode("latin-1")`. -/
def ofLatin1 (b : Bytes) : Text := b.map fun x => Char.ofNat x.toNat

def isBlank (c : Char) : Bool := c = ' ' || c = '\t' || c = '\n'

/-- `_set_str`, lines 2081-2089. -/
def setStr (n : Nat) (t : Text) : Py Bytes := (latin1 (ljust n t)).map (·.take n)

/-- `struct.pack("<{n}s", b)`. -/
def fit (n : Nat) (b : Bytes) : Bytes := b.take n ++ List.replicate (n - b.length) 0

/-- The range of `struct.pack` for an integer with `w` bytes. -/
def inRange (w : Nat) : Bool → Int → Bool
  | true, i => decide (-((256 ^ w : Nat) : Int) ≤ 2 * i ∧ 2 * i < (256 ^ w : Nat))
  | false, i => decide (0 ≤ i ∧ i < (256 ^ w : Nat))

/-- `struct.pack` of an integer with `w` bytes. -/
def setInt (w : Nat) (signed : Bool) (i : Int) : Py Bytes :=
  if inRange w signed i then .ok (leBytes w (ofSigned w i)) else .error .structError

def getInt (w : Nat) (signed : Bool) (b : Bytes) : Py Int :=
  if b.length < w then .error .structError
  else .ok (if signed then toSigned w (leVal b) else leVal b)

def Kind.width : Kind → Nat
  | .str n => n
  | .i16 => 2
  | .u16 => 2
  | .i32 => 4
  | .u32 => 4
  | .f32 => 4
  | .raw n => n

def pack : Kind → Val → Py Bytes
  | .str n, .text t => setStr n t
  | .i16, .int i => setInt 2 true i
  | .u16, .int i => setInt 2 false i
  | .i32, .int i => setInt 4 true i
  | .u32, .int i => setInt 4 false i
  | .f32, .float r => match f32Enc r with
    | none => .error .overflowError
    | some n => .ok (leBytes 4 n)
  | .raw n, .raw b => .ok (fit n b)
  | _, _ => .error .structError

def unpack (k : Kind) (b : Bytes) : Py Val :=
  match k with
  | .str _ => .ok (.text (stripBy isBlank (ofLatin1 b)))
  | .i16 => (getInt 2 true b).map .int
  | .u16 => (getInt 2 false b).map .int
  | .i32 => (getInt 4 true b).map .int
  | .u32 => (getInt 4 false b).map .int
  | .f32 => if b.length < 4 then .error .structError else .ok (.float (f32Dec (leVal b)))
  | .raw _ => .ok (.raw b)

def packAll : List Kind → List Val → Py Bytes
  | k :: ks, v :: vs => match pack k v with
    | .error e => .error e
    | .ok b => match packAll ks vs with
      | .error e => .error e
      | .ok bs => .ok (b ++ bs)
  | [], [] => .ok []
  | _, _ => .error .keyError

def unpackAll : List Kind → Bytes → Py (List Val × Bytes)
  | [], f => .ok ([], f)
  | k :: ks, f => match unpack k (f.take k.width) with
    | .error e => .error e
    | .ok v => match unpackAll ks (f.drop k.width) with
      | .error e => .error e
      | .ok (vs, r) => .ok (v :: vs, r)

/-- Values by the number of the field. -/
def intOf (vs : List Val) (n : Nat) : Int := match vs[n - 1]? with
  | some (.int i) => i
  | _ => 0
def floatOf (vs : List Val) (n : Nat) : Rat := match vs[n - 1]? with
  | some (.float r) => r
  | _ => 0
def textOf (vs : List Val) (n : Nat) : Text := match vs[n - 1]? with
  | some (.text t) => t
  | _ => []

/-! ### Objects in files -/

def tCompressed : Text := ['D', 'S', 'C', 'O', 'M', 'P', 'R', 'E', 'S', 'S', 'E', 'D']
def tUncompressed : Text := ['D', 'I', 'G', 'I', 'T', 'A', 'L', ' ', 'S', 'U', 'R', 'F']

/-- One object: the values of the fields 1 to 59, the comment, the private zone and the points. -/
structure Obj where
  vals : List Val
  comment : Text
  priv : Text
  points : Bytes
  deriving DecidableEq

/-- `int(_15_Size_of_Points / 8)` for sizes that are not negative. -/
def psize (vs : List Val) : Nat := (intOf vs 15).toNat / 8

/-- `_get_uncompressed_datasize`, lines 2203-2214. -/
def rawSize (vs : List Val) : Int := intOf vs 20 * max (intOf vs 14) 1 * psize vs

/-- `_write_sur_file`, lines 545-558, for one object; `_pack_comment`, `_pack_private`, `_pack_data`, lines 2139-2149, 2291-2298. -/
def writeObj (o : Obj) : Py Bytes :=
  match packAll layout o.vals with
  | .error e => .error e
  | .ok h =>
    if intOf o.vals 50 < 0 ∨ intOf o.vals 51 < 0 then .error .structError
    else match setStr (intOf o.vals 50).toNat o.comment with
      | .error e => .error e
      | .ok k => match setStr (intOf o.vals 51).toNat o.priv with
        | .error e => .error e
        | .ok p =>
          let n := if textOf o.vals 1 ≠ tCompressed then rawSize o.vals else intOf o.vals 48
          if n < 0 then .error .structError else .ok (h ++ k ++ p ++ fit n.toNat o.points)

def writeAll : List Obj → Py Bytes
  | [] => .ok []
  | o :: os => match writeObj o with
    | .error e => .error e
    | .ok b => match writeAll os with
      | .error e => .error e
      | .ok bs => .ok (b ++ bs)

/-- `file.read(n)`: a negative number reads everything. -/
def readN (f : Bytes) (n : Int) : Bytes × Bytes := if n < 0 then (f, []) else (f.take n.toNat, f.drop n.toNat)

/-- Lines 2246-2255. -/
def directory : Nat → Bytes → Py (List (Nat × Nat) × Bytes)
  | 0, f => .ok ([], f)
  | n + 1, f => match getInt 4 false (f.take 4), getInt 4 false ((f.drop 4).take 4) with
    | .ok a, .ok b => match directory n (f.drop 8) with
      | .error e => .error e
      | .ok (l, r) => .ok ((a.toNat, b.toNat) :: l, r)
    | _, _ => .error .structError

/-- Lines 2257-2262. -/
def streams (unzip : Bytes → Py Bytes) : List (Nat × Nat) → Bytes → Py (Bytes × Bytes)
  | [], f => .ok ([], f)
  | (_, n) :: l, f => match unzip (f.take n) with
    | .error e => .error e
    | .ok b => match streams unzip l (f.drop n) with
      | .error e => .error e
      | .ok (bs, r) => .ok (b ++ bs, r)

/-- `_unpack_data`, lines 2216-2265, up to the bytes of the points. -/
def readPoints (unzip : Bytes → Py Bytes) (vs : List Val) (f : Bytes) : Py (Bytes × Bytes) :=
  if textOf vs 1 ≠ tCompressed then .ok (readN f (intOf vs 20 * psize vs * max (intOf vs 14) 1))
  else match getInt 4 false (f.take 4) with
    | .error e => .error e
    | .ok n => match directory n.toNat (f.drop 4) with
      | .error e => .error e
      | .ok (l, r) => streams unzip l r

/-- `np.frombuffer` with integers of `w` bytes. -/
def intsOf (w : Nat) : Nat → Bytes → List Int
  | 0, _ => []
  | n + 1, b => toSigned w (leVal (b.take w)) :: intsOf w n (b.drop w)

def fromBuffer (w : Nat) (b : Bytes) : Py (List Int) :=
  if b.length % w = 0 then .ok (intsOf w (b.length / w) b) else .error .valueError

/-- `_mountains_object_types`, lines 147-170. -/
def objectTypes : List Int := [-1, 0, 1, 2, 3, 4, 5, 6, 7, 8, 9, 10, 11, 12, 13, 14, 15, 16, 17, 18, 20, 21]

/-- Points after reading: `none` is NaN; `isInt`: the array has an integer type. -/
structure Points where
  isInt : Bool
  vals : List (Option Rat)
  deriving DecidableEq

/-- `_unpack_data`, lines 2267-2289, and `_is_data_int`, `_is_data_scaleint`, `_is_data_bin`, lines 2151-2201. -/
def decode (vs : List Val) (p : List Int) : Py Points :=
  let zmin := intOf vs 16
  let offset := floatOf vs 55
  let ty := intOf vs 5
  if floatOf vs 35 = 0 then .error .zeroDivision
  else
    let scale := floatOf vs 23 / floatOf vs 35
    if ty ∉ objectTypes then .error .keyError
    else if (ty = 5 ∨ ty = 2) ∧ scale.den = 1 ∧ offset.den = 1 then .ok ⟨true, p.map fun (x : Int) => some (x : Rat)⟩
    else if ty = 12 ∨ ty = 18 ∨ ty = 10 then
      .ok ⟨true, p.map fun (x : Int) => some (roundEven (((x : Rat) - zmin) * scale + offset) : Rat)⟩
    else if ty = 3 then .ok ⟨true, p.map fun (x : Int) => some (x : Rat)⟩
    else .ok ⟨false, p.map fun (x : Int) =>
      if intOf vs 11 = 1 ∧ x = zmin - 2 then none else some (((x : Rat) - zmin) * scale + offset)⟩

/-- An object as it is read. -/
structure Read where
  vals : List Val
  comment : Text
  priv : Text
  points : Points
  deriving DecidableEq

/-- `_read_single_sur_object`, lines 1229-1236. -/
def readObj (unzip : Bytes → Py Bytes) (f : Bytes) : Py (Read × Bytes) :=
  match unpackAll layout f with
  | .error e => .error e
  | .ok (vs, f) =>
    let (k, f) := readN f (intOf vs 50)
    let (p, f) := readN f (intOf vs 51)
    match readPoints unzip vs f with
    | .error e => .error e
    | .ok (b, f) => match fromBuffer (if psize vs = 2 then 2 else 4) b with
      | .error e => .error e
      | .ok ps => match decode vs ps with
        | .error e => .error e
        | .ok pts => .ok (⟨vs, stripBy isBlank (ofLatin1 k), stripBy isBlank (ofLatin1 p), pts⟩, f)

def readMany (unzip : Bytes → Py Bytes) : Nat → Bytes → Py (List Read)
  | 0, _ => .ok []
  | n + 1, f => match readObj unzip f with
    | .error e => .error e
    | .ok (o, f) => match readMany unzip n f with
      | .error e => .error e
      | .ok os => .ok (o :: os)

/-- `_read_sur_file`, lines 1192-1227. -/
def readFile (unzip : Bytes → Py Bytes) (f : Bytes) : Py (List Read) :=
  match readObj unzip f with
  | .error e => .error e
  | .ok (o, f) =>
    let n := max (intOf o.vals 8) 1 * max (intOf o.vals 3) 1
    match readMany unzip (n.toNat - 1) f with
    | .error e => .error e
    | .ok os => .ok (o :: os)

/-! ### Points to bytes -/

/-- The bytes of an array of integers of `w` bytes. -/
def intBytes (w : Nat) (l : List Int) : Bytes := l.flatMap fun i => leBytes w (ofSigned w i)

/-- `_compress_data`, lines 2300-2340: the streams. -/
def slices (n len : Nat) (l : List Int) : List (List Int) :=
  (List.range n).map fun i => (l.drop (i * len)).take len

/-- The sizes of the streams. -/
def sizes (l : List (Nat × Bytes)) : Py Bytes :=
  if ∀ p ∈ l, p.1 < 256 ^ 4 ∧ p.2.length < 256 ^ 4 then .ok (l.flatMap fun p => leBytes 4 p.1 ++ leBytes 4 p.2.length)
  else .error .structError

def compress (zip : Bytes → Bytes) (w n : Nat) (l : List Int) : Py Bytes :=
  if n = 0 ∨ 8 < n then .error .valueError
  else
    let len := if l.length % n ≠ 0 then l.length / n + 1 else l.length / n
    let parts := (slices n len l).map fun s => (s.length * w, zip (intBytes w s))
    match sizes parts with
    | .error e => .error e
    | .ok d => .ok (leBytes 4 n ++ d ++ parts.flatMap fun p => p.2)

/-! ### Normalisation -/

/-- Types of data. -/
inductive DType
  | bool
  | u8
  | u16
  | i8
  | i16
  | i32
  | float
  | rgb8
  | rgb16
  | rgba8
  | rgba16
  | other
  deriving DecidableEq

structure Norm where
  bits : Int
  zmin : Int
  zmax : Int
  scale : Rat
  offset : Rat
  ints : List Int
  deriving DecidableEq

/-- Smallest and largest integer of a type. -/
def DType.limits : DType → Int × Int
  | .u8 => (0, 255)
  | .u16 => (0, 65535)
  | .i8 => (-128, 127)
  | .i16 => (-32768, 32767)
  | _ => (-2147483648, 2147483647)

def minOf : List Int → Option Int
  | [] => none
  | a :: l => some (l.foldl min a)
def maxOf : List Int → Option Int
  | [] => none
  | a :: l => some (l.foldl max a)

/-- `_norm_signed_int`, lines 967-982, and lines 929-959. -/
def normInt (ty : DType) (bits : Int) (special : Bool) (l : List Int) : Py Norm :=
  let lo := if ty.limits.1 ∈ l ∧ special then some (ty.limits.1 + 1) else minOf l
  let hi := if ty.limits.2 ∈ l ∧ special then some (ty.limits.2 - 1) else maxOf l
  match lo, hi with
  | some a, some b => .ok ⟨bits, a, b, 1, a, l⟩
  | _, _ => .error .valueError

/-- Rounding towards zero, `astype(np.int32)`. -/
def truncate (r : Rat) : Int := if 0 ≤ r then ⌊r⌋ else ⌈r⌉

/-- `astype(np.int32)`; `junk` is the result for NaN and numbers that are too large. -/
def toInt32 (junk : Int) (r : Rat) : Int :=
  if -2147483648 ≤ truncate r ∧ truncate r ≤ 2147483647 then truncate r else junk

def minRat : List Rat → Option Rat
  | [] => none
  | a :: l => some (l.foldl min a)
def maxRat : List Rat → Option Rat
  | [] => none
  | a :: l => some (l.foldl max a)

/-- `_norm_float`, lines 984-1011. `rnd` is the rounding of the type of the data, the identity for double precision. -/
def normFloat (rnd : Rat → Rat) (junk : Int) (special : Bool) (l : List (Option Rat)) : Py Norm :=
  let finite := l.filterMap id
  match minRat finite, maxRat finite with
  | some off, some top =>
    let nan := special && l.any Option.isNone
    let zmin : Int := if nan then -2147483648 + 2 else -2147483648
    let zmax : Int := if nan then 4294967296 + zmin - 3 else 4294967296 + zmin - 1
    let scale := rnd (rnd (top - off) / rnd ((zmax - zmin : Int) : Rat))
    .ok ⟨32, zmin, zmax, scale, off, l.map fun d => match d with
      | none => if nan then zmin - 2 else junk
      | some d => if scale = 0 then junk
        else toInt32 junk (rnd (rnd (rnd (d - off) / scale) + rnd (zmin : Rat)))⟩
  | _, _ => .error .valueError

/-- Values of integers. -/
def toInts (l : List (Option Rat)) : List Int := l.map fun d => match d with
  | none => 0
  | some r => r.num

/-- `_norm_data`, lines 903-965. -/
def normData (rnd : Rat → Rat) (junk : Int) (ty : DType) (special : Bool) (l : List (Option Rat)) : Py Norm :=
  match ty with
  | .bool => .ok ⟨16, 0, 1, 1, 0, toInts l⟩
  | .u8 => normInt ty 16 special (toInts l)
  | .u16 => normInt ty 32 special (toInts l)
  | .i8 => normInt ty 16 special (toInts l)
  | .i16 => normInt ty 16 special (toInts l)
  | .i32 => normInt ty 32 special (toInts l)
  | .float => normFloat rnd junk special l
  | _ => .error .ioError

/-! ### Signals to objects -/

structure Axis where
  name : Text
  size : Nat
  scale : Rat
  offset : Rat
  units : Text
  navigate : Bool
  deriving DecidableEq

/-- A signal: the channel (zero but for RGB) and the index give a value. -/
structure Sig where
  axes : List Axis
  dtype : DType
  data : Nat → List Nat → Option Rat

def Sig.shape (s : Sig) : List Nat := s.axes.map Axis.size

/-- Type, type of data, and points of an object. -/
structure Part where
  type : Int
  dtype : DType
  points : List (Option Rat)

structure Split where
  parts : List Part
  x : Option Axis
  y : Option Axis
  t : Option Axis
  nObjects : Nat
  nChannels : Nat

/-- `_is_spectrum`, lines 646-659. -/
def spectral : List Text :=
  [['W', 'a', 'v', 'e', 'l', 'e', 'n', 'g', 't', 'h'], ['E', 'n', 'e', 'r', 'g', 'y'],
   ['E', 'n', 'e', 'r', 'g', 'y', ' ', 'L', 'o', 's', 's'], ['E']]

def isSpectrum (s : Sig) : Bool := s.axes.any fun a => decide (a.name ∈ spectral)

def isRgb (ty : DType) : Bool := ty = .rgb8 || ty = .rgb16 || ty = .rgba8 || ty = .rgba16

/-- Slices of an array along axis `i`, `_split_data_alongaxis`, lines 893-901. -/
def along (s : Sig) (i ch : Nat) : List (List (Option Rat)) :=
  (List.range (s.shape[i]?.getD 0)).map fun k =>
    ravel (s.shape.eraseIdx i) fun I => s.data ch (I.take i ++ k :: I.drop i)

def whole (s : Sig) (ch : Nat) : List (Option Rat) := ravel s.shape (s.data ch)

def navAxis (s : Sig) : Option Axis := s.axes.find? fun a => a.navigate
def sigAxes (s : Sig) : List Axis := s.axes.filter fun a => !a.navigate
def navAxes (s : Sig) : List Axis := s.axes.filter fun a => a.navigate

/-- `_split_spectrum`, lines 740-764. -/
def splitSpectrum (s : Sig) : Split :=
  ⟨[⟨20, s.dtype, whole s 0⟩], (sigAxes s)[0]?, navAxis s, none, 1, 1⟩

/-- `_split_profile`, lines 766-777. -/
def splitProfile (s : Sig) : Split := ⟨[⟨1, s.dtype, whole s 0⟩], s.axes[0]?, none, none, 1, 1⟩

/-- `_split_binary_img`, lines 794-807; `_split_surface`, lines 826-837. -/
def splitSurface (ty : Int) (s : Sig) : Split := ⟨[⟨ty, s.dtype, whole s 0⟩], s.axes[1]?, s.axes[0]?, none, 1, 1⟩

/-- `_split_rgb`, lines 809-824. -/
def splitRgb (s : Sig) : Split :=
  ⟨[⟨12, .i32, whole s 0⟩, ⟨10, .i32, whole s 1⟩, ⟨10, .i32, whole s 2⟩], s.axes[1]?, s.axes[0]?, none, 1, 3⟩

/-- The type of the first object of a series is that of the series. -/
def headType (ty : Int) : List Part → List Part
  | [] => []
  | p :: ps => { p with type := ty } :: ps

/-- `self.signal_dict["axes"].index(axis)`. -/
def navIndex (s : Sig) : Nat := match navAxis s with
  | none => 0
  | some a => s.axes.idxOf a

/-- `_split_profileserie`, lines 779-792. -/
def splitProfiles (s : Sig) : Split :=
  let l := along s (navIndex s) 0
  ⟨headType 4 (l.map fun p => ⟨1, s.dtype, p⟩), (sigAxes s)[0]?, none, navAxis s, l.length, 1⟩

/-- `_split_surfaceserie`, lines 866-878 (a series without surfaces raises). -/
def splitSurfaces (s : Sig) : Py Split :=
  let l := along s (navIndex s) 0
  if l = [] then .error .indexError
  else .ok ⟨headType 5 (l.map fun p => ⟨2, s.dtype, p⟩), (sigAxes s)[1]?, (sigAxes s)[0]?, navAxis s, l.length, 1⟩

/-- `astype(np.int16)` of numbers that are not negative. -/
def toInt16 (d : Option Rat) : Option Rat := d.map fun r => ((toSigned 2 (ofSigned 2 r.num) : Int) : Rat)

/-- `_split_rgbserie`, lines 839-864. -/
def splitRgbs (s : Sig) : Py Split :=
  let n := ((navAxis s).map Axis.size).getD 0
  if n = 0 then .error .indexError
  else
    let parts := (List.range n).flatMap fun k => (List.range 3).map fun ch =>
      (⟨if ch = 0 then 12 else 10, .i16, (((along s (navIndex s) ch)[k]?).getD []).map toInt16⟩ : Part)
    .ok ⟨headType 18 parts, (sigAxes s)[1]?, (sigAxes s)[0]?, navAxis s, n, 3⟩

/-- `_split_hyperspectral`, lines 880-891. -/
def splitMap (s : Sig) : Split :=
  ⟨[⟨21, s.dtype, whole s 0⟩], (navAxes s)[1]?, (navAxes s)[0]?, (sigAxes s)[0]?, 1, 1⟩

/-- `_split_signal_dict`, lines 665-738. -/
def split (s : Sig) : Py Split :=
  match (navAxes s).length, (sigAxes s).length with
  | 0, 1 => .ok (if isSpectrum s then splitSpectrum s else splitProfile s)
  | 0, 2 => .ok (if s.dtype = .bool then splitSurface 3 s else if isRgb s.dtype then splitRgb s else splitSurface 2 s)
  | 1, 0 => .ok (splitProfile s)
  | 1, 1 => .ok (if isSpectrum s then splitSpectrum s else splitProfiles s)
  | 1, 2 => if isRgb s.dtype then splitRgbs s else splitSurfaces s
  | 2, 0 => .ok (if s.dtype = .bool then splitSurface 3 s else if isRgb s.dtype then splitRgb s else splitSurface 2 s)
  | 2, 1 => .ok (splitMap s)
  | _, _ => .error .ioError

/-- Arguments of `file_writer`, the date, and what is made of the metadata. -/
structure Args where
  special : Bool
  compressed : Bool
  comment : Text
  objectName : Text
  operatorName : Text
  absolute : Int
  privateZone : Bytes
  clientZone : Bytes
  zName : Text
  zUnit : Text
  date : List Int

/-- `repr` of a byte string (`f"{val}"`). -/
def hexDigit (n : Nat) : Char := if n < 10 then Char.ofNat (48 + n) else Char.ofNat (87 + n)

def reprByte (q : Char) (b : UInt8) : Text :=
  let c := Char.ofNat b.toNat
  if c = '\\' then ['\\', '\\']
  else if c = q then ['\\', q]
  else if c = '\t' then ['\\', 't']
  else if c = '\n' then ['\\', 'n']
  else if c = '\r' then ['\\', 'r']
  else if 32 ≤ b.toNat ∧ b.toNat ≤ 126 then [c]
  else ['\\', 'x', hexDigit (b.toNat / 16), hexDigit (b.toNat % 16)]

def reprBytes (b : Bytes) : Text :=
  let q := if (39 : UInt8) ∈ b ∧ (34 : UInt8) ∉ b then '"' else '\''
  ['b', q] ++ b.flatMap (reprByte q) ++ [q]

def extent (a : Option Axis) : Nat := (a.map Axis.size).getD 1
def scaleOf (a : Option Axis) : Rat := (a.map Axis.scale).getD 0
def offsetOf (a : Option Axis) : Rat := (a.map Axis.offset).getD 0
def nameOf (a : Option Axis) : Text := (a.map Axis.name).getD []
def unitsOf (a : Option Axis) : Text := (a.map Axis.units).getD []

def dateOf (l : List Int) (i : Nat) : Val := .int (l[i]?.getD 0)

/-- `_build_workdict`, lines 1033-1190: the values of the fields, without the comment, the private zone and the points. -/
def header (g : Args) (s : Split) (type : Int) (n : Norm) (dataSize commentSize : Nat) : List Val :=
  [.text (if g.compressed then tCompressed else tUncompressed), .int 0, .int s.nObjects, .int 1, .int type,
    .text g.objectName, .text g.operatorName, .int s.nChannels, .int 0, .int 0,
    .int (if g.special then 1 else 0), .int g.absolute, .float 0, .int (if type = 21 then ((s.t.map Axis.size).getD 0 : Nat) else 0), .int n.bits,
    .int n.zmin, .int n.zmax, .int (extent s.x), .int (extent s.y), .int (extent s.x * extent s.y),
    .float (scaleOf s.x), .float (scaleOf s.y), .float n.scale, .text (nameOf s.x), .text (nameOf s.y),
    .text g.zName, .text (unitsOf s.x), .text (unitsOf s.y), .text g.zUnit, .text (unitsOf s.x),
    .text (unitsOf s.y), .text g.zUnit, .float 1, .float 1, .float 1,
    .int 0, .int 0, .int 0, .raw [], dateOf g.date 0,
    dateOf g.date 1, dateOf g.date 2, dateOf g.date 3, dateOf g.date 4, dateOf g.date 5,
    dateOf g.date 6, .float 0, .int (if g.compressed then dataSize else 0 : Nat), .raw [], .int (min commentSize 32767 : Nat),
    .int (min g.privateZone.length 32767 : Nat), .raw g.clientZone, .float (offsetOf s.x), .float (offsetOf s.y), .float n.offset,
    .float (scaleOf s.t), .float (offsetOf s.t), .text (nameOf s.t), .text (unitsOf s.t)]

/-- `_build_workdict`: the points. -/
def pointBytes (zip : Bytes → Bytes) (compressed : Bool) (n : Norm) : Py Bytes :=
  let w := if n.bits = 16 then 2 else 4
  if compressed then compress zip w 1 n.ints else .ok (intBytes w n.ints)

/-- `_build_workdict`: the object for one part. -/
def build (rnd : Rat → Rat) (junk : Int) (zip : Bytes → Bytes) (g : Args) (s : Split) (comment : Text) (p : Part) : Py Obj :=
  match normData rnd junk p.dtype g.special p.points with
  | .error e => .error e
  | .ok n => match pointBytes zip g.compressed n with
    | .error e => .error e
    | .ok data => match latin1 comment with
      | .error e => .error e
      | .ok cb => .ok ⟨header g s p.type n data.length cb.length, comment, reprBytes g.privateZone, data⟩

/-- `_build_sur_file_contents`, lines 560-625: the comment goes to the first object. -/
def buildAll (rnd : Rat → Rat) (junk : Int) (zip : Bytes → Bytes) (g : Args) (s : Split) : Text → List Part → Py (List Obj)
  | _, [] => .ok []
  | k, p :: ps => match build rnd junk zip g s k p with
    | .error e => .error e
    | .ok o => match buildAll rnd junk zip g s [] ps with
      | .error e => .error e
      | .ok os => .ok (o :: os)

/-- `file_writer`. -/
def writeFile (rnd : Rat → Rat) (junk : Int) (zip : Bytes → Bytes) (g : Args) (s : Sig) : Py Bytes :=
  match split s with
  | .error e => .error e
  | .ok sp => match buildAll rnd junk zip g sp g.comment sp.parts with
    | .error e => .error e
    | .ok os => writeAll os

/-! ### Objects to signals -/

/-- The result of reading: axes, shape and values in C order. -/
structure Res where
  axes : List Axis
  shape : List Nat
  isInt : Bool
  flat : List (Option Rat)
  deriving DecidableEq

/-- `_build_Xax`, `_build_Yax`, `_build_Tax`, lines 1283-1342. -/
def xAx (v : List Val) (nav : Bool) : Axis :=
  ⟨textOf v 24, (intOf v 18).toNat, floatOf v 21, floatOf v 53, textOf v 27, nav⟩
def yAx (v : List Val) (nav : Bool) : Axis :=
  ⟨textOf v 25, (intOf v 19).toNat, floatOf v 22, floatOf v 54, textOf v 28, nav⟩
def tAx (v : List Val) (field : Nat) (nav : Bool) : Axis :=
  ⟨textOf v 58, (intOf v field).toNat, if floatOf v 56 = 0 then 1 else floatOf v 56, floatOf v 57, textOf v 59, nav⟩

/-- `points.reshape(shape)`. -/
def reshape (shape : List Nat) (p : Points) : Py (List (Option Rat)) :=
  if p.vals.length = size shape then .ok p.vals else .error .valueError

def reshapeAll (shape : List Nat) : List Read → Py (List (Option Rat))
  | [] => .ok []
  | o :: os => match reshape shape o.points with
    | .error e => .error e
    | .ok l => match reshapeAll shape os with
      | .error e => .error e
      | .ok ls => .ok (l ++ ls)

def lines (v : List Val) : Nat := (intOf v 19).toNat
def points (v : List Val) : Nat := (intOf v 18).toNat

/-- `_build_surface_series`, `_build_RGB_surface`, `_build_RGB_image`, lines 1475-1567: a stack of surfaces with a T axis. -/
def stack (field : Nat) (o : Read) (os : List Read) : Py Res :=
  match reshapeAll [lines o.vals, points o.vals] (o :: os) with
  | .error e => .error e
  | .ok l => .ok ⟨[tAx o.vals field true, yAx o.vals false, xAx o.vals false],
      [os.length + 1, lines o.vals, points o.vals], (o :: os).all fun r => r.points.isInt, l⟩

/-- `_build_RGB_image_series`, lines 1569-1619: the channel is the last index. -/
def rgbSeries (o : Read) (os : List Read) : Py Res :=
  let v := o.vals
  let n := (intOf v 3).toNat
  let ch := (intOf v 8).toNat
  let all := o :: os
  if all.length < n * ch then .error .indexError
  else match reshapeAll [lines v, points v] (all.take (n * ch)) with
    | .error e => .error e
    | .ok _ => .ok ⟨[tAx v 3 false, yAx v false, xAx v false, tAx v 8 true], [n, lines v, points v, ch], false,
        ravel [n, lines v, points v, ch] fun I => match I with
          | [k, y, x, c] => ((all[k * ch + c]?.map fun r => r.points.vals).getD [])[y * points v + x]?.join
          | _ => none⟩

/-- `_build_sur_dict`, lines 1246-1280, and the functions for the types, lines 1344-1473. -/
def assemble : List Read → Py Res
  | [] => .error .indexError
  | o :: os =>
    let v := o.vals
    let ty := intOf v 5
    if ty = 21 then
      if os ≠ [] then .error .ioError
      else (reshape [lines v, points v, (intOf v 14).toNat] o.points).map fun l =>
        ⟨[yAx v true, xAx v true, tAx v 14 false], [lines v, points v, (intOf v 14).toNat], o.points.isInt, l⟩
    else if ty = 20 then
      (reshape [lines v, points v] o.points).map fun l =>
        ⟨(if intOf v 19 ≠ 1 then [yAx v true] else []) ++ [xAx v false], [lines v, points v].filter (· ≠ 1),
          o.points.isInt, l⟩
    else if ty = 1 then
      if os ≠ [] then .error .ioError
      else .ok ⟨[xAx v false], [o.points.vals.length], o.points.isInt, o.points.vals⟩
    else if ty = 4 then
      if os.any fun r => r.points.vals.length ≠ o.points.vals.length then .error .valueError
      else .ok ⟨[tAx v 3 true, xAx v false], [os.length + 1, o.points.vals.length],
        (o :: os).all fun r => r.points.isInt, (o :: os).flatMap fun r => r.points.vals⟩
    else if ty = 3 ∨ ty = 2 ∨ ty = 10 then
      if os ≠ [] then .error .ioError
      else (reshape [lines v, points v] o.points).map fun l =>
        ⟨[yAx v false, xAx v false], [lines v, points v], o.points.isInt, l⟩
    else if ty = 5 ∨ ty = 8 then stack 3 o os
    else if ty = 13 ∨ ty = 12 ∨ ty = 16 then stack 8 o os
    else if ty = 18 then rgbSeries o os
    else .error .ioError

/-- `file_reader`. -/
def loadFile (unzip : Bytes → Py Bytes) (f : Bytes) : Py Res :=
  match readFile unzip f with
  | .error e => .error e
  | .ok os => assemble os

/-- `_build_original_metadata`, lines 1694-1729: for object `i` and channel `j` the number of the header that is stored under
this name. -/
def headerFor (i j : Nat) : Nat := (i + 1) * (j + 1) - 1

def originalMetadata (nObjects nChannels : Nat) (os : List Read) : Py (List ((Nat × Nat) × List Val)) :=
  let keys := (List.range nObjects).flatMap fun i => (List.range (max nChannels 1)).map fun j => (i, j)
  keys.foldr (fun k r => match os[headerFor k.1 k.2]?, r with
    | some o, .ok l => .ok ((k, o.vals) :: l)
    | none, _ => .error .indexError
    | _, .error e => .error e) (.ok [])

end Verif.Digitalsurf
