import Verif.Model.RenishawData
import Verif.Spec.Bytes
/-! Specification of C77-C80: `.wdf` files. Of the model only types, the names of types and units, and the numbers of bit patterns are used. -/
namespace Verif.Spec.Renishaw
open Verif.Renishaw Verif.BytesSpec

/-- The unsigned little-endian integer of `w` bytes at `o`. -/
def num (b : Bytes) (o w : Nat) : Nat := stored false ((b.drop o).take w)

/-- A block: a name of four characters, a number, and its contents. -/
structure Block where
  name : Bytes
  uid : Nat
  body : Bytes
  deriving DecidableEq

/-- The name without spaces and null characters. -/
def Block.label (b : Block) : Text := ((b.name.filter fun c => c ≠ 0 ∧ c ≠ 32).map fun c => Char.ofNat c.toNat)

/-- The block in a file: name, number, size with these 16 bytes, contents. -/
def Block.bytes (b : Block) : Bytes := b.name ++ leBytes 4 b.uid ++ leBytes 8 (16 + b.body.length) ++ b.body

/-- A block that can be written. -/
structure Block.Ok (b : Block) : Prop where
  name : b.name.length = 4
  ascii : ∀ c ∈ b.name, c.toNat < 128
  uid : b.uid < 2 ^ 32
  size : 16 + b.body.length < 2 ^ 63

/-- A file of blocks. Blocks of the same name have different numbers. -/
structure Wdf (f : Bytes) (bs : List Block) : Prop where
  bytes : f = bs.flatMap Block.bytes
  ok : ∀ b ∈ bs, b.Ok
  distinct : (bs.map fun b => (b.label, b.uid)).Nodup

/-- The name under which a block is found: `WDF1_1`. -/
def title (label : Text) (uid : Nat) : Text := label ++ '_' :: decChars uid

/-- Blocks of a file. -/
def Has (bs : List Block) (label : String) (uid : Nat) (body : Bytes) : Prop :=
  ∃ b ∈ bs, b.label = label.toList ∧ b.uid = uid ∧ b.body = body

/-! Metadata. -/

/-- Entries of metadata as they are stored: numbers (letter and bytes), arrays of numbers, texts, binary data, compressed texts,
names, and entries in entries. -/
inductive Node where
  | number (c : UInt8) (raw : Bytes)
  | array (c : UInt8) (raws : List Bytes)
  | text (raw : Bytes)
  | binary (raw : Bytes)
  | compressed (raw : Bytes)
  | name (raw : Bytes)
  | nested (es : List (Nat × Node))

/-- Bytes of the types of numbers. -/
def wide (c : UInt8) : Nat :=
  if c = 99 then 1 else if c = 63 then 1 else if c = 115 then 2 else if c = 105 then 4 else if c = 119 then 8
  else if c = 114 then 4 else if c = 113 then 8 else if c = 116 then 8 else 0

mutual
/-- An entry in a file: letter, flag, number of the entry, contents. -/
def nodeBytes (id : Nat) : Node → Bytes
  | .number c raw => [c, 0] ++ leBytes 2 id ++ raw
  | .array c raws => [c, 128] ++ leBytes 2 id ++ leBytes 4 raws.length ++ raws.flatten
  | .text raw => [117, 0] ++ leBytes 2 id ++ leBytes 4 raw.length ++ raw
  | .binary raw => [98, 0] ++ leBytes 2 id ++ leBytes 4 raw.length ++ raw
  | .compressed raw => [117, 64] ++ leBytes 2 id ++ leBytes 4 raw.length ++ raw
  | .name raw => [107, 0] ++ leBytes 2 id ++ leBytes 4 raw.length ++ raw
  | .nested es => [112, 0] ++ leBytes 2 id ++ leBytes 4 (setBytes es).length ++ setBytes es

/-- Entries one after the other. -/
def setBytes : List (Nat × Node) → Bytes
  | [] => []
  | (id, n) :: es => nodeBytes id n ++ setBytes es
end

/-- The characters of a text; null characters are not part of it. -/
def chars (raw : Bytes) : Text := (raw.filter fun c => c ≠ 0).map fun c => Char.ofNat c.toNat

/-- The value of a number. -/
def NumVal (c : UInt8) (raw : Bytes) : Val → Prop
  | .int i => (c = 63 ∧ i = stored false raw) ∨ (c ∈ [99, 115, 105, 119] ∧ Encodes false true raw i)
  | .single n => c = 114 ∧ n = stored false raw
  | .double n => c = 113 ∧ n = stored false raw
  | .time n => c = 116 ∧ n = stored false raw
  | _ => False

/-- The name that has a number. -/
def nameOf (es : List (Nat × Node)) (id : Nat) (name : Text) : Prop := ∃ raw, (id, Node.name raw) ∈ es ∧ name = chars raw

/-- What an entry means. Entries in entries are a dictionary: a name and a value with the same number belong together, and nothing else
is in the dictionary. -/
inductive Means : Node → Val → Prop
  | number {c raw v} : NumVal c raw v → Means (.number c raw) v
  | array {c raws vs} : List.Forall₂ (fun raw v => NumVal c raw v) raws vs → Means (.array c raws) (.many vs)
  | text {raw} : Means (.text raw) (.text (chars raw))
  | binary {raw} : Means (.binary raw) (.binary raw)
  | compressed {raw} : Means (.compressed raw) .none
  | nested {es : List (Nat × Node)} {d : Dict} :
      (∀ id name n, nameOf es id name → (id, n) ∈ es → (∀ raw, n ≠ .name raw) → ∃ v, getKw name d = some v) →
      (∀ id name n v, nameOf es id name → (id, n) ∈ es → (∀ raw, n ≠ .name raw) → getKw name d = some v → Means n v) →
      (∀ name v, getKw name d = some v → ∃ id n, nameOf es id name ∧ (id, n) ∈ es ∧ ∀ raw, n ≠ .name raw) →
      Means (.nested es) (.nested d)

/-- Is it a name? -/
def Node.isName : Node → Bool
  | .name _ => true
  | _ => false

/-- The name of an entry. -/
def Node.chars : Node → Text
  | .name raw => Renishaw.chars raw
  | _ => []

mutual
/-- Entries that can be written. -/
def Node.Ok : Node → Prop
  | .number c raw => wide c ≠ 0 ∧ raw.length = wide c
  | .array c raws => wide c ≠ 0 ∧ raws.length ≠ 1 ∧ raws.length < 2 ^ 32 ∧ ∀ raw ∈ raws, raw.length = wide c
  | .text raw => raw.length < 2 ^ 32 ∧ ∀ c ∈ raw, c.toNat < 128
  | .binary raw => raw.length < 2 ^ 32
  | .compressed raw => raw.length < 2 ^ 32
  | .name raw => raw.length < 2 ^ 32 ∧ ∀ c ∈ raw, c.toNat < 128
  | .nested es => (setBytes es).length < 2 ^ 32 ∧ ((es.filter fun e => e.2.isName).map Prod.fst).Nodup ∧
      ((es.filter fun e => !e.2.isName).map Prod.fst).Nodup ∧ ((es.filter fun e => e.2.isName).map fun e => e.2.chars).Nodup ∧
      EntriesOk es

/-- All entries can be written. -/
def EntriesOk : List (Nat × Node) → Prop
  | [] => True
  | (id, n) :: es => id < 2 ^ 16 ∧ n.Ok ∧ EntriesOk es
end

/-- A block of metadata: the word "PSET", the length of the entries, the entries. More may follow. -/
def pset (es : List (Nat × Node)) (extra : Bytes) : Bytes := [80, 83, 69, 84] ++ leBytes 4 (setBytes es).length ++ setBytes es ++ extra

/-! Axes and data. -/

/-- The header: points of a spectrum, planned and stored numbers of spectra, type of the measurement. -/
structure Head (b : Bytes) (P cap N type : Nat) : Prop where
  len : 144 ≤ b.length
  points : num b 44 4 = P
  xlst : num b 72 4 = P
  capacity : num b 48 8 = cap
  spectra : num b 56 8 = N
  kind : num b 116 4 = type

/-- A file with a header, a signal axis of at least two points, and `N` spectra. -/
structure Scan (bs : List Block) (hdr xlst data : Bytes) (P cap N type : Nat) : Prop where
  header : Has bs "WDF1" 1 hdr
  head : Head hdr P cap N type
  signal : Has bs "XLST" 0 xlst
  signalLen : 8 + 4 * P ≤ xlst.length
  two : 2 ≤ P
  stored : Has bs "DATA" 0 data
  dataLen : 4 * (P * N) ≤ data.length

/-- The number of a point in the file for point `k` of the signal axis: axes that are stored from large to small are turned round. -/
def source (xlst : Bytes) (points k : Nat) : Nat :=
  if f32Dec (num xlst 12 4) < f32Dec (num xlst 8 4) then points - 1 - k else k

/-- The signal axis holds the stored values in the order of `source`. -/
def SignalAxis (xlst : Bytes) (points : Nat) (a : Axis) : Prop :=
  ∃ vs : List Nat, a.cal = .points vs ∧ a.size = points ∧ a.navigate = false ∧ vs.length = points ∧
    ∀ k < points, vs[k]? = some (num xlst (8 + 4 * source xlst points k) 4)

/-- Point `k` of spectrum `n` is the stored number. -/
def IsSpectrum (data xlst : Bytes) (points : Nat) (cells : List Cell) (place n : Nat) : Prop :=
  ∀ k < points, cells[place * points + k]? = some (.raw (num data (4 * (n * points + source xlst points k)) 4))

/-- An entry of `ORGN`. -/
structure Entry where
  type : Nat
  unit : Nat
  note : Bytes
  values : List Nat
  deriving DecidableEq

/-- The block `ORGN` has these entries, of which each has a value for each spectrum. -/
def Orgn (b : Bytes) (spectra : Nat) (es : List Entry) : Prop :=
  num b 0 4 = es.length ∧ 4 + es.length * (24 + 8 * spectra) ≤ b.length ∧
  ∀ i, (h : i < es.length) → es[i].values.length = spectra ∧
    num b (4 + i * (24 + 8 * spectra)) 4 % 2 ^ 31 = es[i].type ∧
    num b (4 + i * (24 + 8 * spectra) + 4) 4 = es[i].unit ∧
    (b.drop (4 + i * (24 + 8 * spectra) + 8)).take 16 = es[i].note ∧
    ∀ k < spectra, es[i].values[k]? = some (num b (4 + i * (24 + 8 * spectra) + 24 + 8 * k) 8)

/-- The entry of `ORGN` along which the spectra of a series were measured: the only one besides checksums (16), flags (17) and the time
(11), or the time if there is no other. -/
def Along (es : List Entry) (e : Entry) : Prop :=
  (es.filter fun x => x.type ≠ 16 ∧ x.type ≠ 17) = [e] ∨
  ∃ t, t.type = 11 ∧ e.type ≠ 11 ∧ ((es.filter fun x => x.type ≠ 16 ∧ x.type ≠ 17) = [e, t] ∨
    (es.filter fun x => x.type ≠ 16 ∧ x.type ≠ 17) = [t, e])

/-- The values of an entry: numbers, or ticks since the first spectrum. -/
def Entry.value (e : Entry) (k : Nat) : Rat :=
  if e.type = 11 then (e.values.getD k 0 : Rat) - (e.values.getD 0 0 : Rat) else f64Dec (e.values.getD k 0)

/-- The block `WMAP`: flags, first position, step and number of points for x and y. -/
structure Map (b : Bytes) (flags X Y : Nat) (ox oy sx sy : Rat) : Prop where
  len : 48 ≤ b.length
  flags : num b 0 4 = flags
  ox : f32Dec (num b 8 4) = ox
  oy : f32Dec (num b 12 4) = oy
  sx : f32Dec (num b 20 4) = sx
  sy : f32Dec (num b 24 4) = sy
  X : num b 32 4 = X
  Y : num b 36 4 = Y

/-- Other blocks do not keep a file from being read: blocks of metadata are well formed, and there are no blocks `WXDM`, `MAP`, `YLST`. -/
def Plain (bs : List Block) : Prop :=
  ∀ b ∈ bs,
    (b.label ∈ ["WXIS".toList, "WXCS".toList, "WXDA".toList, "ZLDC".toList, "WARP".toList] →
      ∃ es extra, b.body = pset es extra ∧ es ≠ [] ∧ (Node.nested es).Ok) ∧
    b.label ≠ "WXDM".toList ∧ b.label ≠ "MAP".toList ∧ b.label ≠ "YLST".toList

/-- Position of point `k` on an axis. -/
def At (c : Cal) (k : Nat) (v : Rat) : Prop :=
  match c with
  | .uniform o s => v = o + s * (k : Rat)
  | _ => False

/-- Units. -/
def unitName : Nat → String
  | 1 => "1/cm"
  | 2 | 3 => "nm"
  | 4 => "eV"
  | 5 => "µm"
  | 6 => "counts"
  | 7 => "electrons"
  | 8 => "mm"
  | 9 => "m"
  | 10 => "K"
  | 11 => "Pa"
  | 12 => "s"
  | 13 => "ms"
  | 14 => "h"
  | 15 => "d"
  | 16 => "px"
  | 19 => "°"
  | 20 => "rad"
  | 21 => "°C"
  | 22 => "°F"
  | 23 => "K/min"
  | 24 => "ns"
  | 25 => "µs"
  | _ => ""

/-- Quantities that are changed in a series. -/
def quantity : Nat → String
  | 3 => "X"
  | 4 => "Y"
  | 5 => "Z"
  | 6 => "Spatial_R"
  | 7 => "Spatial_Theta"
  | 8 => "Spatial_Phi"
  | 9 => "Temperature"
  | 10 => "Pressure"
  | 11 => "Time"
  | 12 => "Derivative"
  | 13 => "Polarization"
  | 14 => "FocusTrack_Z"
  | 15 => "TempRampRate"
  | 18 => "ElapsedTimeIntervals"
  | 19 => "Frequency"
  | 22 => "Mp_Well_Spatial_X"
  | 23 => "Mp_Well_Spatial_Y"
  | 24 => "Mp_LocationIndex"
  | 25 => "Mp_WellReference"
  | 26 => "EndMarker"
  | 27 => "ExposureTime"
  | _ => ""

end Verif.Spec.Renishaw
