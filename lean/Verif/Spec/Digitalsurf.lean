import Verif.Model.Digitalsurf
import Verif.Spec.Bytes
/-!
Specification of Digital Surf files, independent of the code (only the types of values, signals and results are shared).
-/
namespace Verif.Spec.Digitalsurf
open Verif.Digitalsurf Verif.BytesSpec

inductive Field
  | text (n : Nat)
  | int (w : Nat) (signed : Bool)
  | single
  | bytes (n : Nat)
  deriving DecidableEq

def Field.width : Field → Nat
  | .text n => n
  | .int w _ => w
  | .single => 4
  | .bytes n => n

/-- The fields of the header of 512 bytes: number, position, and how the value is stored. -/
def fields : List (Nat × Nat × Field) := [
  (1, 0, .text 12), (2, 12, .int 2 true), (3, 14, .int 2 false), (4, 16, .int 2 true), (5, 18, .int 2 true),
  (6, 20, .text 30), (7, 50, .text 30), (8, 80, .int 2 true), (9, 82, .int 2 true), (10, 84, .int 2 true),
  (11, 86, .int 2 true), (12, 88, .int 2 true), (13, 90, .single), (14, 94, .int 4 false), (15, 98, .int 2 true),
  (16, 100, .int 4 true), (17, 104, .int 4 true), (18, 108, .int 4 true), (19, 112, .int 4 true), (20, 116, .int 4 true),
  (21, 120, .single), (22, 124, .single), (23, 128, .single), (24, 132, .text 16), (25, 148, .text 16),
  (26, 164, .text 16), (27, 180, .text 16), (28, 196, .text 16), (29, 212, .text 16), (30, 228, .text 16),
  (31, 244, .text 16), (32, 260, .text 16), (33, 276, .single), (34, 280, .single), (35, 284, .single),
  (36, 288, .int 2 true), (37, 290, .int 2 true), (38, 292, .int 2 true), (39, 294, .bytes 12), (40, 306, .int 2 true),
  (41, 308, .int 2 true), (42, 310, .int 2 true), (43, 312, .int 2 true), (44, 314, .int 2 true), (45, 316, .int 2 true),
  (46, 318, .int 2 true), (47, 320, .single), (48, 324, .int 4 false), (49, 328, .bytes 6), (50, 334, .int 2 true),
  (51, 336, .int 2 true), (52, 338, .bytes 128), (53, 466, .single), (54, 470, .single), (55, 474, .single),
  (56, 478, .single), (57, 482, .single), (58, 486, .text 13), (59, 499, .text 13)]

def blank (c : Char) : Prop := c = ' ' ∨ c = '\t' ∨ c = '\n'

/-- `t` is `s` without the blanks at its ends. -/
def Trim (s t : Text) : Prop :=
  ∃ a z : Text, s = a ++ t ++ z ∧ (∀ c ∈ a, blank c) ∧ (∀ c ∈ z, blank c) ∧
    (∀ c ∈ t.head?, ¬ blank c) ∧ (∀ c ∈ t.getLast?, ¬ blank c)

/-- The first `n` characters, filled up with spaces; one byte for a character. -/
def TextBytes (n : Nat) (t : Text) (b : List UInt8) : Prop :=
  b.map UInt8.toNat = ((t ++ List.replicate n ' ').take n).map Char.toNat

/-- The bytes store the value. -/
def Stored : Field → Val → List UInt8 → Prop
  | .text n, .text t, b => TextBytes n t b
  | .int w s, .int i, b => b.length = w ∧ Encodes false s b i
  | .single, .float r, b => b.length = 4 ∧ f32Enc r = some (stored false b)
  | .bytes n, .raw x, b => b = (x ++ List.replicate n 0).take n
  | _, _, _ => False

/-- The value is what the bytes say. -/
def Shows : Field → List UInt8 → Val → Prop
  | .text _, b, .text t => Trim (b.map fun x => Char.ofNat x.toNat) t
  | .int w s, b, .int i => b.length = w ∧ Encodes false s b i
  | .single, b, .float r => b.length = 4 ∧ r = f32Dec (stored false b)
  | .bytes _, b, .raw x => x = b
  | _, _, _ => False

/-- The value `v` comes back as `u`. -/
def Back : Field → Val → Val → Prop
  | .text n, .text t, .text u => Trim (t.take n) u
  | .int _ _, .int i, .int j => j = i
  | .single, .float r, .float q => ∃ n, f32Enc r = some n ∧ q = f32Dec n
  | .bytes n, .raw x, .raw y => y = (x ++ List.replicate n 0).take n
  | _, _, _ => False

/-- What the number `x` in the file means: type of object, special points, Zmin, scale, offset. -/
inductive Means (type : Int) (special : Bool) (zmin : Int) (scale offset : Rat) (x : Int) : Option Rat → Prop
  | bit : type = 3 → Means type special zmin scale offset x (some x)
  | plain : type = 2 ∨ type = 5 → scale.isInt → offset.isInt → Means type special zmin scale offset x (some x)
  | image (i : Int) : type = 10 ∨ type = 12 ∨ type = 18 → |(i : Rat) - ((x - zmin) * scale + offset)| ≤ 1 / 2 →
      Means type special zmin scale offset x (some i)
  | scaled : type ∉ [3, 10, 12, 18] → (type ∈ [2, 5] → ¬ (scale.isInt ∧ offset.isInt)) →
      (special = true → x ≠ zmin - 2) → Means type special zmin scale offset x (some ((x - zmin) * scale + offset))
  | missing : type ∉ [3, 10, 12, 18] → (type ∈ [2, 5] → ¬ (scale.isInt ∧ offset.isInt)) → special = true →
      x = zmin - 2 → Means type special zmin scale offset x none

/-- A value of the type. -/
def Typed : DType → Option Rat → Prop
  | .bool, d => d = some 0 ∨ d = some 1
  | .u8, d => ∃ i : Int, d = some (i : Rat) ∧ 0 ≤ i ∧ i ≤ 255
  | .u16, d => ∃ i : Int, d = some (i : Rat) ∧ 0 ≤ i ∧ i ≤ 65535
  | .i8, d => ∃ i : Int, d = some (i : Rat) ∧ -128 ≤ i ∧ i ≤ 127
  | .i16, d => ∃ i : Int, d = some (i : Rat) ∧ -32768 ≤ i ∧ i ≤ 32767
  | .i32, d => ∃ i : Int, d = some (i : Rat) ∧ -2147483648 ≤ i ∧ i ≤ 2147483647
  | .float, _ => True
  | _, _ => False

/-- The values `V` of an object of this type can be kept: integers are kept exactly by surfaces, elsewhere up to `2 ^ 24`;
floating-point numbers must not be constant, must not be subnormal in single precision, must not have
missing values unless these are asked for, and for surfaces must span at most `2 ^ 31`. -/
def Keeps (ty : DType) (type : Int) (special : Bool) (V : Option Rat → Prop) : Prop :=
  (∀ d, V d → Typed ty d) ∧ (∃ d, V d) ∧
  match ty with
  | .bool => True
  | .float => type ∉ [3, 10, 12, 18] ∧ (special = true ∨ ¬ V none) ∧
      (∀ a, V (some a) → a = 0 ∨ (2 : Rat) ^ (-126 : Int) ≤ |a|) ∧
      (∃ a b, V (some a) ∧ V (some b) ∧ (2 : Rat) ^ (-94 : Int) ≤ b - a) ∧
      (type ∈ [2, 5] → ∀ a b, V (some a) → V (some b) → b - a ≤ 2 ^ 31)
  | _ => type ∈ [2, 5] ∨ ∀ a, V (some a) → |a| ≤ 2 ^ 24

/-- Close values; missing values only for missing values. -/
def Close (e : Rat) : Option Rat → Option Rat → Prop
  | none, none => True
  | some d, some y => |y - d| ≤ e
  | _, _ => False

/-- The error of values that differ by at most `R` and are at most `M` in size. -/
def bound (ty : DType) (R M : Rat) : Rat := if ty = .float then R / 4294967293 + R / 2 ^ 24 + M / 2 ^ 24 else 0

/-- A text that fits into a field of `n` bytes. -/
def Plain (n : Nat) (t : Text) : Prop := t.length ≤ n ∧ (∀ c ∈ t.head?, ¬ blank c) ∧ ∀ c ∈ t.getLast?, ¬ blank c

/-- A number of single precision. -/
def Single (r : Rat) : Prop := ∃ m, f32Enc r = some m ∧ f32Dec m = r

/-- An axis that the format can hold. -/
def AxisFits (n : Nat) (a : Axis) : Prop := Plain n a.name ∧ Plain n a.units ∧ Single a.scale ∧ Single a.offset

/-- A value of the array. -/
def HasVal (shape : List Nat) (data : List Nat → Option Rat) (d : Option Rat) : Prop := ∃ I, InBounds shape I ∧ data I = d

/-- Values differ by at most `R` and are at most `M` in size. -/
def Spread (V : Option Rat → Prop) (R M : Rat) : Prop :=
  (∀ a b, V (some a) → V (some b) → b - a ≤ R) ∧ ∀ a, V (some a) → |a| ≤ M

/-- The flat list holds the array in C order, up to `e`. -/
def Values (e : Rat) (shape : List Nat) (data : List Nat → Option Rat) (flat : List (Option Rat)) : Prop :=
  flat.length = size shape ∧ ∀ I, InBounds shape I → ∃ v, flat[flatIndex shape I]? = some v ∧ Close e (data I) v

/-- Names of spectral axes. -/
def spectralNames : List String := ["Wavelength", "Energy", "Energy Loss", "E"]

end Verif.Spec.Digitalsurf
