import Verif.Model.Quadstar
import Verif.Spec.Bytes
/-! Specification of C73-C76: `.sac` and `.sbc` files. Of the model only types are used. -/
namespace Verif.Spec.Quadstar
open Verif.Quadstar Verif.BytesSpec

/-- The bytes `o` to `o + w`. -/
def bytes (f : Bytes) (o w : Nat) : Bytes := (f.drop o).take w

/-- The unsigned little-endian integer of `w` bytes at `o`. -/
def num (f : Bytes) (o w : Nat) : Nat := stored false (bytes f o w)

/-- The signed little-endian integer of `w` bytes at `o` is `v`. -/
def IsInt (f : Bytes) (o w : Nat) (v : Int) : Prop := Encodes false true (bytes f o w) v

/-- A trace in the table of traces: its type, and the positions of its description and of its data in the first cycle. -/
structure Chan where
  type : Nat
  info : Nat
  data : Nat
  deriving DecidableEq

/-- Traces of analog scans. -/
def Chan.analog (c : Chan) : Prop := c.type = 0x11

instance (c : Chan) : Decidable c.analog := by unfold Chan.analog; infer_instance

/-- Masses that are scanned. -/
def width (f : Bytes) (c : Chan) : Nat := num f (c.info + 126) 2
/-- Values for each mass. -/
def perMass (f : Bytes) (c : Chan) : Nat := num f (c.info + 128) 1
/-- Values of a scan. -/
def points (f : Bytes) (c : Chan) : Nat := width f c * perMass f c

/-- A `.sac` file with `n` cycles, `L` bytes from one cycle to the next, and a table of traces. -/
structure SacFile (f : Bytes) (n L : Nat) (chs : List Chan) : Prop where
  len : 200 + 9 * chs.length ≤ f.length
  steps : num f 0x64 4 = n
  stepsLt : n < 2 ^ 31
  count : num f 0x68 2 = chs.length
  countLt : chs.length < 2 ^ 15
  stride : num f 0x6A 4 = L
  strideLt : L < 2 ^ 31
  table : ∀ k (h : k < chs.length), num f (200 + 9 * k) 1 = chs[k].type ∧ num f (201 + 9 * k) 4 = chs[k].info ∧
    num f (205 + 9 * k) 4 = chs[k].data ∧ chs[k].info < 2 ^ 31 ∧ chs[k].data < 2 ^ 31
  infos : ∀ c ∈ chs, c.analog → c.info + 137 ≤ f.length
  rows : ∀ c ∈ chs, c.analog → 6 ≤ c.data ∧ ∀ i < n, c.data + i * L + 6 + 4 * points f c ≤ f.length
  ranges : ∀ c ∈ chs, c.analog → ∀ i < n, ∀ e, IsInt f (c.data + i * L + 4) 2 e → e ≤ 308

/-- What becomes of a value (a bit pattern of single precision) when the full scale is `10^e`: it is kept, or replaced by NaN
(`none`). Values above the full scale are replaced; the single-precision number next to the full scale counts as the
full scale. -/
def Sample (bits : Nat) (e : Int) (out : Option Nat) : Prop :=
  (out = some bits ∨ out = none) ∧
  -- numbers
  (bits % 2 ^ 31 < 0x7F800000 →
    (f32Dec bits ≤ (10 : Rat) ^ e → out = some bits) ∧
    (f32Dec bits = round32 ((10 : Rat) ^ e) → out = some bits) ∧
    ((10 : Rat) ^ e < f32Dec bits → f32Dec bits ≠ round32 ((10 : Rat) ^ e) → out = none)) ∧
  -- NaN and negative infinity
  ((0x7F800000 < bits % 2 ^ 31 ∨ bits = 0xFF800000) → out = some bits) ∧
  -- infinity, for a full scale that is a single-precision number
  (bits = 0x7F800000 → e ≤ 38 → out = none)

/-- The signal holds the values of the trace `c`, cycle by cycle. -/
def Measured (f : Bytes) (n L : Nat) (c : Chan) (s : Signal) : Prop :=
  s.shape = (if 1 < n then [n, points f c] else [points f c]) ∧ s.data.length = n * points f c ∧
  ∀ i < n, ∀ k < points f c, ∀ e, IsInt f (c.data + i * L + 4) 2 e →
    ∃ out, s.data[i * points f c + k]? = some out ∧ Sample (num f (c.data + i * L + 6 + 4 * k) 4) e out

/-- The time of cycle `i` in seconds, `p` being the position of the data of the first analog trace. -/
def time (f : Bytes) (L p i : Nat) : Rat :=
  (num f 0xC2 4 : Rat) + num f (p + i * L - 6) 4 + ((num f 0xC6 2 : Rat) + num f (p + i * L - 2) 2) / 10000

/-- The value of an axis at index `i`. -/
def at? : Cal → Nat → Option Rat
  | .uniform o s, i => some (o + s * i)
  | .points l, i => l[i]?

/-- An axis of times `t 0, …, t (n-1)`, counted from the first one. Uniform axes end at the last time, when it is later than
the first one, and otherwise count cycles. -/
def TimeAxis (uniform : Bool) (n : Nat) (t : Nat → Rat) (a : Axis) : Prop :=
  a.name = "Time".toList ∧ a.units = "s".toList ∧ a.size = n ∧ a.navigate = true ∧ a.index = 0 ∧ at? a.cal 0 = some 0 ∧
  if uniform then (∃ s, a.cal = .uniform 0 s) ∧ (t 0 < t (n - 1) → at? a.cal (n - 1) = some (t (n - 1) - t 0)) ∧
    (t (n - 1) ≤ t 0 → a.cal = .uniform 0 1)
  else ∃ l, a.cal = .points l ∧ l.length = n ∧ ∀ i < n, at? a.cal i = some (t i - t 0)

/-- The axes of a signal: time when there are several cycles, and `mass`. -/
def Axes (uniform : Bool) (n : Nat) (t : Nat → Rat) (mass : Axis → Prop) (l : List Axis) : Prop :=
  if 1 < n then ∃ a m, l = [a, m] ∧ TimeAxis uniform n t a ∧ mass m ∧ m.index = 1
  else ∃ m, l = [m] ∧ mass m ∧ m.index = 0

/-- The mass axis of a trace: `perMass` values for each mass, from the first mass on. -/
def MassAxis (f : Bytes) (c : Chan) (a : Axis) : Prop :=
  a.navigate = false ∧ a.size = points f c ∧
  (0 < points f c → ∀ k : Nat, at? a.cal k = some (f32Dec (num f (c.info + 122) 4) + (k : Rat) / (perMass f c : Nat)))

/-- A text of a field of `w` bytes: null bytes follow it. -/
def Field (f : Bytes) (o w : Nat) (t : Bytes) : Prop :=
  ∃ n, bytes f o w = t ++ List.replicate n 0 ∧ (0 : UInt8) ∉ t

/-- A text as characters (Latin-1). -/
def chars (t : Bytes) : Text := t.map fun b => Char.ofNat b.toNat

/-- The text does not begin or end with white space. -/
def Tight (t : Text) : Prop := (∀ c, t.head? = some c → isSpace c = false) ∧ ∀ c, t.getLast? = some c → isSpace c = false

/-- An `.sbc` file: `n` cycles of `w + 1` masses; the cycles are the end of the file and begin at `start`. -/
structure SbcFile (f : Bytes) (n w start : Nat) : Prop where
  steps : num f 0x64 4 = n
  pos : 0 < n
  stepsLt : n < 2 ^ 31
  wide : num f 0xCB 2 = w
  len : f.length = start + n * (8 * (w + 1) + 13)
  from256 : 256 ≤ start

/-- Position of cycle `i`. -/
def cycle (w start i : Nat) : Nat := start + i * (8 * (w + 1) + 13)

/-- The label (mass) of value `k` of cycle `i`. -/
def label (f : Bytes) (w start i k : Nat) : Rat := f32Dec (num f (cycle w start i + 13 + 8 * k) 4)

/-- Time of a cycle of an `.sbc` file. -/
def seconds (f : Bytes) (w start i : Nat) : Rat := (num f (cycle w start i) 4 : Nat)

/-- Lengths of the months of a year. -/
def monthLengths (year : Nat) : List Nat :=
  [31, if (4 ∣ year ∧ ¬ 100 ∣ year) ∨ 400 ∣ year then 29 else 28, 31, 30, 31, 30, 31, 31, 30, 31, 30, 31]

/-- Day `d` of month `m` of a year exists, and `h:mi:s` is a time of a day. -/
def Valid (y m d h mi s : Nat) : Prop :=
  (∃ n, 0 < m ∧ (monthLengths y)[m - 1]? = some n ∧ 0 < d ∧ d ≤ n) ∧ h < 24 ∧ mi < 60 ∧ s < 60

end Verif.Spec.Quadstar
