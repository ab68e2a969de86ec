import Verif.Py.Bytes
/-!
How Bruker maps are stored, and what they mean. Independent of the decoders.
-/
namespace Verif.Hypermap

/-- Bunches of channels of packed spectra: empty channels; values of 4 bits above a number of 8 bits;
values of `k` bytes above a number of `2 k` bytes (`k` is 1, 2 or 4). -/
inductive Bunch
  | zeros (n : Nat)
  | nibbles (gain : Nat) (vs : List Nat)
  | wide (k gain : Nat) (vs : List Nat)

/-- The counts of a bunch. -/
def Bunch.values : Bunch → List Nat
  | zeros n => List.replicate n 0
  | nibbles gain vs => vs.map (· + gain)
  | wide _ gain vs => vs.map (· + gain)

def Bunch.Wf : Bunch → Prop
  | zeros n => n < 256
  | nibbles gain vs => vs.length < 256 ∧ gain < 256 ∧ ∀ v ∈ vs, v < 16
  | wide k gain vs => (k = 1 ∨ k = 2 ∨ k = 4) ∧ vs.length < 256 ∧ gain < 256 ^ (2 * k) ∧ ∀ v ∈ vs, v < 256 ^ k

/-- Two values of 4 bits in a byte, the first in the low bits. -/
def packNibbles : List Nat → List UInt8
  | [] => []
  | [a] => [UInt8.ofNat a]
  | a :: b :: t => UInt8.ofNat (a + 16 * b) :: packNibbles t

def Bunch.bytes : Bunch → List UInt8
  | zeros n => [0, UInt8.ofNat n]
  | nibbles gain vs => 1 :: UInt8.ofNat vs.length :: UInt8.ofNat gain :: packNibbles vs
  | wide k gain vs => UInt8.ofNat (2 * k) :: UInt8.ofNat vs.length :: (leBytes (2 * k) gain ++ vs.flatMap (leBytes k))

/-- Four channels of 12 bits in 6 bytes; missing channels are 0. -/
def pack12 : List Nat → List UInt8
  | [] => []
  | [a] => group a 0 0 0
  | [a, b] => group a b 0 0
  | [a, b, c] => group a b c 0
  | a :: b :: c :: d :: t => group a b c d ++ pack12 t
where
  group (a b c d : Nat) : List UInt8 :=
    [UInt8.ofNat (a % 16 * 16 + b / 256), UInt8.ofNat (a / 16), UInt8.ofNat (c / 16), UInt8.ofNat (b % 256),
      UInt8.ofNat (d % 256), UInt8.ofNat (c % 16 * 16 + d / 256)]

/-- The spectrum of a pixel: the channels of its pulses, or bunches and more pulses. -/
inductive Content
  | pulses16 (ps : List Nat)
  | pulses12 (ps : List Nat)
  | packed (bs : List Bunch) (extra : List Nat)

/-- The counts in a channel. -/
def Content.count : Content → Nat → Nat
  | pulses16 ps, c => ps.count c
  | pulses12 ps, c => ps.count c
  | packed bs extra, c => (bs.flatMap Bunch.values)[c]?.getD 0 + extra.count c

def Content.Wf : Content → Prop
  | pulses16 ps => ps.length < 2 ^ 16 ∧ ∀ p ∈ ps, p < 2 ^ 16
  | pulses12 ps => ps.length < 2 ^ 16 ∧ ∀ p ∈ ps, p < 4096
  | packed bs extra => (∀ b ∈ bs, b.Wf) ∧ (bs.flatMap Bunch.bytes).length < 2 ^ 31 ∧ extra.length < 2 ^ 16 ∧
      ∀ p ∈ extra, p < 2 ^ 16

/-- The data of a pixel without additional pulses. -/
def Content.data : Content → List UInt8
  | pulses16 ps => ps.flatMap (leBytes 2)
  | pulses12 ps => pack12 ps
  | packed bs _ => bs.flatMap Bunch.bytes

/-- The size in the header; for packed spectra it includes the size of the additional pulses. -/
def Content.size : Content → Nat
  | packed bs _ => (bs.flatMap Bunch.bytes).length + 4
  | k => k.data.length

def Content.tail : Content → List UInt8
  | packed _ extra => leBytes 4 (2 * extra.length) ++ extra.flatMap (leBytes 2)
  | _ => []

def Content.flag : Content → Nat → Prop
  | pulses16 _, f => f = 0
  | pulses12 _, f => f = 1
  | packed _ _, f => 1 < f ∧ f < 2 ^ 16

def Content.pulses : Content → Nat
  | pulses16 ps => ps.length
  | pulses12 ps => ps.length
  | packed _ extra => extra.length

/-- A stored pixel. `a`, `b` are not used. -/
structure Px where
  x : Nat
  chan1 : Nat
  chan2 : Nat
  a : List UInt8
  flag : Nat
  b : List UInt8
  content : Content

def Px.Wf (p : Px) : Prop :=
  p.x < 2 ^ 32 ∧ p.chan1 < 2 ^ 16 ∧ p.chan2 < 2 ^ 16 ∧ p.a.length = 4 ∧ p.content.flag p.flag ∧ p.b.length = 2 ∧
    p.content.Wf

def Px.head (p : Px) : List UInt8 :=
  leBytes 4 p.x ++ (leBytes 2 p.chan1 ++ (leBytes 2 p.chan2 ++ (p.a ++ (leBytes 2 p.flag ++ (p.b ++
    (leBytes 2 p.content.pulses ++ leBytes 4 p.content.size))))))

def Px.bytes (p : Px) : List UInt8 := p.head ++ (p.content.data ++ p.content.tail)

def lineBytes (l : List Px) : List UInt8 := leBytes 4 l.length ++ l.flatMap Px.bytes

/-- A map: height and width, a header of 0x1a0 bytes in all, and the lines. -/
def mapBytes (width : Nat) (junk : List UInt8) (lines : List (List Px)) : List UInt8 :=
  leBytes 4 lines.length ++ leBytes 4 width ++ junk ++ lines.flatMap lineBytes

/-- Blocks of `w` bytes; the last may be shorter, but is not empty. -/
def Cut (w : Nat) : List (List UInt8) → Prop
  | [] => True
  | [b] => b ≠ [] ∧ b.length ≤ w
  | b :: bs => b.length = w ∧ Cut w bs

/-- The counts of a line in a channel, of the pixels that fall into column `X` of the result. -/
def lineTotal (ds X c : Nat) : List Px → Nat
  | [] => 0
  | p :: l => (if p.x / ds = X then p.content.count c else 0) + lineTotal ds X c l

/-- The counts in a channel of the pixel in row `Y` and column `X` of the result: the sum of those of the
stored pixels that fall into it. `y` is the number of the first line. -/
def total (ds Y X c : Nat) : Nat → List (List Px) → Nat
  | _, [] => 0
  | y, l :: ls => (if y / ds = Y then lineTotal ds X c l else 0) + total ds Y X c (y + 1) ls

/-- The spectrum image of a map, one list of counts for each pixel, row by row; every `ds * ds` stored pixels
are summed. Numbers are modulo `M`. -/
def image (M cutoff ds width : Nat) (lines : List (List Px)) : List (List Nat) :=
  let H := (lines.length + ds - 1) / ds
  let W := (width + ds - 1) / ds
  (List.range (H * W)).map fun j => (List.range cutoff).map fun c => total ds (j / W) (j % W) c 0 lines % M

/-- The same, with numbers of any size. -/
def exactImage (cutoff ds width : Nat) (lines : List (List Px)) : List (List Nat) :=
  let H := (lines.length + ds - 1) / ds
  let W := (width + ds - 1) / ds
  (List.range (H * W)).map fun j => (List.range cutoff).map fun c => total ds (j / W) (j % W) c 0 lines

/-- The counts of all pixels in a channel. -/
def sumSpectrum (lines : List (List Px)) (c : Nat) : Nat :=
  (lines.map fun l => (l.map fun p => p.content.count c).sum).sum

/-- The data of a pixel, and the additional pulses, are not longer than a block. -/
def Content.Small (w : Nat) (k : Content) : Prop := k.size ≤ w ∧ k.tail.length ≤ w + 4

/-- No values of 4 bytes, and fewer than 65536 bytes of packed data: what the compiled decoder can read. -/
def Content.Compiled : Content → Prop
  | packed bs _ => (∀ b ∈ bs, ∀ g vs, b ≠ .wide 4 g vs) ∧ (bs.flatMap Bunch.bytes).length < 65536
  | _ => True

/-- What the Python decoder can read: no pulses beyond the last channel of the pixel, and, if all channels
are asked for, one in the last channel; the number of channels of packed spectra is right. -/
def Px.Python (cutoff : Nat) (p : Px) : Prop :=
  match p.content with
  | .pulses16 ps => 0 < p.chan1 ∧ (∀ q ∈ ps, q < p.chan1) ∧ (cutoff < p.chan1 ∨ p.chan1 - 1 ∈ ps)
  | .pulses12 ps => 0 < p.chan1 ∧ (∀ q ∈ ps, q < p.chan1) ∧ (cutoff < p.chan1 ∨ p.chan1 - 1 ∈ ps)
  | .packed bs extra => p.chan2 = (bs.flatMap Bunch.values).length ∧ p.chan2 ≤ p.chan1 ∧ ∀ q ∈ extra, q < p.chan1

/-- The counts of packed spectra fit the number type. -/
def Content.Fits (M cutoff : Nat) : Content → Prop
  | packed bs extra => ∀ c, c < cutoff → (packed bs extra).count c < M
  | _ => True

end Verif.Hypermap
