/-!
Specification of fixed-width binary integers, independent of the code.
-/
namespace Verif.BytesSpec

/-- The number written by a byte string read as base-256 digits, most significant first. -/
def digits : List UInt8 → Nat :=
  List.foldl (fun acc b => 256 * acc + b.toNat) 0

/-- The base-256 number stored by `bs` in the given byte order. -/
def stored (big : Bool) (bs : List UInt8) : Nat := if big then digits bs else digits bs.reverse

/-- `bs` is the two's complement (signed) or plain binary (unsigned) encoding of `v` in the
given byte order: the value is in the range of the type, and congruent to the stored number. -/
def Encodes (big signed : Bool) (bs : List UInt8) (v : Int) : Prop :=
  (∃ k : Int, v = stored big bs + k * 2 ^ (8 * bs.length)) ∧
    if signed then -(2 ^ (8 * bs.length) : Int) ≤ 2 * v ∧ 2 * v < 2 ^ (8 * bs.length)
    else 0 ≤ v ∧ v < 2 ^ (8 * bs.length)

end Verif.BytesSpec
