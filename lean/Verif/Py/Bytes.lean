import Verif.Py.Basic
import Mathlib.Tactic.Ring
/-!
Bytes and fixed-width integers, as in Python's `struct` module and NumPy dtypes.
A byte is a `UInt8`; a file handle is the list of bytes that have not been read yet.
-/
namespace Verif

/-- Little-endian unsigned value of a byte string (`struct` code `<H`, `<I`, ...). -/
def leVal : List UInt8 → Nat
  | [] => 0
  | b :: bs => b.toNat + 256 * leVal bs

/-- `w` bytes of the little-endian encoding of `n` (modulo `256 ^ w`). -/
def leBytes : Nat → Nat → List UInt8
  | 0, _ => []
  | w + 1, n => UInt8.ofNat n :: leBytes w (n / 256)

/-- Big-endian unsigned value. -/
def beVal (bs : List UInt8) : Nat := leVal bs.reverse

/-- Big-endian encoding. -/
def beBytes (w n : Nat) : List UInt8 := (leBytes w n).reverse

/-- The signed value of an unsigned `w`-byte number (two's complement). -/
def toSigned (w n : Nat) : Int := if 2 * n < 256 ^ w then (n : Int) else (n : Int) - (256 ^ w : Nat)

/-- The unsigned `w`-byte number that represents a signed value. -/
def ofSigned (w : Nat) (i : Int) : Nat := (i % (256 ^ w : Nat)).toNat

/-- `f.read(n)`: the bytes read (fewer at the end of the file) and the rest. -/
def readBytes (f : List UInt8) (n : Nat) : List UInt8 × List UInt8 := (f.take n, f.drop n)

@[simp] theorem leBytes_length (w n : Nat) : (leBytes w n).length = w := by
  induction w generalizing n with
  | zero => rfl
  | succ w ih => simp [leBytes, ih]

@[simp] theorem beBytes_length (w n : Nat) : (beBytes w n).length = w := by simp [beBytes]

theorem leVal_lt (bs : List UInt8) : leVal bs < 256 ^ bs.length := by
  induction bs with
  | nil => simp [leVal]
  | cons b bs ih =>
    simp only [leVal, List.length_cons, Nat.pow_succ]
    have := b.toNat_lt
    omega

theorem beVal_lt (bs : List UInt8) : beVal bs < 256 ^ bs.length := by
  have := leVal_lt bs.reverse
  simpa [beVal] using this

theorem leVal_leBytes_mod (w n : Nat) : leVal (leBytes w n) = n % 256 ^ w := by
  induction w generalizing n with
  | zero => simp [leVal, leBytes, Nat.mod_one]
  | succ w ih =>
    simp only [leVal, leBytes, ih, UInt8.toNat_ofNat']
    have e : 256 ^ (w + 1) = 256 * 256 ^ w := by rw [Nat.pow_succ, Nat.mul_comm]
    rw [e, Nat.mod_mul]

theorem leVal_leBytes {w n : Nat} (h : n < 256 ^ w) : leVal (leBytes w n) = n := by
  rw [leVal_leBytes_mod, Nat.mod_eq_of_lt h]

theorem beVal_beBytes {w n : Nat} (h : n < 256 ^ w) : beVal (beBytes w n) = n := by
  simp [beVal, beBytes, leVal_leBytes h]

theorem leBytes_leVal (bs : List UInt8) : leBytes bs.length (leVal bs) = bs := by
  induction bs with
  | nil => rfl
  | cons b bs ih =>
    have := b.toNat_lt
    simp only [leVal, List.length_cons, leBytes]
    congr 1
    · apply UInt8.toNat_inj.1
      rw [UInt8.toNat_ofNat']
      omega
    · have : (b.toNat + 256 * leVal bs) / 256 = leVal bs := by omega
      rw [this, ih]

theorem leVal_append (a b : List UInt8) : leVal (a ++ b) = leVal a + 256 ^ a.length * leVal b := by
  induction a with
  | nil => simp [leVal]
  | cons x a ih => simp only [List.cons_append, leVal, ih, List.length_cons, Nat.pow_succ]; ring

theorem toSigned_ofSigned {w : Nat} {i : Int} (h1 : -((256 ^ w : Nat) : Int) ≤ 2 * i)
    (h2 : 2 * i < ((256 ^ w : Nat) : Int)) : toSigned w (ofSigned w i) = i := by
  unfold toSigned ofSigned
  generalize hM : (256 ^ w : Nat) = M at *
  by_cases hi : 0 ≤ i
  · have e : i % (M : Int) = i := Int.emod_eq_of_lt hi (by omega)
    rw [e, if_pos (by omega)]; omega
  · have e : i % (M : Int) = i + M := by
      rw [← Int.add_emod_right, Int.emod_eq_of_lt (by omega) (by omega)]
    rw [e, if_neg (by omega)]; omega

theorem ofSigned_lt (w : Nat) (i : Int) : ofSigned w i < 256 ^ w := by
  unfold ofSigned
  have hM : 0 < 256 ^ w := Nat.pow_pos (by omega)
  generalize (256 ^ w : Nat) = M at *
  have := Int.emod_lt_of_pos i (show (0 : Int) < M by omega)
  have := Int.emod_nonneg i (show (M : Int) ≠ 0 by omega)
  omega

theorem readBytes_append {a b : List UInt8} {n : Nat} (h : a.length = n) :
    readBytes (a ++ b) n = (a, b) := by
  subst h; simp [readBytes]

end Verif
