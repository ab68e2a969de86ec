import Verif.Model.Readfile
import Verif.Lemmas.Bytes
/-! Property C16: binary integers of a file. -/
namespace Verif.Props.Readfile
open Verif Verif.Readfile Verif.BytesSpec

/-- What C16 asks of a reader of integers of `w` bytes: with a valid byte order and at least `w`
bytes left it returns the value encoded by the next `w` bytes and leaves the file right after
them; with fewer bytes it raises `struct.error`; another byte order raises `ByteOrderError`. -/
def Exact (w : Nat) (signed : Bool) (reader : List UInt8 → String → Py (Int × List UInt8)) : Prop :=
  (∀ (big : Bool) (bs rest : List UInt8), bs.length = w →
    ∃ v, reader (bs ++ rest) (if big then "big" else "little") = .ok (v, rest) ∧
      ∀ v', Encodes big signed bs v' ↔ v' = v) ∧
  (∀ (big : Bool) (f : List UInt8), f.length < w →
    reader f (if big then "big" else "little") = .error .structError) ∧
  (∀ (f : List UInt8) (e : String), e ≠ "big" → e ≠ "little" → reader f e = .error .byteOrderError)

theorem readIntBody_exact (w : Nat) (signed : Bool) : Exact w signed (readIntBody w signed) := by
  refine ⟨?_, ?_, ?_⟩
  · intro big bs rest hlen
    have hend : ¬ ((if big then "big" else "little") ≠ "little" ∧
        (if big then "big" else "little") ≠ "big") := by cases big <;> decide
    have hbig : decide ((if big then "big" else "little") = "big") = big := by cases big <;> decide
    have hst := stored_eq big bs
    refine ⟨if signed then toSigned w (stored big bs) else stored big bs, ?_, ?_⟩
    · unfold readIntBody
      rw [if_neg hend, readBytes_append hlen]
      simp only [unpackInt, hlen, hbig, hst]
      simp
    · intro v'
      subst hlen
      cases signed
      · exact ⟨fun h => encodes_unique h (encodes_unsigned big bs),
          fun h => by rw [h]; exact encodes_unsigned big bs⟩
      · exact ⟨fun h => encodes_unique h (encodes_toSigned big bs),
          fun h => by rw [h]; exact encodes_toSigned big bs⟩
  · intro big f hf
    have hend : ¬ ((if big then "big" else "little") ≠ "little" ∧
        (if big then "big" else "little") ≠ "big") := by cases big <;> decide
    unfold readIntBody
    rw [if_neg hend]
    simp [readBytes, unpackInt, hf]
  · intro f e h1 h2
    unfold readIntBody
    rw [if_pos ⟨h2, h1⟩]

/-- C16. All integer readers are exact, for every file and byte order. -/
theorem C16_integer_readers :
    Exact 2 true readShort ∧ Exact 2 false readUshort ∧ Exact 4 true readLong ∧
    Exact 4 false readUlong ∧ Exact 8 true readLongLong ∧ Exact 8 false readUlongLong ∧
    Exact 1 false readBoolean ∧ Exact 1 true readByte :=
  ⟨readIntBody_exact 2 true, readIntBody_exact 2 false, readIntBody_exact 4 true,
    readIntBody_exact 4 false, readIntBody_exact 8 true, readIntBody_exact 8 false,
    readIntBody_exact 1 false, readIntBody_exact 1 true⟩

/-- C16. `read_char` returns the next byte. -/
theorem C16_read_char (big : Bool) (b : UInt8) (rest : List UInt8) :
    readChar (b :: rest) (if big then "big" else "little") = .ok (b, rest) ∧
    readChar [] (if big then "big" else "little") = .error .structError ∧
    ∀ f e, e ≠ "big" → e ≠ "little" → readChar f e = .error .byteOrderError := by
  refine ⟨?_, ?_, ?_⟩
  · cases big <;> simp [readChar, readBytes]
  · cases big <;> simp [readChar, readBytes]
  · intro f e h1 h2; simp [readChar, h1, h2]

/-- Every value of the range has an encoding, so the statement above says what is read for
every value: e.g. -2 is stored as `FE FF` in a little-endian file. -/
example : Encodes false true [0xFE, 0xFF] (-2) ∧
    readShort [0xFE, 0xFF, 7] "little" = .ok (-2, [7]) ∧ readUshort [0xFE] "big" = .error .structError := by
  refine ⟨⟨⟨-1, by decide⟩, by decide⟩, by decide, by decide⟩

end Verif.Props.Readfile
