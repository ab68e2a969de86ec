import Verif.Py.Bytes
/-!
Packed records of unsigned integers: NumPy structured dtypes and `struct` formats without padding.
`big` selects the byte order of each field; floats are stored by their bit pattern.
-/
namespace Verif

/-- Bytes of one field. -/
def fieldBytes (big : Bool) (w v : Nat) : List UInt8 := if big then beBytes w v else leBytes w v

/-- Value of one field. -/
def fieldVal (big : Bool) (bs : List UInt8) : Nat := if big then beVal bs else leVal bs

/-- A record: the fields one after the other. -/
def encodeRec (big : Bool) : List Nat → List Nat → List UInt8
  | w :: ws, v :: vs => fieldBytes big w v ++ encodeRec big ws vs
  | _, _ => []

/-- The values of the fields of a record at the beginning of `f`. -/
def decodeRec (big : Bool) : List Nat → List UInt8 → List Nat
  | [], _ => []
  | w :: ws, f => fieldVal big (f.take w) :: decodeRec big ws (f.drop w)

@[simp] theorem fieldBytes_length (big : Bool) (w v : Nat) : (fieldBytes big w v).length = w := by
  cases big <;> simp [fieldBytes]

theorem fieldVal_fieldBytes (big : Bool) (w v : Nat) (h : v < 256 ^ w) :
    fieldVal big (fieldBytes big w v) = v := by
  cases big
  · simpa [fieldVal, fieldBytes] using leVal_leBytes h
  · simpa [fieldVal, fieldBytes] using beVal_beBytes h

theorem encodeRec_length (big : Bool) : ∀ ws vs : List Nat, ws.length = vs.length →
    (encodeRec big ws vs).length = ws.sum
  | [], [], _ => rfl
  | w :: ws, v :: vs, h => by
    simp only [List.length_cons, Nat.add_right_cancel_iff] at h
    simp [encodeRec, encodeRec_length big ws vs h]
  | [], _ :: _, h => by simp at h
  | _ :: _, [], h => by simp at h

/-- Decoding inverts encoding when every value fits its field. -/
theorem decodeRec_encodeRec (big : Bool) : ∀ (ws vs : List Nat) (rest : List UInt8),
    List.Forall₂ (fun w v => v < 256 ^ w) ws vs →
    decodeRec big ws (encodeRec big ws vs ++ rest) = vs
  | _, _, _, .nil => rfl
  | w :: ws, v :: vs, rest, .cons h t => by
    have hl : (fieldBytes big w v).length = w := by simp
    simp only [encodeRec, decodeRec, List.append_assoc]
    rw [List.take_left' hl, List.drop_left' hl, fieldVal_fieldBytes big w v h,
      decodeRec_encodeRec big ws vs rest t]

end Verif
