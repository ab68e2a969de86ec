import Verif.Model.Npy
/-! Property C15: the data offset of a `.npy` member. -/
namespace Verif.Props.Npy
open Verif Verif.Npy

/-- The `.npy` format: magic string, version, header length (2 bytes in version 1, 4 bytes in
versions 2 and 3), header text. -/
def npyHead (magic : List UInt8) (major minor : UInt8) (header : List UInt8) : List UInt8 :=
  magic ++ [major, minor] ++ leBytes (if major = 1 then 2 else 4) header.length ++ header

/-- C15. For every well-formed header of version 1, 2 or 3 the offset is the number of bytes in
front of the data, the header text is decoded with the encoding of that version and the file is
left at the start of the data. -/
theorem C15_npy_offset {β : Type} (parse : Enc → List UInt8 → Py β)
    (magic header data : List UInt8) (major minor : UInt8) (hmagic : magic.length = 6)
    (hver : major = 1 ∨ major = 2 ∨ major = 3)
    (hlen : header.length < 256 ^ (if major = 1 then 2 else 4)) (b : β)
    (hparse : parse (if major = 3 then .utf8 else .latin1) header = .ok b) :
    inspectNpy parse (npyHead magic major minor header ++ data) =
      .ok ((npyHead magic major minor header).length, b, data) := by
  have hr : readBytes (header ++ data) header.length = (header, data) := readBytes_append rfl
  unfold inspectNpy npyHead
  simp only [List.append_assoc]
  rw [readBytes_append hmagic]
  simp only
  rw [readBytes_append (n := 2) (a := [major, minor]) rfl]
  rcases hver with h | h | h <;> subst h <;>
    simp only [if_true, reduceIte, show ¬ ((2 : UInt8) = 1) by decide,
      show ¬ ((2 : UInt8) = 3) by decide, show ¬ ((3 : UInt8) = 1) by decide,
      show ¬ ((3 : UInt8) = 2) by decide, show ¬ ((1 : UInt8) = 3) by decide] at hlen hparse ⊢ <;>
    rw [readBytes_append (leBytes_length _ _)] <;>
    simp [unpackLe, leVal_leBytes hlen, hr, hparse, hmagic] <;> omega

/-- C15. Every other version number is rejected with `ValueError`. -/
theorem C15_other_versions {β : Type} (parse : Enc → List UInt8 → Py β)
    (magic rest : List UInt8) (major minor : UInt8) (hmagic : magic.length = 6)
    (h1 : major ≠ 1) (h2 : major ≠ 2) (h3 : major ≠ 3) :
    inspectNpy parse (magic ++ [major, minor] ++ rest) = .error .valueError := by
  unfold inspectNpy
  simp only [List.append_assoc]
  rw [readBytes_append hmagic]
  simp only
  rw [readBytes_append (n := 2) (a := [major, minor]) rfl]
  simp [h1, h2, h3]

/-- A file that ends inside the version or the header length is rejected (`struct.error`). -/
theorem C15_short_file {β : Type} (parse : Enc → List UInt8 → Py β) (magic : List UInt8)
    (major minor : UInt8) (cut : List UInt8) (hmagic : magic.length = 6)
    (hver : major = 1 ∨ major = 2 ∨ major = 3) (hcut : cut.length < if major = 1 then 2 else 4) :
    inspectNpy parse (magic ++ [major, minor] ++ cut) = .error .structError := by
  unfold inspectNpy
  simp only [List.append_assoc]
  rw [readBytes_append hmagic]
  simp only
  rw [readBytes_append (n := 2) (a := [major, minor]) rfl]
  rcases hver with h | h | h <;> subst h <;>
    simp only [if_true, reduceIte, show ¬ ((2 : UInt8) = 1) by decide,
      show ¬ ((3 : UInt8) = 1) by decide, show ¬ ((3 : UInt8) = 2) by decide] at hcut ⊢ <;>
    simp [readBytes, unpackLe, hcut]

example : inspectNpy (fun _ h => .ok h.length)
    (npyHead [0x93, 78, 85, 77, 80, 89] 1 0 [123, 125, 10] ++ [1, 2, 3]) =
    .ok (13, 3, [1, 2, 3]) := by decide

end Verif.Props.Npy
