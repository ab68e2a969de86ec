import Verif.Py.Bytes
/-!
Model of `inspect_npy_bytes`, `rsciio/utils/_tools.py` lines 134-190.
-/
namespace Verif.Npy

/-- Encoding of the header text (lines 166, 175). -/
inductive Enc | latin1 | utf8
  deriving DecidableEq

/-- `struct.unpack("<H"/"<I", data)` for a width of `w` bytes (lines 170, 173). -/
def unpackLe (w : Nat) (data : List UInt8) : Py Nat :=
  if data.length ≠ w then .error .structError else .ok (leVal data)

/-- Lines 163-190. `parse` stands for `.decode(encoding)`, `ast.literal_eval` and the look-up of
`shape` and `descr` (external). Returns offset, parsed header and the rest of the file. -/
def inspectNpy {β : Type} (parse : Enc → List UInt8 → Py β) (file : List UInt8) :
    Py (Nat × β × List UInt8) :=
  let (_, f1) := readBytes file 6                               -- line 163
  let (ver, f2) := readBytes f1 2                               -- line 164
  match ver with
  | [major, _] =>
    let sizeEnc : Py (Nat × Enc) :=
      if major = 1 then .ok (2, .latin1)                        -- lines 168-170
      else if major = 2 then .ok (4, .latin1)                   -- lines 171-173
      else if major = 3 then .ok (4, .utf8)                     -- lines 174-175
      else .error .valueError                                   -- line 177
    match sizeEnc with
    | .error e => .error e
    | .ok (size, enc) =>
      let (lenBytes, f3) := readBytes f2 size
      match unpackLe size lenBytes with
      | .error e => .error e
      | .ok headerLen =>
        let (header, f4) := readBytes f3 headerLen              -- line 182
        match parse enc header with
        | .error e => .error e
        | .ok h => .ok (6 + 2 + size + headerLen, h, f4)        -- lines 179, 188
  | _ => .error .structError

end Verif.Npy
