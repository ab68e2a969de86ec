import Verif.Py.Bytes
/-!
Model of `rsciio/utils/_readfile.py` (integer and character readers; `read_float` and
`read_double`, lines 174-205, only differ in the `struct` code and are not modelled).
A reader returns the value and the file after the read.
-/
namespace Verif.Readfile

/-- `struct.Struct(code).unpack(data)[0]` for an integer code of width `w` (lines 38-66):
`struct.error` unless exactly `w` bytes are given. -/
def unpackInt (w : Nat) (signed big : Bool) (data : List UInt8) : Py Int :=
  if data.length ≠ w then .error .structError
  else
    let n := if big then beVal data else leVal data
    .ok (if signed then toSigned w n else n)

/-- Common body of the readers, e.g. lines 77-86. -/
def readIntBody (w : Nat) (signed : Bool) (f : List UInt8) (endian : String) :
    Py (Int × List UInt8) :=
  if endian ≠ "little" ∧ endian ≠ "big" then .error .byteOrderError
  else
    let (data, rest) := readBytes f w
    match unpackInt w signed (endian = "big") data with
    | .ok v => .ok (v, rest)
    | .error e => .error e

/-- `read_short`, lines 72-86. -/
def readShort (f : List UInt8) (endian : String) := readIntBody 2 true f endian
/-- `read_ushort`, lines 89-103. -/
def readUshort (f : List UInt8) (endian : String) := readIntBody 2 false f endian
/-- `read_long`, lines 106-120. -/
def readLong (f : List UInt8) (endian : String) := readIntBody 4 true f endian
/-- `read_long_long`, lines 123-137. -/
def readLongLong (f : List UInt8) (endian : String) := readIntBody 8 true f endian
/-- `read_ulong`, lines 140-154. -/
def readUlong (f : List UInt8) (endian : String) := readIntBody 4 false f endian
/-- `read_ulong_long`, lines 157-171. -/
def readUlongLong (f : List UInt8) (endian : String) := readIntBody 8 false f endian
/-- `read_boolean`, lines 208-222 (an unsigned char). -/
def readBoolean (f : List UInt8) (endian : String) := readIntBody 1 false f endian
/-- `read_byte`, lines 225-239 (a signed char). -/
def readByte (f : List UInt8) (endian : String) := readIntBody 1 true f endian

/-- `read_char`, lines 242-256: one byte, as a bytes object. -/
def readChar (f : List UInt8) (endian : String) : Py (UInt8 × List UInt8) :=
  if endian ≠ "little" ∧ endian ≠ "big" then .error .byteOrderError
  else
    match readBytes f 1 with
    | ([b], rest) => .ok (b, rest)
    | _ => .error .structError

end Verif.Readfile
