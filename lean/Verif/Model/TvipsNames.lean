import Verif.Model.Tvips
import Verif.Model.Edax
import Verif.Py.Dec
import Verif.Py.Assoc
/-!
Model of the names of the files of a recording in `rsciio/tvips/_api.py`: which files `file_writer` writes, which names `file_reader` accepts, and which files it reads. What is in the
files is in `Model/Tvips`.

A folder is a list of names (texts) with contents. The regular expression is a search for the last place where it matches, as its first part is greedy; of the digits only those of ASCII
match `[0-9]`, and `.` matches everything but the end of a line. `str.lower` is that of ASCII.
-/
namespace Verif.TvipsNames
open Verif Verif.Tvips

/-- Files and what is in them. -/
abbrev Files := List (Text × List UInt8)

/-- `f"{n}".zfill(3)`, line 605, and `"{:03d}".format(n)`, line 282. -/
def pad3 (n : Nat) : Text := List.replicate (3 - (decChars n).length) '0' ++ decChars n

/-! ### Writing -/

/-- Is this the end of a text? -/
def endsWith (s t : Text) : Bool := decide (t.drop (t.length - s.length) = s)

/-- Lines 543-545: the name without number, and the extension. -/
def writeBase (filename : Text) : Text × Text :=
  let r := Edax.splitExt filename
  if endsWith "_000".toList r.1 then (r.1.take (r.1.length - 4), r.2) else r

/-- The name of a file, lines 605-606. -/
def partName (base ext : Text) (i : Nat) : Text := base ++ '_' :: pad3 i ++ ext

/-- The loop over the files, lines 604-649: existing files are replaced. -/
def saveParts (base ext : Text) : Nat → List (List UInt8) → Files → Files
  | _, [], fs => fs
  | i, f :: rest, fs => saveParts base ext (i + 1) rest (setKw (partName base ext i) f fs)

/-- `file_writer`: the folder after writing. -/
def save (filename : Text) (files : List (List UInt8)) (fs : Files) : Files :=
  saveParts (writeBase filename).1 (writeBase filename).2 0 files fs

/-! ### Reading -/

/-- `\_([0-9]{3})\.(.*)` at a place, line 176: the number and the extension. -/
def partAt : Text → Option (Text × Text)
  | '_' :: a :: b :: c :: '.' :: rest =>
    if isDigit a && isDigit b && isDigit c then some ([a, b, c], rest.takeWhile (· ≠ '\n')) else none
  | _ => none

/-- `.+` before it, line 176: the last place, not the first one, and no end of a line before it. -/
def findPart : Bool → Text → Option (Text × Text)
  | _, [] => none
  | seen, c :: t =>
    match (if c = '\n' then none else findPart true t) with
    | some r => some r
    | none => if seen then partAt (c :: t) else none

/-- `_is_valid_first_tvips_file`, lines 174-186. -/
def checkName (filename : Text) : Py Unit :=
  match findPart false filename with
  | none => .error .valueError
  | some (num, ext) =>
    if ext.map Char.toLower ≠ "tvips".toList then .error .valueError
    else if decVal num ≠ 0 then .error .valueError
    else .ok ()

/-- The loop of lines 281-286, with a limit of rounds. -/
def otherParts (fs : Files) (base ext : Text) : Nat → Nat → List (List UInt8)
  | 0, _ => []
  | fuel + 1, i => match getKw (base ++ pad3 i ++ ext) fs with
    | none => []
    | some f => f :: otherParts fs base ext fuel (i + 1)

/-- Lines 274-286: the contents of the files that are read. -/
def parts (fs : Files) (filename : Text) : Py (List (List UInt8)) := do
  checkName filename
  match getKw filename fs with
  | none => .error .ioError
  | some f => .ok (f :: otherParts fs (filename.take (filename.length - 9)) (Edax.splitExt filename).2 fs.length 1)

/-- All frames of a recording. -/
def readNamed (fs : Files) (filename : Text) : Py (List (List UInt8)) := do
  readFrames ((← parts fs filename).map some)

end Verif.TvipsNames
