import Verif.Py.Dec
/-!
Model of `rsciio/utils/path.py`.

A path is a directory (kept as it is) and a final component (`name`). The state of the file
system is a predicate on paths.
-/
namespace Verif.Path

/-- `pathlib.Path`: parent directory and final component. -/
structure P where
  parent : List Char
  name : List Char
  deriving DecidableEq

/-- Position of the last `.` in a name (`str.rfind`). -/
def rfindDot (name : List Char) : Option Nat :=
  (List.range name.length).reverse.find? fun i => name[i]? = some '.'

/-- `PurePath.suffix` (pathlib, CPython ≤ 3.13): the part from the last dot, unless the dot is
the first or the last character. -/
def suffix (name : List Char) : List Char :=
  match rfindDot name with
  | some i => if 0 < i ∧ i < name.length - 1 then name.drop i else []
  | none => []

/-- `PurePath.stem`. -/
def stem (name : List Char) : List Char :=
  match rfindDot name with
  | some i => if 0 < i ∧ i < name.length - 1 then name.take i else name
  | none => name

/-- `append2pathname`, lines 39-56. -/
def append2pathname (p : P) (toAppend : List Char) : P :=
  ⟨p.parent, stem p.name ++ toAppend ++ suffix p.name⟩

/-- The name tried with counter `i` (line 82). -/
def numbered (p : P) (i : Nat) : P := append2pathname p ('-' :: decChars i)

/-- `incremental_filename`, lines 59-88. The recursion of line 84 has no structural measure;
`fuel` bounds its depth, and `none` means that it ran out (Python's recursion limit).  -/
def incrementalFilename (isFile : P → Bool) (p : P) (i : Nat) : Nat → Option P
  | 0 => none
  | fuel + 1 =>
    if isFile p then
      if isFile (numbered p i) then incrementalFilename isFile p (i + 1) fuel
      else some (numbered p i)
    else some p

/-- `str.lower` on the characters that matter here (ASCII). -/
def lower (s : List Char) : List Char := s.map Char.toLower

/-- Lines 132-134: `while answer not in (y, n): answer = input(message)`. `answers` are the
replies the user is going to give; when there is none left `input` raises (`none`). -/
def promptLoop (answer : List Char) : List (List Char) → Option (List Char)
  | [] => if answer ≠ ['y'] ∧ answer ≠ ['n'] then none else some answer
  | a :: as => if answer ≠ ['y'] ∧ answer ≠ ['n'] then promptLoop a as else some answer

/-- `overwrite`, lines 110-151. `existing` is the condition of lines 125-127. -/
def overwrite (existing : Bool) (answers : List (List Char)) : Bool :=
  if existing then
    match answers with
    | [] => false                                   -- line 130 raises, line 149
    | a :: as =>
      match promptLoop (lower a) as with            -- lines 131-134
      | none => false                               -- line 149
      | some answer =>
        if lower answer = ['y'] then true           -- lines 135-136
        else if lower answer = ['n'] then false     -- lines 137-138
        else true                                   -- lines 139-140
  else true                                         -- lines 150-151

/-- Lines 125-127: a regular file, or a directory with the extension `.zspy`. -/
def existing (isFile isDir : Bool) (ext : List Char) : Bool :=
  isFile || (isDir && ext = ".zspy".toList)

end Verif.Path
