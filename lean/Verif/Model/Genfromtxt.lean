import Verif.Py.Lines
import Verif.Py.Dec
/-!
Model of `np.genfromtxt(..., delimiter=",", dtype=None, names=names, skip_header=n)` as used by the Protochips and Impulse readers (NumPy: `lib/_npyio_impl.py`, `lib/_iotools.py`): which cells end up in
which column, and under which name the column is found. The conversion of cells to numbers is left out: a column is the list of its cells.
-/
namespace Verif.Genfromtxt

/-- `s.split(sep)` for a separator of several characters; `skip` counts the characters of a match still to be dropped. -/
def splitSubAux (sep : Text) : Nat → Text → List Text
  | _, [] => [[]]
  | skip + 1, _ :: t => splitSubAux sep skip t
  | 0, c :: t =>
    if sep.isPrefixOf (c :: t) then [] :: splitSubAux sep (sep.length - 1) t
    else match splitSubAux sep 0 t with
      | [] => [[c]]
      | p :: ps => (c :: p) :: ps

def splitSub (sep s : Text) : List Text := splitSubAux sep 0 s

/-- `pat in s`. -/
def contains (pat : Text) : Text → Bool
  | [] => pat.isEmpty
  | c :: t => pat.isPrefixOf (c :: t) || contains pat t

/-- `NameValidator.defaultdeletechars`, and the quotation mark. -/
def deleteChars : List Char := "~!@#$%^&*()-=+~\\|]}[{';: /?.>,<\"".toList

/-- `NameValidator.defaultexcludelist`. -/
def excluded : List Text := ["return".toList, "file".toList, "print".toList]

/-- The name of a column without special characters; `e` names without any character were found before. -/
def cleanName (names : List Text) (e : Nat) (name : Text) : Text × Nat :=
  let item := ((stripBy isSpace name).map fun c => if c = ' ' then '_' else c).filter (· ∉ deleteChars)
  if item = [] then
    let k := ((List.range (names.length + 1)).find? fun k => ('f' :: decChars (e + k)) ∉ names).getD 0
    ('f' :: decChars (e + k), e + k + 1)
  else if item ∈ excluded then (item ++ ['_'], e)
  else (item, e)

/-- `NameValidator.validate`: `seen` are the names found before. -/
def validate (names : List Text) : Nat → List Text → List Text → List Text
  | _, _, [] => []
  | e, seen, n :: ns =>
    let (item, e) := cleanName names e n
    let cnt := seen.count item
    (if cnt = 0 then item else item ++ '_' :: decChars cnt) :: validate names e (item :: seen) ns

/-- `LineSplitter`: the cells of a line; comments and empty lines have none. -/
def splitRow (line : Text) : List Text :=
  let l := stripBy (fun c => c = ' ' ∨ c = '\r' ∨ c = '\n') (line.takeWhile (· ≠ '#'))
  if l = [] then [] else splitChar ',' l

structure Table where
  names : List Text
  rows : List (List Text)

/-- `np.genfromtxt`: all rows must have as many cells as there are names. -/
def genfromtxt (lines : List Text) (skip : Nat) (names : List Text) : Py Table :=
  let rows := ((lines.drop skip).map splitRow).filter (· ≠ [])
  if rows = [] then .error .valueError
  else if rows.all (·.length = names.length) then .ok ⟨validate names 0 [] names, rows⟩
  else .error .valueError

/-- `data[name]`. -/
def column (t : Table) (name : Text) : Py (List Text) := match t.names.findIdx? (· = name) with
  | some i => .ok (t.rows.map (·.getD i []))
  | none => .error .valueError

/-- `np.diff(times[1:-1]).mean()`; `none` if there are no differences. -/
def meanStep (times : List Rat) : Option Rat :=
  let inner := (times.drop 1).dropLast
  let d := (inner.zip (inner.drop 1)).map fun e => e.2 - e.1
  if d = [] then none else some (d.sum / d.length)

end Verif.Genfromtxt
