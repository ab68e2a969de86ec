import Verif.Model.JeolTree
import Verif.Model.Edax
import Verif.Model.RenishawData
/-!
Model of `file_reader` (the choice of the reader), `_read_asw` and `_read_img` of `rsciio/jeol/_api.py`, lines 134-271.

The file system is a function from absolute paths to bytes; the path given by the user is taken to be absolute and normal
(`os.path.abspath`). Paths are those of POSIX. The readers of the other formats are a parameter. Decoding of bytes to text is a
parameter, as in the model of `_parsejeol`. Floating-point arithmetic is exact. Dates are kept as serial numbers of days.
Not modelled: the messages to the logger, and an archive that contains itself (the recursion is bounded by `fuel`).
-/
namespace Verif.Jeol
open Verif.JeolTree

/-! ### Values of a tree -/

/-- The number with the bit pattern `n` of a type of `jTYPE`, lines 32-50. -/
def numOf (ty n : Nat) : Rat :=
  if ty = 3 ∨ ty = 8 then (toSigned 4 n : Rat)
  else if ty = 4 ∨ ty = 9 then f32Dec n
  else if ty = 5 ∨ ty = 10 then Renishaw.f64Dec n
  else (n : Rat)

/-- `d[k]` for a dictionary. -/
def item (k : Text) (d : Items) : Py Node := match getKw k d with
  | none => .error .keyError
  | some n => .ok n

/-- Where the code needs a dictionary. -/
def asDict : Node → Py Items
  | .dict d => .ok d
  | .val _ => .error .attributeError

/-- Where the code needs a text (`str.split`). -/
def asText : Node → Py Text
  | .val (.text t) => .ok t
  | _ => .error .attributeError

/-- Where the code needs a number. -/
def asNum : Node → Py Rat
  | .val (.num ty n) => .ok (numOf ty n)
  | _ => .error .typeError

/-- `width, height = ...`, line 210. -/
def asPair : Node → Py (Rat × Rat)
  | .val (.nums ty [a, b]) => .ok (numOf ty a, numOf ty b)
  | .val (.nums _ _) => .error .valueError
  | _ => .error .typeError

/-- Where the code needs an array (`.resize`). -/
def asArray : Node → Py (List Rat)
  | .val (.nums ty ns) => .ok (ns.map (numOf ty))
  | _ => .error .attributeError

/-! ### Images -/

/-- `np.fromfile(fd, "<I", n)` at a position: as many numbers as there are. -/
def u32s (pos n : Nat) (f : List UInt8) : List Nat := itemsOf 4 n (f.drop pos)

/-- `a.resize((h, w))`, line 211: values beyond are dropped, zeros are added. -/
def resized (n : Nat) (a : List Rat) : List Rat := (a ++ List.replicate (n - a.length) 0).take n

/-- An axis, lines 220-237. -/
structure ImgAxis where
  name : Text
  size : Rat
  offset : Rat
  scale : Rat
  units : Text
  navigate : Bool
  deriving DecidableEq

/-- The dictionary of lines 262-267; the number of rows is `shape.1`. -/
structure Img where
  shape : Nat × Nat
  data : List Rat
  axes : List ImgAxis
  mode : Text
  energy : Rat
  magnification : Rat
  created : Rat
  title : Node
  header : Items

/-- The axis of a size, with the field of view of lines 214-219. -/
def imgAxis (name : Char) (size view : Rat) : ImgAxis := ⟨[name], size, 0, view / size, ['µ', 'm'], false⟩

/-- Lines 241-244. -/
def imgMode (hv : Rat) : Text := if hv ≤ 30 then "SEM".toList else "TEM".toList

/-- Lines 210-269: the image of a header. A size that is not a natural number cannot be the shape of an array. -/
def imgOf (h : Items) : Py Img := do
  let image ← item "Image".toList h >>= asDict
  let (w, ht) ← item "Size".toList image >>= asPair
  let bits ← item "Bits".toList image >>= asArray
  if w.den ≠ 1 ∨ ht.den ≠ 1 then .error .typeError
  else if w.num < 0 ∨ ht.num < 0 then .error .valueError
  else
    let instr ← item "Instrument".toList h >>= asDict
    let scan ← item "ScanSize".toList instr >>= asNum
    let mag ← item "Mag".toList instr >>= asNum
    let view := scan / mag * 1000
    let created ← item "Created".toList image >>= asNum
    let hv ← item "AccV".toList instr >>= asNum
    let title ← item "Title".toList image
    .ok ⟨(ht.num.toNat, w.num.toNat), resized (ht.num.toNat * w.num.toNat) bits, [imgAxis 'y' ht view, imgAxis 'x' w view],
      imgMode hv, hv, mag, created, title, h⟩

/-- `_read_img`, lines 185-269. -/
def readImg (dec : List UInt8 → Option Text) (f : List UInt8) : Py (List Img) :=
  match u32s 0 1 f with
  | [magic] =>
    if magic ≠ 52 then .ok []
    else match dec (rstripNul ((f.drop 4).take 32)) with
      | none => .error .unicodeError
      | some _ => match u32s 36 3 f with
        | [_, _, pos] => do
          let (h, _) ← parseTree dec (f.drop (pos + 12))
          let i ← imgOf h
          .ok [i]
        | _ => .error .valueError
  | _ => .error .indexError

/-! ### Archives -/

/-- A signal, and what lines 160-161 add to its metadata: the tree of the archive and the entry of the file. -/
structure Sig (α : Type) where
  content : α
  asw : Option (Items × Items)

/-- Lines 156-158: the path of a file of the archive; the first part is that of the archive. -/
def viewPath (dir name : Text) : Text :=
  Edax.joinPath dir (match splitChar '\\' name with
    | [] => []
    | p :: ps => ps.foldl Edax.joinPath p)

/-- Lines 160-162. -/
def noted {α : Type} (tree view : Items) (s : Sig α) : Sig α := ⟨s.content, some (tree, view)⟩

/-- Lines 152-162, for an entry of `ViewData`. -/
def oneFile {α : Type} (reader : Text → Py (List (Sig α))) (dir : Text) (tree : Items) (e : Text × Node) : Py (List (Sig α)) := do
  let view ← asDict e.2
  let name ← item "Filename".toList view >>= asText
  let sigs ← reader (viewPath dir name)
  .ok (sigs.map (noted tree view))

/-- A `for` loop that appends to a list. -/
def appendAll {α β : Type} (f : β → Py (List α)) : List β → Py (List α)
  | [] => .ok []
  | b :: bs => do
    let x ← f b
    let y ← appendAll f bs
    .ok (x ++ y)

/-- The entries of a section, in their order; none if it is missing (`if ... in ...`). -/
def section? (k : Text) (d : Items) : Py Items := match getKw k d with
  | none => .ok []
  | some n => asDict n

/-- Lines 148-166. -/
def oneView {α : Type} (reader : Text → Py (List (Sig α))) (dir : Text) (tree : Items) (e : Text × Node) : Py (List (Sig α)) := do
  let d ← asDict e.2
  let fs ← section? "ViewData".toList d
  appendAll (oneFile reader dir tree) fs

/-- Lines 146-170. -/
def oneSample {α : Type} (reader : Text → Py (List (Sig α))) (dir : Text) (tree : Items) (e : Text × Node) : Py (List (Sig α)) := do
  let d ← asDict e.2
  let vs ← section? "ViewInfo".toList d
  appendAll (oneView reader dir tree) vs

/-- `_read_asw`, lines 134-175. -/
def readAsw {α : Type} (dec : List UInt8 → Option Text) (reader : Text → Py (List (Sig α))) (path : Text) (f : List UInt8) :
    Py (List (Sig α)) :=
  match u32s 0 1 f with
  | [magic] =>
    if magic ≠ 0 then .error .valueError
    else do
      let (tree, _) ← parseTree dec (f.drop 12)
      let ss ← section? "SampleInfo".toList tree
      appendAll (oneSample reader (Edax.splitPath path).1 tree) ss
  | _ => .error .indexError

/-- The extension, line 126. -/
def extension (path : Text) : Text := ((Edax.splitExt path).2.drop 1).map Char.toLower

/-- `extension_to_reader_mapping`: the readers, and the extensions. -/
inductive Kind
  | img | pts | eds | asw
  deriving DecidableEq, Repr

def kindOf (ext : Text) : Option Kind :=
  if ext = "img".toList ∨ ext = "map".toList then some .img
  else if ext = "pts".toList then some .pts
  else if ext = "eds".toList then some .eds
  else if ext = "asw".toList then some .asw
  else none

/-- `file_reader`, lines 113-131. The readers of files that are not archives are `other`. -/
def fileReader {α : Type} (dec : List UInt8 → Option Text) (disk : Text → Option (List UInt8))
    (other : Kind → Text → List UInt8 → Py (List α)) : Nat → Text → Py (List (Sig α))
  | 0, _ => .error .runtimeError
  | fuel + 1, path =>
    match kindOf (extension path) with
    | none => .ok []
    | some k => match disk path with
      | none => .error .ioError
      | some f =>
        if k = .asw then readAsw dec (fileReader dec disk other fuel) path f
        else do
          let l ← other k path f
          .ok (l.map fun a => ⟨a, none⟩)

end Verif.Jeol
