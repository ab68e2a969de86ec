import Verif.Py.Assoc
import Verif.Py.Ravel
import Verif.Py.Record
/-!
Model of `rsciio/ripple/_api.py`.

Floats are an abstract type with `float(text)` and `str(x)` as parameters; `int(text)` and `str(n)`
likewise. `correct_INCA_format` (files whose first line contains a parenthesis) and the mapping of
keys to axes and metadata are in `RippleFile`. Array elements are bit patterns of the item size.
-/
namespace Verif.Ripple

inductive Val (F : Type) where
  | int (n : Int)
  | flt (x : F)
  | str (s : Text)
  deriving Repr, DecidableEq

/-- Types of keys, `rpl_keys`, lines 66-106. -/
inductive Kind where
  | int
  | float
  | str
  | sel (options : List Text)
  deriving Repr, DecidableEq

/-- `rpl_keys`, lines 66-106. -/
def rplKeys : List (Text × Kind) :=
  [("width".toList, .int), ("height".toList, .int), ("depth".toList, .int),
   ("offset".toList, .int),
   ("data-length".toList, .sel ["1".toList, "2".toList, "4".toList, "8".toList]),
   ("data-type".toList, .sel ["signed".toList, "unsigned".toList, "float".toList]),
   ("byte-order".toList, .sel ["little-endian".toList, "big-endian".toList, "dont-care".toList]),
   ("record-by".toList, .sel ["image".toList, "vector".toList, "dont-care".toList]),
   ("ev-per-chan".toList, .float), ("detector-peak-width-ev".toList, .float),
   ("depth-origin".toList, .float), ("depth-scale".toList, .float), ("depth-units".toList, .str),
   ("width-origin".toList, .float), ("width-scale".toList, .float), ("width-units".toList, .str),
   ("height-origin".toList, .float), ("height-scale".toList, .float),
   ("height-units".toList, .str), ("signal".toList, .str), ("collection-angle".toList, .float),
   ("convergence-angle".toList, .float), ("beam-energy".toList, .float),
   ("elevation-angle".toList, .float), ("azimuth-angle".toList, .float),
   ("live-time".toList, .float), ("energy-resolution".toList, .float),
   ("tilt-stage".toList, .float), ("date".toList, .str), ("time".toList, .str),
   ("title".toList, .str)]

/-- `s.replace(pat, by)`. `skip` counts the characters of a match still to be dropped. -/
def replaceAux (pat new : Text) : Nat → Text → Text
  | _, [] => []
  | skip + 1, _ :: t => replaceAux pat new skip t
  | 0, c :: t =>
    if pat.isPrefixOf (c :: t) then new ++ replaceAux pat new (pat.length - 1) t
    else c :: replaceAux pat new 0 t

def replace (pat new s : Text) : Text := replaceAux pat new 0 s

/-- `"data-Length"`. -/
def dataLengthBad : Text := ['d', 'a', 't', 'a', '-', 'L', 'e', 'n', 'g', 't', 'h']
/-- `"data-length"`. -/
def dataLength : Text := ['d', 'a', 't', 'a', '-', 'l', 'e', 'n', 'g', 't', 'h']

variable {F : Type}

/-- Lines 160-174: the value of a key in the type of the key. -/
def convert (parseI : Text → Option Int) (parseF : Text → Option F) (table : List (Text × Kind))
    (k v : Text) : Py (Val F) :=
  match getKw k table with
  | none => .ok (.str v)
  | some .str => .ok (.str v)
  | some (.sel os) => if v ∈ os then .ok (.str v) else .error .ioError
  | some .int => match parseI v with
    | some n => .ok (.int n)
    | none => .error .valueError
  | some .float => match parseF v with
    | some x => .ok (.flt x)
    | none => .error .valueError

/-- One line, lines 149-176. `none`: nothing to do. -/
def parseLine (parseI : Text → Option Int) (parseF : Text → Option F) (table : List (Text × Kind))
    (line0 : Text) : Py (Option (Text × Val F)) :=
  let line1 := replace dataLengthBad dataLength line0
  if line1.take 2 ∈ [['\n'], ['\r', '\n']] ∨ line1.head? = some ';' then .ok none
  else
    let line2 := stripBy (fun c => c = '\r' || c = '\n') line1
    let line3 := line2.takeWhile (· ≠ ';')
    match (splitChar '\t' line3).map (stripBy isSpace) with
    | k :: v :: _ =>
      match convert parseI parseF table k v with
      | .ok x => .ok (some (k, x))
      | .error e => .error e
    | _ => .error .ioError

def parseLines (parseI : Text → Option Int) (parseF : Text → Option F)
    (table : List (Text × Kind)) : List Text → List (Text × Val F) → Py (List (Text × Val F))
  | [], info => .ok info
  | l :: ls, info =>
    match parseLine parseI parseF table l with
    | .error e => .error e
    | .ok none => parseLines parseI parseF table ls info
    | .ok (some (k, v)) => parseLines parseI parseF table ls (setKw k v info)


/-- The checks of lines 178-195. A missing key is a `KeyError`. -/
def check [DecidableEq F] (info : List (Text × Val F)) : Py Unit :=
  match getKw "depth".toList info with
  | none => .error .keyError
  | some depth =>
    let dontCare : Val F := .str "dont-care".toList
    match (if depth = .int 1 then
        match getKw "record-by".toList info with
        | none => .error .keyError
        | some r => if r ≠ dontCare then .error .ioError else .ok ()
      else .ok () : Py Unit) with
    | .error e => .error e
    | .ok () =>
      match getKw "data-type".toList info with
      | none => .error .keyError
      | some ty =>
        match (if ty = .str "float".toList then
            match getKw "data-length".toList info with
            | none => .error .keyError
            | some l => if l = .str ['1'] ∨ l = .str ['2'] then .error .ioError else .ok ()
          else .ok () : Py Unit) with
        | .error e => .error e
        | .ok () =>
          match getKw "data-length".toList info with
          | none => .error .keyError
          | some l =>
            if l = .str ['1'] then
              match getKw "byte-order".toList info with
              | none => .error .keyError
              | some b => if b ≠ dontCare then .error .ioError else .ok ()
            else .ok ()

/-- `parse_ripple`, lines 139-196. -/
def parseRipple [DecidableEq F] (parseI : Text → Option Int) (parseF : Text → Option F)
    (table : List (Text × Kind)) (file : Text) : Py (List (Text × Val F)) :=
  match parseLines parseI parseF table (fileLines file) [] with
  | .error e => .error e
  | .ok info =>
    match check info with
    | .error e => .error e
    | .ok () => .ok info

/-- `str(value)`. -/
def valText (showI : Int → Text) (showF : F → Text) : Val F → Text
  | .int n => showI n
  | .flt x => showF x
  | .str s => s

/-- Order of keys (`sorted`). -/
def textLE : Text → Text → Bool
  | [], _ => true
  | _ :: _, [] => false
  | a :: s, b :: t => if a.toNat < b.toNat then true else if b.toNat < a.toNat then false
      else textLE s t

def insertKw {α : Type} (e : Text × α) : List (Text × α) → List (Text × α)
  | [] => [e]
  | f :: d => if textLE e.1 f.1 then e :: f :: d else f :: insertKw e d

/-- `sorted(keys_dictionary.items())`. -/
def sortKw {α : Type} : List (Text × α) → List (Text × α)
  | [] => []
  | e :: d => insertKw e (sortKw d)

/-- `write_rpl`, lines 633-642; `banner` is the comment of the first line. Characters outside the
encoding are ignored. -/
def rplText (showI : Int → Text) (showF : F → Text) (banner : Text) (kwds : List (Text × Val F)) :
    Text :=
  ((';' :: banner ++ ['\n']) ++ ("key\tvalue\n".toList) ++
    (sortKw kwds).flatMap fun e => e.1 ++ '\t' :: valText showI showF e.2 ++ ['\n']).filter
    (fun c => c.toNat < 256)

/-! ### Raw data -/

inductive RecordBy where
  | vector
  | image
  | dontCare
  deriving Repr, DecidableEq

/-- An element type: kind and number of bytes. -/
structure DType where
  kind : Text
  bytes : Nat
  deriving Repr, DecidableEq

/-- `dtype2keys`, lines 54-61, as (data type, data type key and data length). -/
def dtype2keys : List (DType × Text × Nat) :=
  [(⟨"float".toList, 8⟩, "float".toList, 8), (⟨"float".toList, 4⟩, "float".toList, 4),
   (⟨"uint".toList, 1⟩, "unsigned".toList, 1), (⟨"uint".toList, 2⟩, "unsigned".toList, 2),
   (⟨"int".toList, 4⟩, "signed".toList, 4), (⟨"int".toList, 8⟩, "signed".toList, 8)]

/-- Lines 225-240: the element type of the stored data. -/
def readDType (dataType : Text) (length : Nat) : Py DType :=
  if dataType = "signed".toList then .ok ⟨"int".toList, length⟩
  else if dataType = "unsigned".toList then .ok ⟨"uint".toList, length⟩
  else if dataType = "float".toList then .ok ⟨"float".toList, length⟩
  else .error .typeError

/-- The sizes, offset and layout in a header. -/
structure Layout where
  width : Nat
  height : Nat
  depth : Nat
  offset : Nat
  recordBy : RecordBy
  deriving Repr, DecidableEq

/-- Lines 242-251: the shape of the data, without the axes that are not longer than one. -/
def readShape (l : Layout) : List Nat :=
  (match l.recordBy with
    | .vector => [l.height, l.width, l.depth]
    | .image => [l.depth, l.height, l.width]
    | .dontCare => [l.height, l.width]).filter (· > 1)

/-- Elements of `w` bytes each. -/
def items (big : Bool) (w : Nat) : Nat → List UInt8 → List Nat
  | 0, _ => []
  | n + 1, f => fieldVal big (f.take w) :: items big w n (f.drop w)

/-- `read_raw`, lines 253-259: shape and elements; too short a file is a `ValueError`. -/
def readRaw (l : Layout) (big : Bool) (w : Nat) (f : List UInt8) : Py (List Nat × List Nat) :=
  let shape := readShape l
  if f.length < l.offset + size shape * w then .error .valueError
  else .ok (shape, items big w (size shape) (f.drop l.offset))

/-- `np.rollaxis(data, axis, end)` for moving `axis` to the end: index of the source for an index
of the result. -/
def rollToEnd (axis : Nat) (idx : List Nat) : List Nat :=
  match idx.getLast? with
  | none => []
  | some a => (idx.dropLast.take axis) ++ a :: (idx.dropLast.drop axis)

/-- `np.rollaxis(data, axis, 0)`. -/
def rollToFront (axis : Nat) (idx : List Nat) : List Nat :=
  match idx with
  | [] => []
  | a :: rest => rest.take axis ++ a :: rest.drop axis

/-- Move an entry of the shape. -/
def moveToEnd (axis : Nat) (shape : List Nat) : List Nat :=
  shape.eraseIdx axis ++ (shape[axis]?).toList

def moveToFront (axis : Nat) (shape : List Nat) : List Nat :=
  (shape[axis]?).toList ++ shape.eraseIdx axis

/-- The signal to write: shape of the data, navigation flag of each axis, elements. -/
structure Signal where
  shape : List Nat
  nav : List Bool
  val : List Nat → Nat

/-- Index of the first signal axis and of the first navigation axis
(`signal["axes"].index(...)`, lines 658-672; there is only one such axis where it is used). -/
def sigIndex (s : Signal) : Nat := s.nav.idxOf false
def navIndex (s : Signal) : Nat := s.nav.idxOf true

/-- Sizes of the axes with a given flag, in array order. -/
def sizes (s : Signal) (flag : Bool) : List Nat :=
  ((s.nav.zip s.shape).filter fun e => e.1 = flag).map Prod.snd

/-- `file_writer`, lines 510-565: sizes and layout. `none`: nothing is written. Signals with
more than three dimensions are an `IOError`. The lists of axes are reversed (lines 531-532). -/
def layoutOf (s : Signal) : Py (Option Layout) :=
  if s.shape.length > 3 then .error .ioError
  else match (sizes s false).reverse, (sizes s true).reverse with
    | [d], [w, h] => .ok (some ⟨w, h, d, 0, .vector⟩)
    | [d], [w] => .ok (some ⟨w, 1, d, 0, .vector⟩)
    | [d], [] => .ok (some ⟨1, 1, d, 0, .vector⟩)
    | [w, h], [d] => .ok (some ⟨w, h, d, 0, .image⟩)
    | [w, h], [] => .ok (some ⟨w, h, 1, 0, .dontCare⟩)
    | _, _ => .ok none

/-- `write_raw`, lines 645-676: the elements in the order written. -/
def rawItems (s : Signal) (r : RecordBy) : List Nat :=
  if s.shape.length = 3 then
    match r with
    | .vector => ravel (moveToEnd (sigIndex s) s.shape) fun i => s.val (rollToEnd (sigIndex s) i)
    | .image => ravel (moveToFront (navIndex s) s.shape) fun i => s.val (rollToFront (navIndex s) i)
    | .dontCare => []
  else if s.shape.length = 2 then
    match r with
    | .vector => ravel (moveToEnd (sigIndex s) s.shape) fun i => s.val (rollToEnd (sigIndex s) i)
    | _ => ravel s.shape s.val
  else ravel s.shape s.val

def rawBytes (big : Bool) (w : Nat) (xs : List Nat) : List UInt8 := xs.flatMap (fieldBytes big w)

/-- Names and sizes of the axes returned by `file_reader`, lines 325-350 and 447-461. -/
def readAxes (l : Layout) : List (String × Nat) :=
  (match l.recordBy with
    | .vector => [("height", l.height), ("width", l.width), ("depth", l.depth)]
    | _ => [("depth", l.depth), ("height", l.height), ("width", l.width)]).filter (·.2 > 1)

end Verif.Ripple
