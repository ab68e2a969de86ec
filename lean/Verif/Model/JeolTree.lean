import Verif.Py.Bytes
import Verif.Py.Assoc
/-!
Model of `_parsejeol` of `rsciio/jeol/_api.py`, the parser of parameter trees.

Decoding of bytes to text (UTF-8, else Shift-JIS) is a parameter. Values of numeric types are kept as
the numbers of their bytes. `tmp_dict`, a reference into `final_dict`, is represented by the path that
leads to it. A missing end of the file inside of an array is simplified: the items that are there.
-/
namespace Verif.JeolTree

/-- A value: one number or text, or an array of them. -/
inductive Value
  | num (ty n : Nat)
  | nums (ty : Nat) (ns : List Nat)
  | text (t : Text)
  | texts (ts : List Text)
  deriving Repr, DecidableEq

/-- What a dictionary contains. -/
inductive Node
  | dict (items : List (Text × Node))
  | val (v : Value)

abbrev Items := List (Text × Node)

/-- `jTYPE`, lines 33-51, with the item size. -/
def itemsize : Nat → Option Nat
  | 1 => some 1 | 2 => some 2 | 3 => some 4 | 4 => some 4 | 5 => some 8
  | 6 => some 1 | 7 => some 2 | 8 => some 4 | 9 => some 4 | 10 => some 8
  | 11 => some 1 | 12 => some 1 | 13 => some 1 | 14 => some 2 | 20 => some 1
  | 65553 => some 1 | 65552 => some 1
  | _ => none

/-- The type is `"c"`. -/
def isChars (ty : Nat) : Bool := ty == 12 || ty == 13 || ty == 20

/-- `bytes.rstrip(b"\x00")`. -/
def rstripNul (bs : List UInt8) : List UInt8 := (bs.reverse.dropWhile (· = 0)).reverse

/-- `fd.read(n)`: everything if `n` is negative. -/
def readLen (n : Int) (f : List UInt8) : List UInt8 × List UInt8 :=
  if n < 0 then (f, []) else (f.take n.toNat, f.drop n.toNat)

/-- A little-endian `int32`; `IndexError` at the end of the file. -/
def readInt (f : List UInt8) : Py (Int × List UInt8) :=
  if f.length < 4 then .error .indexError
  else .ok (toSigned 4 (leVal (f.take 4)), f.drop 4)

/-- The name of an entry, lines 656-668. -/
def keyName (dec : List UInt8 → Option Text) (raw : List UInt8) : Py Text :=
  let k := rstripNul raw
  if k = [0xce, 0xdf, 0xb0, 0xc4] then .ok ['P', 'o', 'r', 't']
  else match k.getLast? with
    | none => .error .indexError
    | some b =>
      match dec (if b = 222 then k.dropLast else k) with
      | none => .error .unicodeError
      | some t => .ok t

/-- `n` items of `w` bytes, as far as they are there. -/
def itemsOf (w : Nat) : Nat → List UInt8 → List Nat
  | 0, _ => []
  | n + 1, f => if f.length < w then [] else leVal (f.take w) :: itemsOf w n (f.drop w)

/-- The value, lines 673-682. -/
def readValue (dec : List UInt8 → Option Text) (ty : Nat) (len : Int) (f : List UInt8) :
    Py (Value × List UInt8) :=
  match itemsize ty with
  | none => .error .keyError
  | some w =>
    if isChars ty then
      let (bs, f) := readLen len f
      match dec (rstripNul bs) with
      | none => .error .unicodeError
      | some t => match splitChar (Char.ofNat 0) t with
        | [s] => .ok (.text s, f)
        | ss => .ok (.texts ss, f)
    else
      let n := if len / w < 0 then f.length / w else (len / w).toNat
      match itemsOf w n f with
      | [x] => .ok (.num ty x, f.drop (n * w))
      | xs => .ok (.nums ty xs, f.drop (n * w))

/-- Name, type and value of an entry, lines 655-682; no value for type 0. -/
def readEntry (dec : List UInt8 → Option Text) (f : List UInt8) :
    Py (Text × Option (Nat × Value) × List UInt8) := do
  let (n, f) ← readInt f
  let (raw, f) := readLen n f
  let key ← keyName dec raw
  if f.length < 8 then .error .valueError
  else
    let ty := leVal (f.take 4)
    let len := toSigned 4 (leVal ((f.drop 4).take 4))
    let f := f.drop 8
    if ty = 0 then .ok (key, none, f)
    else
      let (v, f) ← readValue dec ty len f
      .ok (key, some (ty, v), f)

/-- `tmp_dict[k] = v` for the dictionary at a path. Values below a value are an error (`TypeError`, or
`IndexError` for arrays). -/
def setAt : List Text → Text → Node → Items → Py Items
  | [], k, v, d => .ok (setKw k v d)
  | p :: ps, k, v, d =>
    match getKw p d with
    | none => .error .keyError
    | some (.val _) => .error .typeError
    | some (.dict e) => match setAt ps k v e with
      | .error er => .error er
      | .ok e' => .ok (setKw p (.dict e') d)

/-- The walk of lines 714-716. -/
def walk : List Text → Items → Py Unit
  | [], _ => .ok ()
  | p :: ps, d =>
    match getKw p d with
    | none => .error .keyError
    | some (.dict e) => walk ps e
    | some (.val _) => if ps = [] then .ok () else .error .typeError

/-- `final_dict`, `tmp_list`, and the path of `tmp_dict`. -/
structure St where
  root : Items
  stack : List Text
  cur : List Text

/-- `kwrd[-5:-1] == "PAGE"`. -/
def isPage (k : Text) : Bool := k.dropLast.drop (k.length - 5) = ['P', 'A', 'G', 'E']

def kCountRate : Text := ['C', 'o', 'u', 'n', 't', 'R', 'a', 't', 'e']
def kDeadTime : Text := ['D', 'e', 'a', 'd', 'T', 'i', 'm', 'e']
def kLimits : Text := ['L', 'i', 'm', 'i', 't', 's']
def kValue : Text := ['v', 'a', 'l', 'u', 'e']
def kIndex : Text := ['i', 'n', 'd', 'e', 'x']

/-- What is stored and under which name, lines 670-700; `none`: nothing. -/
def stored (key : Text) : Option (Nat × Value) → Py (Text × Option Node)
  | none => .ok (key, some (.dict []))
  | some (ty, v) =>
    if isPage key then
      match v with
      | .text t => .ok (key ++ '_' :: t, some (.dict []))
      | _ => .error .typeError
    else if key = kCountRate ∨ key = kDeadTime then .ok (key, some (.dict [(kValue, .val v)]))
    else if key = kLimits then .ok (key, none)
    else if ty = 14 then .ok (key, some (.dict [(kIndex, .val v)]))
    else .ok (key, some (.val v))

/-- A new entry, lines 669-709. -/
def enter (s : St) (key : Text) (c : Option (Nat × Value)) : Py St :=
  match stored key c with
  | .error e => .error e
  | .ok (key, n) =>
    match (match n with
      | none => .ok s.root
      | some n => setAt s.cur key n s.root : Py Items) with
    | .error e => .error e
    | .ok root => .ok ⟨root, s.stack ++ [key], if key = kLimits then s.cur else s.cur ++ [key]⟩

/-- The end of an entry, lines 711-716. -/
def leave (s : St) : Py St :=
  match walk s.stack.dropLast s.root with
  | .error e => .error e
  | .ok () => .ok ⟨s.root, s.stack.dropLast, s.stack.dropLast⟩

/-- The loop, lines 647-720; the dictionary and the rest of the file. A mark is a signed byte: 255 is
-1. `fuel` bounds the number of marks. -/
def parse (dec : List UInt8 → Option Text) : Nat → St → List UInt8 → Py (Items × List UInt8)
  | 0, _, _ => .error .runtimeError
  | _ + 1, _, [] => .error .indexError
  | fuel + 1, s, m :: f =>
    if m = 1 then
      match readEntry dec f with
      | .error e => .error e
      | .ok (key, c, f) => match enter s key c with
        | .error e => .error e
        | .ok s => parse dec fuel s f
    else if s.stack = [] then .ok (s.root, f)
    else match leave s with
      | .error e => .error e
      | .ok s => if m = 255 then parse dec fuel s f else .ok (s.root, f)

/-- `_parsejeol`; every mark is a byte of the file. -/
def parseTree (dec : List UInt8 → Option Text) (f : List UInt8) : Py (Items × List UInt8) :=
  parse dec (f.length + 1) ⟨[], [], []⟩ f

end Verif.JeolTree
