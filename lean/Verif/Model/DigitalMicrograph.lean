import Verif.Py.Record
import Verif.Py.Text
import Verif.Py.Dec
import Verif.Py.Assoc
/-!
Model of the tag parser of `rsciio/digitalmicrograph/_api.py` (`DigitalMicrographReader`).

The file is the list of bytes not yet read; the position is the length of the file minus theirs.
Simple values are bit patterns together with their type code. Texts are lists of bytes; tag names are
shown one character per byte (the decoding of lines 331-336 is left out). Negative lengths and
counts, which the format does not have, are taken as zero.
-/
namespace Verif.DM

/-- Version and byte order. -/
structure Cfg where
  v4 : Bool
  big : Bool
  deriving Repr, DecidableEq

/-- Sizes of the simple types, lines 218-233. -/
def simpleSize : Nat → Option Nat
  | 2 => some 2
  | 3 => some 4
  | 4 => some 2
  | 5 => some 4
  | 6 => some 4
  | 7 => some 8
  | 8 => some 1
  | 9 => some 1
  | 10 => some 1
  | 11 => some 8
  | 12 => some 8
  | _ => none

/-- Values of data tags. -/
inductive Data where
  | simple (etype bits : Nat)
  | str (bs : List UInt8)
  | arr (etype : Nat) (vals : List Nat)
  | struct (fields : List (Nat × Nat))
  | structs (types : List Nat) (rows : List (List Nat))
  | strs (ss : List (List UInt8))
  | skipped (size sizeBytes offset : Nat)
  deriving Repr, DecidableEq

/-- Values of a tag dictionary. -/
inductive Node where
  | data (d : Data)
  | group (items : List (Text × Node))

/-- Read `w` bytes as an unsigned number; `struct.error` at the end of the file. -/
def readU (big : Bool) (w : Nat) (f : List UInt8) : Py (Nat × List UInt8) :=
  if f.length < w then .error .structError
  else .ok (fieldVal big (f.take w), f.drop w)

/-- Size of `read_l_or_q`, lines 247-252. -/
def lsize (c : Cfg) : Nat := if c.v4 then 8 else 4

/-- `read_l_or_q(f, "big")`; a signed number, negative ones taken as zero. -/
def readL (c : Cfg) (f : List UInt8) : Py (Nat × List UInt8) :=
  match readU true (lsize c) f with
  | .error e => .error e
  | .ok (n, r) => .ok (if 2 * n < 256 ^ lsize c then n else 0, r)

/-- `read_string` without `skip`, lines 306-336. -/
def readStr (n : Nat) (f : List UInt8) : Py (List UInt8 × List UInt8) :=
  if f.length < n then .error .structError else .ok (f.take n, f.drop n)

/-- Several simple values of one type. -/
def readMany (big : Bool) (w : Nat) : Nat → List UInt8 → Py (List Nat × List UInt8)
  | 0, f => .ok ([], f)
  | n + 1, f =>
    match readU big w f with
    | .error e => .error e
    | .ok (v, r) => match readMany big w n r with
      | .error e => .error e
      | .ok (vs, r) => .ok (v :: vs, r)

/-- `parse_struct_definition`, lines 273-290: the types of the fields. -/
def readTypes (c : Cfg) : Nat → List UInt8 → Py (List Nat × List UInt8)
  | 0, f => .ok ([], f)
  | n + 1, f =>
    match readL c f with
    | .error e => .error e
    | .ok (_, r) => match readL c r with
      | .error e => .error e
      | .ok (t, r) => match readTypes c n r with
        | .error e => .error e
        | .ok (ts, r) => .ok (t :: ts, r)

def readStructDef (c : Cfg) (f : List UInt8) : Py (List Nat × List UInt8) :=
  match readL c f with
  | .error e => .error e
  | .ok (_, r) => match readL c r with
    | .error e => .error e
    | .ok (n, r) => readTypes c n r

/-- `read_struct` without `skip`, lines 338-370. -/
def readFields (big : Bool) : List Nat → List UInt8 → Py (List Nat × List UInt8)
  | [], f => .ok ([], f)
  | t :: ts, f =>
    match simpleSize t with
    | none => .error .runtimeError
    | some w => match readU big w f with
      | .error e => .error e
      | .ok (v, r) => match readFields big ts r with
        | .error e => .error e
        | .ok (vs, r) => .ok (v :: vs, r)

/-- The bytes of a struct. -/
def structSize : List Nat → Option Nat
  | [] => some 0
  | t :: ts =>
    match simpleSize t, structSize ts with
    | some w, some n => some (w + n)
    | _, _ => none

def readRows (big : Bool) (ts : List Nat) : Nat → List UInt8 → Py (List (List Nat) × List UInt8)
  | 0, f => .ok ([], f)
  | n + 1, f =>
    match readFields big ts f with
    | .error e => .error e
    | .ok (vs, r) => match readRows big ts n r with
      | .error e => .error e
      | .ok (rows, r) => .ok (vs :: rows, r)

def readStrs (len : Nat) : Nat → List UInt8 → Py (List (List UInt8) × List UInt8)
  | 0, f => .ok ([], f)
  | n + 1, f =>
    match readStr len f with
    | .error e => .error e
    | .ok (s, r) => match readStrs len n r with
      | .error e => .error e
      | .ok (ss, r) => .ok (s :: ss, r)

/-- Position in a file of `n` bytes. -/
def tell (n : Nat) (f : List UInt8) : Nat := n - f.length

/-- `read_string`, lines 306-336: when skipped, `size_bytes` stays 0. -/
def readString (n : Nat) (skip : Bool) (len : Nat) (f : List UInt8) : Py (Data × List UInt8) :=
  if skip then .ok (.skipped len 0 (tell n f), f.drop len)
  else match readStr len f with
    | .error e => .error e
    | .ok (s, r) => .ok (.str s, r)

/-- `read_struct`, lines 338-370. -/
def readStruct (c : Cfg) (n : Nat) (skip : Bool) (ts : List Nat) (f : List UInt8) :
    Py (Data × List UInt8) :=
  if skip then
    match structSize ts with
    | none => .error .runtimeError
    | some w => .ok (.skipped ts.length w (tell n f), f.drop w)
  else match readFields c.big ts f with
    | .error e => .error e
    | .ok (vs, r) => .ok (.struct (ts.zip vs), r)

/-- `read_array` of a simple type, lines 372-402. -/
def readArray (c : Cfg) (n : Nat) (skip : Bool) (size etype : Nat) (f : List UInt8) :
    Py (Data × List UInt8) :=
  match simpleSize etype with
  | none => .error .keyError
  | some w =>
    if skip then .ok (.skipped size (w * size) (tell n f), f.drop (w * size))
    else match readMany c.big w size f with
      | .error e => .error e
      | .ok (vs, r) => .ok (.arr etype vs, r)

/-- `read_array` of structs: when skipped, one struct is skipped, then the others. -/
def readStructArray (c : Cfg) (n : Nat) (skip : Bool) (ts : List Nat) (size : Nat)
    (f : List UInt8) : Py (Data × List UInt8) :=
  if skip then
    match structSize ts with
    | none => .error .runtimeError
    | some w => .ok (.skipped size (w * size) (tell n f), f.drop (w * size))
  else match readRows c.big ts size f with
    | .error e => .error e
    | .ok (rows, r) => .ok (.structs ts rows, r)

/-- `read_array` of strings: when skipped, the first is skipped, then `0 * (size - 1)` bytes. -/
def readStringArray (n : Nat) (skip : Bool) (len size : Nat) (f : List UInt8) :
    Py (Data × List UInt8) :=
  if skip then .ok (.skipped size 0 (tell n f), f.drop len)
  else match readStrs len size f with
    | .error e => .error e
    | .ok (ss, r) => .ok (.strs ss, r)

/-- Arrays with a complex element type, lines 153-193, after the type 20. An element type that is not
known leaves `data` as it was. -/
def readComplexArray (c : Cfg) (n : Nat) (skip : Bool) (prev : Option Data) (f : List UInt8) :
    Py (Data × List UInt8) :=
  match readL c f with
  | .error e => .error e
  | .ok (el, r) =>
    if el = 15 then                                   -- array of structs
      match readStructDef c r with
      | .error e => .error e
      | .ok (ts, r) => match readL c r with
        | .error e => .error e
        | .ok (size, r) => readStructArray c n skip ts size r
    else if el = 18 then                              -- array of strings
      match readL c r with
      | .error e => .error e
      | .ok (len, r) => match readL c r with
        | .error e => .error e
        | .ok (size, r) => readStringArray n skip len size r
    else if el = 20 then                              -- array of arrays: only `size` items are read
      match readL c r with
      | .error e => .error e
      | .ok (inner, r) => match readL c r with
        | .error e => .error e
        | .ok (_, r) => match readL c r with
          | .error e => .error e
          | .ok (size, r) => readArray c n skip size inner r
    else match prev with
      | none => .error .nameError
      | some d => .ok (d, r)

/-- The value of a data tag, lines 112-199. `prev` is the value of the tag before (the variable keeps
it), `n` the length of the file. -/
def readData (c : Cfg) (n : Nat) (skip : Bool) (prev : Option Data) (f : List UInt8) :
    Py (Data × List UInt8) :=
  match readStr 4 (f.drop (if c.v4 then 8 else 0)) with    -- check_data_tag_delimiter, 428-432
  | .error e => .error e
  | .ok (delim, r) =>
    if delim ≠ [37, 37, 37, 37] then .error .runtimeError
    else match readL c r with
      | .error e => .error e
      | .ok (info, r) =>
        if info = 0 then .error .ioError
        else match readL c r with
          | .error e => .error e
          | .ok (enc, r) =>
            if info = 1 then
              match simpleSize enc with
              | none => .error .keyError
              | some w => match readU c.big w r with
                | .error e => .error e
                | .ok (v, r) => .ok (.simple enc v, r)
            else if info = 2 then
              if enc ≠ 18 then .error .ioError
              else match readL c r with
                | .error e => .error e
                | .ok (len, r) => readString n skip len r
            else if info = 3 then
              if enc ≠ 20 then .error .ioError
              else match readL c r with
                | .error e => .error e
                | .ok (etype, r) => match readL c r with
                  | .error e => .error e
                  | .ok (size, r) => readArray c n skip size etype r
            else if enc = 15 then
              match readStructDef c r with
              | .error e => .error e
              | .ok (ts, r) => readStruct c n skip ts r
            else if enc = 20 then readComplexArray c n skip prev r
            else match prev with
              | none => .error .nameError
              | some d => .ok (d, r)

def nameOf (bs : List UInt8) : Text := bs.map fun b => Char.ofNat b.toNat

/-- Line 101: dots are removed from names. -/
def noDots (s : Text) : Text := s.filter (· ≠ '.')

def dataName (k : Nat) : Text := ['D', 'a', 't', 'a'] ++ decChars k
def groupName (k : Nat) : Text := ['T', 'a', 'g', 'G', 'r', 'o', 'u', 'p'] ++ decChars k

/-- Is this the data of an image, which is skipped? Line 103. -/
def isImageData (group name : Text) : Bool :=
  group = ['I', 'm', 'a', 'g', 'e', 'D', 'a', 't', 'a'] && name = ['D', 'a', 't', 'a']

/-- `parse_tag_header`, lines 418-426: id, name. -/
def readTagHeader (f : List UInt8) : Py ((Nat × Text) × List UInt8) :=
  match readU true 1 f with
  | .error e => .error e
  | .ok (id, r) => match readU true 2 r with
    | .error e => .error e
    | .ok (len, r) => match readStr (if len < 32768 then len else 0) r with
      | .error e => .error e
      | .ok (name, r) => .ok ((id, nameOf name), r)

/-- `parse_tag_group`, lines 404-416: the number of tags; groups other than the root have their size
stored in version 4. -/
def readGroupHeader (c : Cfg) (size : Bool) (f : List UInt8) : Py (Nat × List UInt8) :=
  match readU true 2 f with
  | .error e => .error e
  | .ok (_, r) =>
    if c.v4 && size then
      match readL c r with
      | .error e => .error e
      | .ok (_, r) => readL c r
    else readL c r

/-- `parse_tags`, lines 92-216: `k` tags of a group. The counters number the unnamed tags; `fuel`
bounds the number of tags (each has at least one byte). -/
def readTags (c : Cfg) (n : Nat) : Nat → Nat → Text → Nat → Nat → Option Data →
    List (Text × Node) → List UInt8 → Py (List (Text × Node) × List UInt8)
  | _, 0, _, _, _, _, d, f => .ok (d, f)
  | 0, _ + 1, _, _, _, _, _, _ => .error .runtimeError
  | fuel + 1, k + 1, group, ud, ug, prev, d, f =>
    match readTagHeader f with
    | .error e => .error e
    | .ok ((id, name), r) =>
      let name := noDots name
      if id = 21 then
        match readData c n (isImageData group name) prev r with
        | .error e => .error e
        | .ok (v, r) =>
          readTags c n fuel k group (if name = [] then ud + 1 else ud) ug (some v)
            (setKw (if name = [] then dataName ud else name) (.data v) d) r
      else if id = 20 then
        let name' := if name = [] then groupName ug else name
        match readGroupHeader c true r with
        | .error e => .error e
        | .ok (m, r) =>
          match readTags c n fuel m name' 0 0 none [] r with
          | .error e => .error e
          | .ok (sub, r) =>
            readTags c n fuel k group ud (if name = [] then ug + 1 else ug) prev
              (setKw name' (.group sub) d) r
      else .error .runtimeError

def rootName : Text := ['r', 'o', 'o', 't']

/-- `parse_file`, lines 65-90: version, size, byte order, then the tags, beside an empty entry
"root". Returns also what follows the last tag. -/
def readFile (f : List UInt8) : Py (List (Text × Node) × List UInt8) :=
  match readU true 4 f with
  | .error e => .error e
  | .ok (v, r) =>
    if v ≠ 3 ∧ v ≠ 4 then .error .notImplemented
    else
      let c0 : Cfg := ⟨v = 4, true⟩
      match readL c0 r with
      | .error e => .error e
      | .ok (_, r) => match readU true 4 r with
        | .error e => .error e
        | .ok (little, r) =>
          let c : Cfg := ⟨v = 4, little = 0⟩
          match readGroupHeader c false r with
          | .error e => .error e
          | .ok (k, r) =>
            readTags c f.length (f.length + 1) k rootName 0 0 none [(rootName, .group [])] r

end Verif.DM
