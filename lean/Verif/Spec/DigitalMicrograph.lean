import Verif.Model.DigitalMicrograph
/-!
The layout of DM3/DM4 tag trees, written from the description of the format: an encoder for trees,
and the dictionary a reader should return for a tree. Independent of the parser.
-/
namespace Verif.DM

/-- A tag of the file. -/
inductive Tag where
  | data (name : List UInt8) (d : Data)
  | group (name : List UInt8) (tags : List Tag)

/-- A number of the headers. -/
def encL (c : Cfg) (n : Nat) : List UInt8 := beBytes (if c.v4 then 8 else 4) n

def encVals (big : Bool) (w : Nat) (vs : List Nat) : List UInt8 := vs.flatMap (fieldBytes big w)

/-- The type codes and their sizes in bytes: short, long, unsigned short, unsigned long, float, double,
boolean, char, octet, long long, unsigned long long. -/
def widths : List (Nat × Nat) :=
  [(2, 2), (3, 4), (4, 2), (5, 4), (6, 4), (7, 8), (8, 1), (9, 1), (10, 1), (11, 8), (12, 8)]

def widthOf (t : Nat) : Nat := (widths.lookup t).getD 0

/-- A type of the format. -/
def known (t : Nat) : Prop := t ∈ widths.map Prod.fst

def encFields (big : Bool) : List Nat → List Nat → List UInt8
  | t :: ts, v :: vs => fieldBytes big (widthOf t) v ++ encFields big ts vs
  | _, _ => []

def encTypes (c : Cfg) (ts : List Nat) : List UInt8 := ts.flatMap fun t => encL c 0 ++ encL c t

/-- Definition of a struct. -/
def encDef (c : Cfg) (ts : List Nat) : List UInt8 := encL c 0 ++ encL c ts.length ++ encTypes c ts

/-- The values of a tag, as stored. -/
def payload (c : Cfg) : Data → List UInt8
  | .simple t v => fieldBytes c.big (widthOf t) v
  | .str bs => bs
  | .arr t vs => encVals c.big (widthOf t) vs
  | .struct fs => encFields c.big (fs.map Prod.fst) (fs.map Prod.snd)
  | .structs ts rows => rows.flatMap (encFields c.big ts)
  | .strs ss => ss.flatten
  | .skipped .. => []

/-- Description of the values: size of the description, then the description. -/
def info (c : Cfg) : Data → List UInt8
  | .simple t _ => encL c 1 ++ encL c t
  | .str bs => encL c 2 ++ encL c 18 ++ encL c bs.length
  | .arr t vs => encL c 3 ++ encL c 20 ++ encL c t ++ encL c vs.length
  | .struct fs => encL c (3 + 2 * fs.length) ++ encL c 15 ++ encDef c (fs.map Prod.fst)
  | .structs ts rows =>
    encL c (5 + 2 * ts.length) ++ encL c 20 ++ encL c 15 ++ encDef c ts ++ encL c rows.length
  | .strs ss =>
    encL c 4 ++ encL c 20 ++ encL c 18 ++ encL c (ss.headD []).length ++ encL c ss.length
  | .skipped .. => []

/-- A data tag after its name: eight bytes of size in version 4, delimiter, description, values. -/
def encData (c : Cfg) (d : Data) : List UInt8 :=
  List.replicate (if c.v4 then 8 else 0) 0 ++ [37, 37, 37, 37] ++ info c d ++ payload c d

/-- The header of a group. -/
def encGroupHeader (c : Cfg) (size : Bool) (k : Nat) : List UInt8 :=
  [1, 0] ++ (if c.v4 && size then encL c 0 else []) ++ encL c k

def encHeader (id : UInt8) (name : List UInt8) : List UInt8 :=
  [id] ++ beBytes 2 name.length ++ name

def encTags (c : Cfg) : List Tag → List UInt8
  | [] => []
  | .data nm d :: ts => encHeader 21 nm ++ encData c d ++ encTags c ts
  | .group nm sub :: ts =>
    encHeader 20 nm ++ encGroupHeader c true sub.length ++ encTags c sub ++ encTags c ts

/-- A whole file: version, size (any), byte order, tags. -/
def encFile (c : Cfg) (size : Nat) (ts : List Tag) : List UInt8 :=
  beBytes 4 (if c.v4 then 4 else 3) ++ encL c size ++ beBytes 4 (if c.big then 0 else 1) ++
    encGroupHeader c false ts.length ++ encTags c ts

/-- Values that the format can hold: known types, bit patterns of their size, lengths of at most 31
bits, and strings of one length in arrays of strings. -/
def Data.ok : Data → Prop
  | .simple t v => known t ∧ v < 256 ^ widthOf t
  | .str bs => bs.length < 2 ^ 31
  | .arr t vs => known t ∧ (∀ v ∈ vs, v < 256 ^ widthOf t) ∧ vs.length < 2 ^ 31
  | .struct fs => fs ≠ [] ∧ fs.length < 2 ^ 29 ∧
      ∀ f ∈ fs, known f.1 ∧ f.2 < 256 ^ widthOf f.1
  | .structs ts rows => ts.length < 2 ^ 29 ∧ rows.length < 2 ^ 31 ∧
      (∀ t ∈ ts, known t) ∧
      ∀ r ∈ rows, List.Forall₂ (fun t v => v < 256 ^ widthOf t) ts r
  | .strs ss => ss.length < 2 ^ 31 ∧ (ss.headD []).length < 2 ^ 31 ∧
      ∀ s ∈ ss, s.length = (ss.headD []).length
  | .skipped .. => False

/-- A name as shown: one character per byte, without dots. -/
def shownName (bs : List UInt8) : Text := (bs.filter (· ≠ 46)).map fun b => Char.ofNat b.toNat

/-- Names of unnamed tags. -/
def numberedData (k : Nat) : Text := "Data".toList ++ decChars k
def numberedGroup (k : Nat) : Text := "TagGroup".toList ++ decChars k

/-- The data of an image: the tag `Data` of a group `ImageData`. -/
def isImage (group name : Text) : Bool := group = "ImageData".toList && name = "Data".toList

/-- The name under which a tag appears: dots removed; unnamed ones are numbered, data and groups
separately. -/
def finalNames : Nat → Nat → List Tag → List Text
  | _, _, [] => []
  | ud, ug, .data nm _ :: ts =>
    if shownName nm = [] then numberedData ud :: finalNames (ud + 1) ug ts
    else shownName nm :: finalNames ud ug ts
  | ud, ug, .group nm _ :: ts =>
    if shownName nm = [] then numberedGroup ug :: finalNames ud (ug + 1) ts
    else shownName nm :: finalNames ud ug ts

/-- Trees that the format can hold and whose names stay different. -/
def tagsOk : List Tag → Prop
  | [] => True
  | .data nm d :: ts => nm.length < 2 ^ 15 ∧ d.ok ∧ tagsOk ts
  | .group nm sub :: ts => nm.length < 2 ^ 15 ∧ sub.length < 2 ^ 31 ∧ (finalNames 0 0 sub).Nodup ∧
      tagsOk sub ∧ tagsOk ts

/-- Data of images are described instead of read: number of elements, bytes, position. `after` is the
number of bytes of the file (of `n`) that follow the values. -/
def described (c : Cfg) (n after : Nat) (skip : Bool) (d : Data) : Data :=
  if skip then
    match d with
    | .arr _ vs => .skipped vs.length (payload c d).length (n - ((payload c d).length + after))
    | .struct fs => .skipped fs.length (payload c d).length (n - ((payload c d).length + after))
    | .structs _ rows => .skipped rows.length (payload c d).length
        (n - ((payload c d).length + after))
    | .strs ss => .skipped ss.length (payload c d).length (n - ((payload c d).length + after))
    | .str bs => .skipped bs.length bs.length (n - (bs.length + after))
    | d => d
  else d

/-- The dictionary of a group. -/
def dictOf (c : Cfg) (n : Nat) : Text → Nat → Nat → Nat → List Tag → List (Text × Node)
  | _, _, _, _, [] => []
  | group, ud, ug, after, .data nm d :: ts =>
    let name := shownName nm
    (if name = [] then numberedData ud else name,
      .data (described c n ((encTags c ts).length + after) (isImage group name) d)) ::
      dictOf c n group (if name = [] then ud + 1 else ud) ug after ts
  | group, ud, ug, after, .group nm sub :: ts =>
    let name := shownName nm
    let name' := if name = [] then numberedGroup ug else name
    (name', .group (dictOf c n name' 0 0 ((encTags c ts).length + after) sub)) ::
      dictOf c n group ud (if name = [] then ug + 1 else ug) after ts

end Verif.DM
