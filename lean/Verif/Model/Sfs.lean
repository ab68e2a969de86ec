import Verif.Py.Bytes
import Verif.Py.Assoc
/-!
Model of the container part of `rsciio/bruker/_api.py`: `SFSTreeItem` and `SFS_reader`.

A container is the list of its bytes. Text decoding (UTF-8) is a parameter, and so is `unzip_block`.
Simplified: `ceil(a / b)` on floats is exact (it is below 2^53); the conversion of the three times of an
item (lines 99-101) always succeeds; the order of the checks within `struct.unpack` is left out.
-/
namespace Verif.Sfs

/-- `fn.seek(pos); fn.read(n)`. -/
def readAt (F : List UInt8) (pos n : Nat) : List UInt8 := (F.drop pos).take n

/-- `ceil(a / b)`. -/
def ceilDiv (a b : Nat) : Nat := (a + b - 1) / b

/-- `l[i]`, with negative indices counted from the end. -/
def pyGet {α : Type} (l : List α) (i : Int) : Py α :=
  match (if 0 ≤ i then l[i.toNat]? else if -i ≤ (l.length : Int) then l[(l.length + i).toNat]? else none) with
  | none => .error .indexError
  | some x => .ok x

/-- `usable_chunk`, line 316 (for chunks of more than 32 bytes). -/
def usable (c : Nat) : Nat := c - 32

/-- The loop of lines 131-135: the contents of `n` linked chunks, of each the first `w` bytes. Used for
lines 346-352 as well. -/
def linked (F : List UInt8) (c w : Nat) : Nat → Nat → Py (List UInt8)
  | 0, _ => .ok []
  | n + 1, k =>
    let head := readAt F (c * k + 0x118) 4
    if head.length < 4 then .error .structError
    else match linked F c w n (leVal head) with
      | .error e => .error e
      | .ok t => .ok (readAt F (c * k + 0x138) w ++ t)

/-- `np.frombuffer(s, dtype="uint32")`. -/
def words : List UInt8 → Py (List Nat)
  | [] => .ok []
  | a :: b :: c :: d :: t => match words t with
    | .error e => .error e
    | .ok ws => .ok (leVal [a, b, c, d] :: ws)
  | _ => .error .valueError

/-- `_fill_pointer_table`, lines 111-148. A negative pointer is a negative seek. -/
def fillTable (F : List UInt8) (c : Nat) (addr : Int) (size : Nat) : Py (List Nat) :=
  let nChunks := ceilDiv size (usable c)
  let n := ceilDiv nChunks (usable c / 4)
  if addr < 0 then .error .ioError
  else
    match (if 1 < n then linked F c (usable c) n addr.toNat
      else .ok (readAt F (c * addr.toNat + 0x138) (usable c)) : Py (List UInt8)) with
    | .error e => .error e
    | .ok table => match words (table.take (nChunks * 4)) with
      | .error e => .error e
      | .ok ws => .ok (ws.map fun w => w * c + 0x138)

/-- An item of the table, lines 83-109. -/
structure Item where
  size : Nat
  parent : Int
  isDir : Bool
  name : Text
  pointers : List Nat
  deriving Repr, DecidableEq

/-- `bytes.strip(b"\x00")`. -/
def stripNul (bs : List UInt8) : List UInt8 :=
  ((bs.dropWhile (· = 0)).reverse.dropWhile (· = 0)).reverse

/-- `SFSTreeItem.__init__`, lines 83-109, of a record of 512 bytes. -/
def item (dec : List UInt8 → Option Text) (F : List UInt8) (c : Nat) (r : List UInt8) : Py Item :=
  if r.length ≠ 512 then .error .structError
  else
    let addr := toSigned 4 (leVal (r.take 4))
    let size := leVal ((r.drop 4).take 8)
    let parent := toSigned 4 (leVal ((r.drop 40).take 4))
    let isDir := ((r.drop 220).take 1) ≠ [0]
    match dec (stripNul ((r.drop 224).take 256)) with
    | none => .error .unicodeError
    | some name =>
      if isDir then .ok ⟨size, parent, true, name, []⟩
      else match fillTable F c addr size with
        | .error e => .error e
        | .ok ps => .ok ⟨size, parent, false, name, ps⟩

/-- `read_piece`, lines 150-184. -/
def readPiece (F : List UInt8) (c : Nat) (ptrs : List Nat) (offset length : Nat) : Py (List UInt8) :=
  let u := usable c
  let fb := offset / u
  let fbo := offset % u
  let lb := (offset + length) / u
  let lbco := (offset + length) % u
  match ptrs[fb]? with
  | none => .error .indexError
  | some p =>
    if fb ≠ lb then
      let first := readAt F (p + fbo) (u - fbo)
      let mid := ((ptrs.take lb).drop (fb + 1)).flatMap fun q => readAt F q u
      if 0 < lbco then
        match ptrs[lb]? with
        | none => .error .indexError
        | some q => .ok (first ++ mid ++ readAt F q lbco)
      else .ok (first ++ mid)
    else .ok (readAt F (p + fbo) length)

/-- `_iter_read_chunks`, lines 186-208, run to its end. -/
def readChunks (F : List UInt8) (c : Nat) (it : Item) : Py (List (List UInt8)) :=
  let u := usable c
  let last := ceilDiv it.size u
  if it.pointers.length < last - 1 then .error .indexError
  else match pyGet it.pointers ((last : Int) - 1) with
    | .error e => .error e
    | .ok p =>
      let rest := it.size % u
      .ok ((it.pointers.take (last - 1)).map (fun q => readAt F q u) ++
        [if rest ≠ 0 then readAt F p rest else readAt F p u])

/-- `setup_compression_metadata`, lines 210-230: size of the blocks and their number. -/
def compression (F : List UInt8) (it : Item) : Py (Nat × Nat) :=
  match it.pointers[0]? with
  | none => .error .indexError
  | some p =>
    let h := readAt F p 16
    if h.length < 16 then .error .structError
    else if leVal (h.take 4) = 0x53434141 then
      .ok (leVal ((h.drop 4).take 4), leVal ((h.drop 12).take 4))
    else .error .valueError

/-- `_iter_read_compr_chunks`, lines 232-252, run to its end. -/
def readBlocks (unzip : List UInt8 → Py (List UInt8)) (F : List UInt8) (c : Nat) (ptrs : List Nat) :
    Nat → Nat → Py (List (List UInt8))
  | 0, _ => .ok []
  | n + 1, offset =>
    match readPiece F c ptrs offset 16 with
    | .error e => .error e
    | .ok h =>
      if h.length ≠ 16 then .error .structError
      else
        let size := leVal (h.take 4)
        match readPiece F c ptrs (offset + 16) size with
        | .error e => .error e
        | .ok raw => match unzip raw with
          | .error e => .error e
          | .ok b => match readBlocks unzip F c ptrs n (offset + 16 + size) with
            | .error e => .error e
            | .ok bs => .ok (b :: bs)

/-- An entry of the file system: a directory, or the index of the item. -/
inductive Vfs
  | dir (items : List (Text × Vfs))
  | file (i : Nat)

/-- One pass of the loop of lines 378-380 over the paths, from index `f` on. -/
def pathPass : Nat → Nat → List (List Int) → Py (List (List Int))
  | 0, _, ps => .ok ps
  | n + 1, f, ps =>
    match ps[f]? with
    | none => .ok ps
    | some p => match p.getLast? with
      | none => .error .indexError
      | some l =>
        if l = -1 then pathPass n (f + 1) ps
        else match pyGet ps l with
          | .error e => .error e
          | .ok q => pathPass n (f + 1) (ps.set f (p ++ q))

/-- The loop of lines 377-380; `none`: not finished within the given number of passes. -/
def paths : Nat → List (List Int) → Option (Py (List (List Int)))
  | 0, ps => if ps.all (fun p => p.getLast? = some (-1)) then some (.ok ps) else none
  | n + 1, ps =>
    if ps.all (fun p => p.getLast? = some (-1)) then some (.ok ps)
    else match pathPass ps.length 0 ps with
      | .error e => some (.error e)
      | .ok ps => paths n ps

/-- `dir_pointer[...] = v` below the directories `path`, lines 390-399; missing directories are made.
`TypeError` when a file is in the way. -/
def place (name : Text) (v : Vfs) : List Text → List (Text × Vfs) → Py (List (Text × Vfs))
  | [], d => .ok (setKw name v d)
  | j :: path, d =>
    match getKw j d with
    | some (.file _) => .error .typeError
    | some (.dir e) => match place name v path e with
      | .error er => .error er
      | .ok e' => .ok (setKw j (.dir e') d)
    | none => match place name v path [] with
      | .error er => .error er
      | .ok e' => .ok (setKw j (.dir e') d)

/-- The names of a path, from the root, lines 381-387. -/
def pathNames (names : List Text) : List Int → Py (List Text)
  | [] => .ok []
  | i :: p => match pyGet names i, pathNames names p with
    | .ok n, .ok ns => .ok (ns ++ [n])
    | .error e, _ => .error e
    | _, .error e => .error e

/-- The loop of lines 389-400 from item `i` on. -/
def placeAll (names : List Text) : Nat → List (Bool × Text) → List (List Int) → List (Text × Vfs) →
    Py (List (Text × Vfs))
  | _, [], _, root => .ok root
  | _, _ :: _, [], _ => .error .indexError
  | i, (isDir, name) :: its, p :: ps, root =>
    match pathNames names p with
    | .error e => .error e
    | .ok path =>
      match place name (if isDir then .dir [] else .file i) path root with
      | .error e => .error e
      | .ok root => placeAll names (i + 1) its ps root

def kRoot : Text := ['r', 'o', 'o', 't']

/-- `_flat_items_to_dict`, lines 373-402, and line 371; `none`: the loop does not end within `fuel`
passes. -/
def tree (fuel : Nat) (items : List (Bool × Text × Int)) : Option (Py (List (Text × Vfs))) :=
  match paths fuel (items.map fun it => [it.2.2]) with
  | none => none
  | some (.error e) => some (.error e)
  | some (.ok ps) =>
    match placeAll (items.map (fun it => it.2.1) ++ [kRoot]) 0 (items.map fun it => (it.1, it.2.1)) ps [] with
    | .error e => some (.error e)
    | .ok root => match getKw kRoot root with
      | some (.dir d) => some (.ok d)
      | some (.file _) => some (.error .typeError)
      | none => some (.error .keyError)

/-- `item[i]` for the parts of a path, lines 445-448. -/
def walk : List Text → Vfs → Py Vfs
  | [], v => .ok v
  | _ :: _, .file _ => .error .typeError
  | k :: ks, .dir d => match getKw k d with
    | none => .error .keyError
    | some v => walk ks v

/-- `get_file`, lines 418-449. -/
def getFile (vfs : List (Text × Vfs)) (path : Text) : Py Vfs := walk (splitChar '/' path) (.dir vfs)

/-- All items of the table: lines 356-359. -/
def itemsOf (dec : List UInt8 → Option Text) (F : List UInt8) (c : Nat) : Nat → List UInt8 → Py (List Item)
  | 0, _ => .ok []
  | n + 1, raw => match item dec F c (raw.take 512) with
    | .error e => .error e
    | .ok it => match itemsOf dec F c n (raw.drop 512) with
      | .error e => .error e
      | .ok its => .ok (it :: its)

/-- The bytes of the table, lines 335-355. -/
def rawTree (F : List UInt8) (c addr n : Nat) : Py (List UInt8) :=
  let k := ceilDiv (n * 512) (c - 32)
  if k = 1 then .ok (readAt F (c * addr + 0x138) (512 * n))
  else match linked F c ((c - 32) / 512 * 512) k addr with
    | .error e => .error e
    | .ok t => .ok (t.take (n * 512))

/-- An open container. -/
structure Container where
  chunk : Nat
  items : List Item
  zlib : Bool
  vfs : List (Text × Vfs)

/-- `_check_the_compresion`, lines 404-416: the first file decides. Without files the attribute is
missing. -/
def isZlib (F : List UInt8) : List Item → Py Bool
  | [] => .error .attributeError
  | it :: its =>
    if it.isDir then isZlib F its
    else match it.pointers[0]? with
      | none => .error .indexError
      | some p => .ok (readAt F p 4 = [0x41, 0x41, 0x43, 0x53])

/-- Lines 364-367. -/
def checkAll (F : List UInt8) : List Item → Py Unit
  | [] => .ok ()
  | it :: its =>
    if it.isDir then checkAll F its
    else match compression F it with
      | .error e => .error e
      | .ok _ => checkAll F its

/-- `SFS_reader.__init__` and `_setup_vfs`, lines 304-371. -/
def openSfs (dec : List UInt8 → Option Text) (fuel : Nat) (F : List UInt8) : Option (Py Container) :=
  if readAt F 0 8 ≠ [0x41, 0x41, 0x4d, 0x56, 0x48, 0x46, 0x53, 0x53] then some (.error .typeError)
  else if F.length < 0x14c then some (.error .structError)
  else
    let c := leVal (readAt F 0x128 4)
    let addr := leVal (readAt F 0x140 4)
    let n := leVal (readAt F 0x144 4)
    match rawTree F c addr n with
    | .error e => some (.error e)
    | .ok raw => match itemsOf dec F c n raw with
      | .error e => some (.error e)
      | .ok its => match isZlib F its with
        | .error e => some (.error e)
        | .ok z => match (if z then checkAll F its else .ok () : Py Unit) with
          | .error e => some (.error e)
          | .ok () => match tree fuel (its.map fun it => (it.isDir, it.name, it.parent)) with
            | none => none
            | some (.error e) => some (.error e)
            | some (.ok vfs) => some (.ok ⟨c, its, z, vfs⟩)

/-- `get_as_BytesIO_string`, lines 280-284: the whole file. -/
def wholeFile (unzip : List UInt8 → Py (List UInt8)) (F : List UInt8) (k : Container) (it : Item) :
    Py (List UInt8) :=
  match (if k.zlib then
      match compression F it with
      | .error e => .error e
      | .ok (_, n) => readBlocks unzip F k.chunk it.pointers n 0x80
    else readChunks F k.chunk it : Py (List (List UInt8))) with
  | .error e => .error e
  | .ok cs => .ok cs.flatten

end Verif.Sfs
