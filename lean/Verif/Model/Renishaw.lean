import Verif.Py.Text
import Verif.Py.Dec
import Verif.Py.Bytes
import Verif.Py.Assoc
/-!
Model of `rsciio/renishaw/_api.py`, first part: the blocks of a `.wdf` file and the metadata blocks ("PSET").

Simplifications: a byte of 128 or more in a text is a `UnicodeDecodeError` (texts of UTF-8 beyond ASCII are not modelled);
floating-point numbers and dates of the metadata are bit patterns; of the metadata without a partner (`_unmatched_metadata`) only
the names of the blocks are kept; a compressed key (`None` in the code) has the name `None`. The loop over the blocks of a file need not
end: it has a limit of rounds, and no result when the limit is reached. The loop over the entries of a metadata block reads four bytes in each round, so that a limit
of as many rounds as there are bytes is never reached.
-/
namespace Verif.Renishaw

abbrev Bytes := List UInt8

/-- Bytes `o` to `o + n`. -/
def chunk (f : Bytes) (o n : Nat) : Bytes := (f.drop o).take n

/-- `__read_numeric` of one number of `w` bytes, lines 486-504: `data[0]` of an empty array raises. -/
def number (f : Bytes) (o w : Nat) : Py Nat :=
  if o + w ≤ f.length then .ok (leVal (chunk f o w)) else .error .indexError

/-- `decode("utf8").replace("\x00", "")` in `__read_utf8`, lines 506-507. -/
def decode (b : Bytes) : Py Text :=
  if b.all (· < 128) then .ok ((b.filter (· ≠ 0)).map fun x => Char.ofNat x.toNat) else .error .unicodeError

/-- Positions and sizes of blocks. -/
abbrev Blocks := List (Text × (Nat × Int))

/-- `block_name.replace(" ", "") + "_" + str(block_uid)`, line 537. -/
def blockKey (name : Text) (uid : Nat) : Text := name.filter (· ≠ ' ') ++ '_' :: decChars uid

/-- `locate_all_blocks`, lines 518-549, with a limit of rounds; `seek` to a negative position raises. An undecodable name ends the loop, but
`block_name` in the warning is not defined in the first round. -/
def locate (f : Bytes) : Nat → Int → Bool → Blocks → Option (Py Blocks)
  | 0, _, _, _ => none
  | fuel + 1, pos, named, blocks =>
    if (f.length : Int) ≤ pos then some (.ok blocks)
    else if pos < 0 then some (.error .ioError)
    else match decode (chunk f pos.toNat 4) with
      | .error _ => if named then some (.ok blocks) else some (.error .nameError)
      | .ok name =>
        match number f (pos.toNat + 4) 4, number f (pos.toNat + 8) 8 with
        | .ok uid, .ok size =>
          locate f fuel (pos + toSigned 8 size) true
            (setKw (blockKey name uid) (pos.toNat + 16, toSigned 8 size) blocks)
        | .error e, _ => some (.error e)
        | .ok _, .error e => some (.error e)

/-- Values of metadata. -/
inductive Val where
  | int (i : Int)
  | single (bits : Nat)
  | double (bits : Nat)
  | time (ticks : Nat)
  | many (vs : List Val)
  | text (t : Text)
  | binary (b : Bytes)
  | nested (d : List (Text × Val))
  | none

abbrev Dict := List (Text × Val)

/-- `MetadataTypeSingle` and `MetadataLengthSingle`, lines 142-163. -/
def width (c : UInt8) : Option Nat :=
  if c = 99 ∨ c = 63 then some 1 else if c = 115 then some 2 else if c = 105 ∨ c = 114 then some 4
  else if c = 119 ∨ c = 113 ∨ c = 116 then some 8 else none

/-- `MetadataTypeMulti`, lines 166-170. -/
def isMulti (c : UInt8) : Bool := c = 117 ∨ c = 112 ∨ c = 107 ∨ c = 98

/-- The number in `b` for a letter (`TypeNames`, lines 181-193). -/
def scalar (c : UInt8) (b : Bytes) : Val :=
  if c = 63 then .int (leVal b)
  else if c = 114 then .single (leVal b)
  else if c = 113 then .double (leVal b)
  else if c = 116 then .time (leVal b)
  else .int (toSigned b.length (leVal b))

/-- `d[k] = v` with numbers as keys. -/
def setId {α : Type} (k : Nat) (v : α) : List (Nat × α) → List (Nat × α)
  | [] => [(k, v)]
  | (k', v') :: d => if k' = k then (k, v) :: d else (k', v') :: setId k v d

/-- `d.get(k)` with numbers as keys. -/
def getId {α : Type} (k : Nat) : List (Nat × α) → Option α
  | [] => none
  | (k', v) :: d => if k' = k then some v else getId k d

/-- `_pset_match_keys_and_values`, lines 628-644: the matched pairs. -/
def matched (keys : List (Nat × Text)) (vals : List (Nat × Val)) : Dict :=
  keys.foldl (fun d e => match getId e.1 vals with
    | some v => setKw e.2 v d
    | none => d) []

/-- Lines 640-643: are there keys or values without a partner? -/
def leftOver (keys : List (Nat × Text)) (vals : List (Nat × Val)) : Bool :=
  keys.any (fun e => (getId e.1 vals).isNone) || vals.any (fun e => (getId e.1 keys).isNone)

/-- A name is added to the names of blocks with keys or values without a partner. -/
def note (id : Text) (un : List Text) : List Text := if id ∈ un then un else un ++ [id]

/-- `str` of an integer. -/
def intText (i : Int) : Text := if i < 0 then '-' :: decChars i.natAbs else decChars i.natAbs

/-- Numbers of `w` bytes from the file (`np.fromfile` with a count) and the rest of the file. -/
def takeNumbers (rest : Bytes) (w n : Nat) : List Bytes × Bytes :=
  if n * w ≤ rest.length then ((List.range n).map fun k => chunk rest (w * k) w, rest.drop (n * w))
  else ((List.range (rest.length / w)).map fun k => chunk rest (w * k) w, [])

/-- `_pset_read_entry` for one letter, lines 673-679: the value, the number of bytes, and the rest of the file. -/
def readSingle (c : UInt8) (w size : Nat) (rest : Bytes) : Py (Val × Nat × Bytes) :=
  let r := takeNumbers rest w size
  if size = 1 then match r.1 with
    | [] => .error .indexError
    | b :: _ => .ok (scalar c b, w, r.2)
  else .ok (.many (r.1.map (scalar c)), w * size, r.2)

mutual
/-- `_pset_read_metadata`, lines 600-626: `rest` is the file from the current position, `un` the names of blocks with entries without a partner. -/
def readSet : Nat → Int → Text → Bytes → List (Nat × Text) → List (Nat × Val) → List Text →
    Py (Dict × List Text × Bytes)
  | 0, _, _, _, _, _, _ => .error .runtimeError
  | fuel + 1, remaining, id, rest, keys, vals, un =>
    if remaining ≤ 0 then .ok (matched keys vals, if leftOver keys vals then note id un else un, rest)
    else match rest with
      | c :: flag :: a :: b :: rest =>
        if ¬ c < 128 then .error .unicodeError
        else match readEntry fuel flag c (id ++ '_' :: intText (remaining - 4)) rest un with
          | .error e => .error e
          | .ok (v, n, un, rest) =>
            let key := leVal [a, b]
            if c = 107 then
              readSet fuel (remaining - 4 - n) id rest (setId key (match v with | .text t => t | _ => "None".toList) keys) vals un
            else readSet fuel (remaining - 4 - n) id rest keys (setId key v vals) un
      | c :: _ => if ¬ c < 128 then .error .unicodeError else .error .indexError
      | [] => .error .indexError

/-- `_pset_switch_read_on_flag` and the functions it calls, lines 646-696. A flag that is not known is the same as 0 (`DefaultEnum.Unknown`). -/
def readEntry : Nat → UInt8 → UInt8 → Text → Bytes → List Text → Py (Val × Int × List Text × Bytes)
  | 0, _, _, _, _, _ => .error .runtimeError
  | fuel + 1, flag, c, id, rest, un =>
    if flag = 64 then
      match number rest 0 4 with
      | .error e => .error e
      | .ok size => .ok (.none, size + 4, un, rest.drop (4 + size))
    else
      match (if flag = 128 then (number rest 0 4).map fun n => (n, 4) else .ok (1, 0)) with
      | .error e => .error e
      | .ok (size, extra) =>
        let rest := rest.drop extra
        match width c with
        | some w => match readSingle c w size rest with
          | .error e => .error e
          | .ok (v, n, rest) => .ok (v, n + extra, un, rest)
        | none =>
          if isMulti c then
            match number rest 0 4 with
            | .error e => .error e
            | .ok len =>
              let rest := rest.drop 4
              if c = 98 then .ok (.binary (rest.take len), len + 4 + extra, un, rest.drop len)
              else if c = 112 then
                match readSet fuel len id rest [] [] un with
                | .error e => .error e
                | .ok (d, un, rest) => .ok (.nested d, len + 4 + extra, un, rest)
              else match decode (rest.take len) with
                | .error e => .error e
                | .ok t => .ok (.text t, len + 4 + extra, un, rest.drop len)
          else .error .runtimeError
end

/-- `_get_psetsize`, lines 585-598. -/
def psetSize (f : Bytes) (blocks : Blocks) (id : Text) : Py Nat :=
  match getKw id blocks with
  | none => .ok 0
  | some (pos, _) => do
    let magic ← number f pos 4
    let size ← number f (pos + 4) 4
    if magic ≠ 0x54455350 then .ok 0 else .ok size

/-- Metadata of blocks, and the names of blocks with entries without a partner. -/
abbrev Meta := List (Text × Dict) × List Text

/-- `_parse_metadata`, lines 575-583. -/
def parseMeta (f : Bytes) (blocks : Blocks) (m : Meta) (id : Text) : Py Meta := do
  let size ← psetSize f blocks id
  if size = 0 then .ok m
  else match getKw id blocks with
    | none => .ok m
    | some (pos, _) => do
      let rest := f.drop (pos + 8)
      let (d, un, _) ← readSet (rest.length + 1) size id rest [] [] m.2
      .ok (setKw id d m.1, un)

/-- `_map_WXDM`, lines 721-742: what it raises. `_match_WXDM_values` makes an entry `subdicts` when a part of the block has entries without a partner.
The entries that it adds to the metadata are in `Verif.Model.RenishawNested`. -/
def mapWxdm (m : Meta) : Py Unit :=
  match getKw "WXDM_0".toList m.1 with
  | none => .ok ()
  | some _ =>
    if "WXDM_0".toList ∉ m.2 then .error .keyError
    else if m.2.any (fun k => k.take 6 = "WXDM_0".toList && k.count '_' == 2) then .ok () else .error .keyError

/-- `_parse_MAP`, lines 746-758. -/
def parseMap (f : Bytes) (blocks : Blocks) (m : Meta) (id : Text) : Py Meta :=
  match getKw id blocks with
  | none => .ok m
  | some (pos, _) => do
    let size ← psetSize f blocks id
    let rest := f.drop (pos + 8)
    let (d, un, rest) ← readSet (rest.length + 1) size id rest [] [] m.2
    let n ← number rest 0 8
    let (v, _, _) ← readSingle 114 4 n (rest.drop 8)
    .ok (setKw id (setKw "data".toList v (setKw "npoints".toList (.int n) d)) m.1, un)

/-- The metadata blocks in the order of `read_file`, lines 451-461. -/
def readMeta (f : Bytes) (blocks : Blocks) : Py Meta := do
  let m ← ["WXIS_0", "WXCS_0", "WXDA_0", "ZLDC_0", "WARP_0", "WARP_1", "WXDM_0"].foldlM
    (fun m id => parseMeta f blocks m id.toList) (([], []) : Meta)
  mapWxdm m
  let m ← parseMap f blocks m "MAP_0".toList
  parseMap f blocks m "MAP_1".toList

end Verif.Renishaw
