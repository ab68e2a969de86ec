import Verif.Model.Sfs
/-!
Bruker containers: where bytes are stored and what the paths of files are. Independent of the reader.

A container has chunks of `c` bytes; chunk `k` begins at `c * k + 0x118` with a header of 32 bytes, whose
first 4 bytes may contain the number of a following chunk.
-/
namespace Verif.Sfs

/-- The bytes `bs` are in the container at a position. -/
def Has (F : List UInt8) (pos : Nat) (bs : List UInt8) : Prop := ∃ post, F.drop pos = bs ++ post

/-- The bytes of a file are in the chunks `cs`, `c - 32` bytes in each but the last. -/
def Stored (F : List UInt8) (c : Nat) (cs : List Nat) (content : List UInt8) : Prop :=
  (∀ i, i * (c - 32) < content.length → ∃ k, cs[i]? = some k ∧
    Has F (c * k + 0x138) ((content.drop (i * (c - 32))).take (c - 32))) ∧
  ∀ i, content.length ≤ i * (c - 32) → cs[i]? = none

/-- Payloads in linked chunks, from chunk `a` on. -/
inductive Linked (F : List UInt8) (c : Nat) : Nat → List (List UInt8) → Prop
  | last (a : Nat) (bs : List UInt8) : Has F (c * a + 0x138) bs → Linked F c a [bs]
  | more (a b : Nat) (bs : List UInt8) (rest : List (List UInt8)) : Has F (c * a + 0x138) bs → b < 2 ^ 32 →
      Has F (c * a + 0x118) (leBytes 4 b) → Linked F c b rest → Linked F c a (bs :: rest)

/-- All blocks but the last have `w` bytes; the last has at most `w`, and is empty only if it is the only
one. -/
def Full (w : Nat) (blocks : List (List UInt8)) : Prop :=
  (∀ b ∈ blocks.dropLast, b.length = w) ∧
  ∀ b, blocks.getLast? = some b → b.length ≤ w ∧ (b = [] → blocks.length = 1)

/-- A file: its chunks are listed in linked chunks from `addr` on, as many numbers in each as fit. -/
def FileAt (F : List UInt8) (c addr : Nat) (content : List UInt8) : Prop :=
  ∃ cs blocks, Stored F c cs content ∧ (∀ k ∈ cs, k < 2 ^ 32) ∧ Linked F c addr blocks ∧
    Full ((c - 32) / 4 * 4) blocks ∧ blocks.flatten = cs.flatMap (leBytes 4)

/-- Compressed blocks: of each its length, 12 more bytes, and the compressed bytes. -/
inductive Zipped (unzip : List UInt8 → Py (List UInt8)) : List UInt8 → List (List UInt8) → Prop
  | nil (rest : List UInt8) : Zipped unzip rest []
  | cons (head raw rest plain : List UInt8) (plains : List (List UInt8)) : head.length = 12 →
      raw.length < 2 ^ 32 → raw ≠ [] → unzip raw = .ok plain → Zipped unzip rest plains →
      Zipped unzip (leBytes 4 raw.length ++ head ++ raw ++ rest) (plain :: plains)

/-- A compressed file: a header of 128 bytes with the signature and the number of the blocks, and the
blocks. -/
def ZippedFile (unzip : List UInt8 → Py (List UInt8)) (content : List UInt8) (plains : List (List UInt8)) :
    Prop :=
  ∃ a b d rest, a.length = 4 ∧ b.length = 4 ∧ d.length = 112 ∧ plains.length < 2 ^ 32 ∧
    content = [0x41, 0x41, 0x43, 0x53] ++ a ++ b ++ leBytes 4 plains.length ++ d ++ rest ∧
    Zipped unzip rest plains

/-- What is stored: a file or directory, its name, the index of its parent. -/
structure Entry where
  isDir : Bool
  name : Text
  parent : Option Nat
  content : List UInt8

/-- The index of the parent; -1 for none. -/
def parentBytes : Option Nat → List UInt8
  | none => [255, 255, 255, 255]
  | some p => leBytes 4 p

/-- The record of 512 bytes of an entry. `enc` encodes names. -/
def Record (enc : Text → List UInt8) (F : List UInt8) (c : Nat) (r : List UInt8) (e : Entry) : Prop :=
  ∃ (addr : Nat) (times : List UInt8) (unused1 unused2 unused3 : List UInt8) (flag : UInt8),
    times.length = 28 ∧ unused1.length = 176 ∧ unused2.length = 3 ∧ unused3.length = 32 ∧
    addr < 2 ^ 31 ∧ e.content.length < 2 ^ 64 ∧ (enc e.name).length ≤ 256 ∧
    (∀ p, e.parent = some p → p < 2 ^ 31) ∧
    (flag ≠ 0 ↔ e.isDir = true) ∧
    r = leBytes 4 addr ++ leBytes 8 e.content.length ++ times ++
      parentBytes e.parent ++ unused1 ++ [flag] ++
      unused2 ++ enc e.name ++ List.replicate (256 - (enc e.name).length) 0 ++ unused3 ∧
    (e.isDir = false → FileAt F c addr e.content)

/-- Records as bytes. -/
inductive Records (enc : Text → List UInt8) (F : List UInt8) (c : Nat) : List UInt8 → List Entry → Prop
  | nil : Records enc F c [] []
  | cons (r rs : List UInt8) (e : Entry) (es : List Entry) : Record enc F c r e → Records enc F c rs es →
      Records enc F c (r ++ rs) (e :: es)

/-- A container: the signature, the size of the chunks, and the table of the entries in linked chunks,
as many records in each as fit. -/
structure Holds (enc : Text → List UInt8) (F : List UInt8) (c : Nat) (es : List Entry)
    (blocks : List (List UInt8)) : Prop where
  chunk : 544 ≤ c ∧ c < 2 ^ 32
  size : 0x14c ≤ F.length
  count : es.length < 2 ^ 32
  magic : Has F 0 [0x41, 0x41, 0x4d, 0x56, 0x48, 0x46, 0x53, 0x53]
  chunkAt : Has F 0x128 (leBytes 4 c)
  table : ∃ addr, addr < 2 ^ 32 ∧ Has F 0x140 (leBytes 4 addr) ∧ Has F 0x144 (leBytes 4 es.length) ∧
    Linked F c addr blocks
  full : Full ((c - 32) / 512 * 512) blocks
  records : Records enc F c blocks.flatten es

/-- The names on the way to an entry. -/
inductive PathOf (es : List (Bool × Text × Option Nat)) : Nat → List Text → Prop
  | top (i : Nat) (d : Bool) (name : Text) : es[i]? = some (d, name, none) → PathOf es i [name]
  | sub (i p : Nat) (d : Bool) (name : Text) (ns : List Text) : es[i]? = some (d, name, some p) →
      PathOf es p ns → PathOf es i (ns ++ [name])

/-- `a` is a parent of `i`, or a parent of a parent, and so on. -/
inductive Above (es : List (Bool × Text × Option Nat)) : Nat → Nat → Prop
  | parent (i p : Nat) (d : Bool) (name : Text) : es[i]? = some (d, name, some p) → Above es p i
  | up (i p a : Nat) (d : Bool) (name : Text) : es[i]? = some (d, name, some p) → Above es a p → Above es a i

/-- A file system: every entry has a path (no loops), parents are directories, the entries of a directory
have different names. -/
structure FileSystem (es : List (Bool × Text × Option Nat)) : Prop where
  path : ∀ i, i < es.length → ∃ ns, PathOf es i ns
  dirs : ∀ (i p : Nat) (d : Bool) (name : Text), es[i]? = some (d, name, some p) →
    ∃ name' q, es[p]? = some (true, name', q)
  names : ∀ (i j : Nat) (d d' : Bool) (name : Text) (p : Option Nat), es[i]? = some (d, name, p) →
    es[j]? = some (d', name, p) → i = j

/-- A path in one text. -/
def joinSlash : List Text → Text
  | [] => []
  | [t] => t
  | t :: u :: ts => t ++ '/' :: joinSlash (u :: ts)

/-- Kind, name and parent of the entries. -/
def table (es : List Entry) : List (Bool × Text × Option Nat) := es.map fun e => (e.isDir, e.name, e.parent)

/-- The first file of a container. -/
def First (es : List Entry) (e : Entry) : Prop :=
  ∃ ds rest, es = ds ++ e :: rest ∧ (∀ d ∈ ds, d.isDir = true) ∧ e.isDir = false

/-- Nothing is compressed: the first file does not begin with the signature. -/
def Plain (es : List Entry) : Prop :=
  ∃ e, First es e ∧ 4 ≤ e.content.length ∧ e.content.take 4 ≠ [0x41, 0x41, 0x43, 0x53]

/-- All files are compressed. -/
def Compressed (unzip : List UInt8 → Py (List UInt8)) (es : List Entry) : Prop :=
  (∃ e, First es e) ∧ ∀ e ∈ es, e.isDir = false → ∃ plains, ZippedFile unzip e.content plains

end Verif.Sfs
