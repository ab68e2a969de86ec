import Verif.Model.JeolAsw
import Verif.Spec.JeolTree
import Verif.Spec.Edax
/-! JEOL archives and images: what is stored and what a reader should return. Independent of the reader. -/
namespace Verif.Jeol
open Verif.JeolTree

/-- A dictionary has an entry (and no other one of that name). -/
def Has (d : Items) (k : String) (n : Node) : Prop := (d.map Prod.fst).Nodup ∧ (k.toList, n) ∈ d

/-- The entries of a section of a dictionary; a section that is missing has none. -/
def Section (d : Items) (k : String) (es : Items) : Prop := Has d k (.dict es) ∨ (k.toList ∉ d.map Prod.fst ∧ es = [])

/-- Parts of a path with a separator. -/
def joinedBy (c : Char) : List Text → Text
  | [] => []
  | [p] => p
  | p :: q :: ps => p ++ c :: joinedBy c (q :: ps)

/-- The entry of a file in an archive: the dictionary that belongs to it, and the path of the file, written with backslashes. -/
def FileEntry (e : Text × Node) (v : Items × List Text) : Prop :=
  e.2 = .dict v.1 ∧ Has v.1 "Filename" (.val (.text (joinedBy '\\' v.2)))

/-- A view has files. -/
def ViewEntry (e : Text × Node) (vs : List (Items × List Text)) : Prop :=
  ∃ d es, e.2 = .dict d ∧ Section d "ViewData" es ∧ List.Forall₂ FileEntry es vs

/-- A sample has views. -/
def SampleEntry (e : Text × Node) (vss : List (List (Items × List Text))) : Prop :=
  ∃ d es, e.2 = .dict d ∧ Section d "ViewInfo" es ∧ List.Forall₂ ViewEntry es vss

/-- An archive has samples; its files are those of all views of all samples, in this order. -/
def Archive (tree : Items) (files : List (Items × List Text)) : Prop :=
  ∃ es vsss, Section tree "SampleInfo" es ∧ List.Forall₂ SampleEntry es vsss ∧ files = vsss.flatten.flatten

/-- The parts of a path are names. -/
def GoodParts (ps : List Text) : Prop := ps ≠ [] ∧ ∀ p ∈ ps, p ≠ [] ∧ '/' ∉ p ∧ '\\' ∉ p

/-- A path of a file with an extension, written in small or capital letters. -/
def HasExt (path : Text) (ext : String) : Prop :=
  ∃ pre stem e, path = pre ++ (stem ++ '.' :: e) ∧ Edax.IsFolder pre ∧ '/' ∉ stem ∧ (∃ c ∈ stem, c ≠ '.') ∧ '/' ∉ e ∧ '.' ∉ e ∧
    e.map Char.toLower = ext.toList

/-- The extensions of files. -/
def extensions : Kind → List String
  | .img => ["img", "map"]
  | .pts => ["pts"]
  | .eds => ["eds"]
  | .asw => ["asw"]

/-- The value of a stored number: types 3 and 8 are signed integers, 4 and 9 single, 5 and 10 double precision. -/
def Number (ty n : Nat) (r : Rat) : Prop :=
  (ty ∈ [1, 2, 6, 7, 11, 14, 65552, 65553] ∧ r = n) ∨
  (ty ∈ [3, 8] ∧ ∃ i : Int, r = i ∧ -2 ^ 31 ≤ i ∧ i < 2 ^ 31 ∧ i % 2 ^ 32 = n) ∨
  (ty ∈ [4, 9] ∧ r = f32Dec n) ∨ (ty ∈ [5, 10] ∧ r = Renishaw.f64Dec n)

/-- An entry that is a number. -/
def HasNum (d : Items) (k : String) (r : Rat) : Prop := ∃ ty n, Has d k (.val (.num ty n)) ∧ Number ty n r

/-- An entry that is an array of numbers. -/
def HasNums (d : Items) (k : String) (rs : List Rat) : Prop := ∃ ty ns, Has d k (.val (.nums ty ns)) ∧ List.Forall₂ (Number ty) ns rs

/-- The contents of an image file. -/
structure Picture (h : Items) (width height : Nat) (pixels : List Rat) (scan mag created hv : Rat) (title : Node) : Prop where
  parts : ∃ image instr, Has h "Image" (.dict image) ∧ Has h "Instrument" (.dict instr) ∧
    HasNums image "Size" [(width : Rat), (height : Rat)] ∧ HasNums image "Bits" pixels ∧ HasNum image "Created" created ∧
    Has image "Title" title ∧ HasNum instr "ScanSize" scan ∧ HasNum instr "Mag" mag ∧ HasNum instr "AccV" hv

/-- An archive file: eight bytes between the magic number and the tree. -/
def IsArchiveFile (f : List UInt8) (ts : List Tree) : Prop :=
  ∃ (eight : List UInt8) (m : UInt8) (rest : List UInt8), eight.length = 8 ∧ m ≠ 1 ∧
    f = leBytes 4 0 ++ eight ++ (encAll ts ++ m :: rest)

/-- An image file: magic number, the name of the format, positions of the header and of the data, whose tree is 12 bytes behind. -/
def IsImageFile (f : List UInt8) (ts : List Tree) : Prop :=
  ∃ (format : Text) (pad a b pos : Nat) (between : List UInt8) (m : UInt8) (rest : List UInt8), IsAscii format ∧
    format.length + pad = 32 ∧ a < 2 ^ 32 ∧ b < 2 ^ 32 ∧ pos < 2 ^ 32 ∧ 48 + between.length = pos + 12 ∧ m ≠ 1 ∧
    f = leBytes 4 52 ++ (ascii format ++ List.replicate pad 0) ++ (leBytes 4 a ++ leBytes 4 b ++ leBytes 4 pos) ++ between ++
      (encAll ts ++ m :: rest)

end Verif.Jeol
