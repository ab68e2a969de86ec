import Verif.Model.Hamamatsu
/-! Specification of C84-C86: comments, images and metadata of Hamamatsu files. -/
namespace Verif.Spec.Hamamatsu
open Verif.Hamamatsu

/-! ### Comments -/

/-- A value in a comment: between quotation marks, or plain. -/
inductive Value where
  | quoted (t : Text)
  | plain (t : Text)

def Value.text : Value → Text
  | .quoted t => t
  | .plain t => t

/-- A value as it is written. -/
def Value.shown : Value → Text
  | .quoted t => '"' :: t ++ ['"']
  | .plain t => t

/-- A section: its name, its entries, and white space at its end. -/
structure Section where
  name : Text
  entries : List (Text × Value)
  ending : Text

def shownEntry (e : Text × Value) : Text := e.1 ++ '=' :: e.2.shown

/-- `key=value,key="value",…`. -/
def body : List (Text × Value) → Text
  | [] => []
  | [e] => shownEntry e
  | e :: e' :: es => shownEntry e ++ ',' :: body (e' :: es)

/-- `[name],key=value,…`. -/
def Section.shown (s : Section) : Text := '[' :: s.name ++ ']' :: ',' :: body s.entries ++ s.ending

/-- The comment of a file. -/
def comment (ss : List Section) : Text := ss.flatMap Section.shown

/-- What can be written as an entry: no brackets; a key has no equality sign, a value between quotation marks has no quotation mark, and a plain value has no comma (and does not begin with a quotation mark). -/
def EntryOk (e : Text × Value) : Prop := '[' ∉ e.1 ∧ '=' ∉ e.1 ∧ '[' ∉ e.2.text ∧
  match e.2 with
  | .quoted t => '"' ∉ t
  | .plain t => ',' ∉ t ∧ t.head? ≠ some '"'

/-- A plain value at the end is not empty, does not end with white space, and then no value has an equality sign. -/
def LastOk (es : List (Text × Value)) : Prop := ∀ k t, es.getLast? = some (k, .plain t) →
  t ≠ [] ∧ (∀ c, t.getLast? = some c → isSpace c = false) ∧ ∀ e ∈ es, '=' ∉ e.2.text

/-- Sections that can be written. -/
def SectionOk (s : Section) : Prop := '[' ∉ s.name ∧ ']' ∉ s.name ∧ (∀ c ∈ s.ending, isSpace c = true) ∧
  (∀ e ∈ s.entries, EntryOk e) ∧ LastOk s.entries ∧ (s.entries.map Prod.fst).Nodup

/-- The names and values of a section. -/
def Section.content (s : Section) : Sec := match s.entries with
  | [] => .text []
  | es => .dict (es.map fun e => (e.1, e.2.text))

/-! ### Images -/

/-- The bytes of a text of ASCII characters. -/
def ascii (t : Text) : List UInt8 := t.map fun c => UInt8.ofNat c.toNat

/-- Characters of comments. -/
def Ascii (t : Text) : Prop := ∀ c ∈ t, 0 < c.toNat ∧ c.toNat < 128

/-- The header of 64 bytes, for an image of `w` times `h` pixels of type `ty` and a comment of `n` characters; the other fields are free (texts of ASCII characters, numbers of 2, 4 and 8 bytes). -/
structure Head where
  magic : List UInt8
  offsetX : Nat
  offsetY : Nat
  images : Nat
  channels : Nat
  channel : Nat
  timestamp : Nat
  info : List UInt8

def HeadOk (h : Head) : Prop := h.magic.length = 2 ∧ (∀ b ∈ h.magic, b < 128) ∧ h.info.length = 34 ∧ ∀ b ∈ h.info, b < 128

def headBytes (h : Head) (n w ht ty : Nat) : List UInt8 :=
  h.magic ++ leBytes 2 n ++ leBytes 2 w ++ leBytes 2 ht ++ leBytes 2 h.offsetX ++ leBytes 2 h.offsetY ++ leBytes 2 ty ++ leBytes 4 h.images ++
    leBytes 2 h.channels ++ leBytes 2 h.channel ++ leBytes 8 h.timestamp ++ h.info

/-- Types of pixels and their sizes. -/
def PixelType (ty bytes : Nat) : Prop := (ty, bytes) ∈ [(0, 1), (2, 2), (3, 4)]

/-- A file: header, comment, pixels row by row, and more bytes (with tables of the axes). -/
def fileBytes (h : Head) (c : Text) (w ht ty bytes : Nat) (px : Nat → Nat → Nat) (rest : List UInt8) : List UInt8 :=
  headBytes h c.length w ht ty ++ ascii c ++ (List.range ht).flatMap (fun i => (List.range w).flatMap fun j => leBytes bytes (px i j)) ++ rest

/-- A table of numbers of single precision at a place of the file. -/
def Table (f : List UInt8) (pos : Nat) (xs : List Rat) : Prop :=
  ∀ k x, xs[k]? = some x → ∃ bits, bits < 256 ^ 4 ∧ x = f32Dec bits ∧ (f.drop (pos + 4 * k)).take 4 = leBytes 4 bits

/-- What the section `Scaling` tells of an axis (`X` or `Y`) of `n` pixels: no calibration, or a table. -/
def Scaled (f : List UInt8) (d : List (Text × Value)) (axis : String) (n : Nat) : Option (List Rat) → Prop
  | none => ∃ v, (("Scaling" ++ axis ++ "Type").toList, v) ∈ d ∧ v.text = ['1']
  | some xs => xs.length = n ∧ (∃ v, (("Scaling" ++ axis ++ "Type").toList, v) ∈ d ∧ v.text = ['2']) ∧
    ∃ pos v, (("Scaling" ++ axis ++ "ScalingFile").toList, v) ∈ d ∧ v.text = '#' :: decChars pos ++ ',' :: decChars n ∧ Table f pos xs

/-- The value of an axis at a pixel: the number of the pixel, or the value of the table. -/
def valueAt (t : Option (List Rat)) (k : Nat) : Option Rat := match t with
  | none => some k
  | some xs => xs[k]?

/-- The value of an axis of the result. -/
def axisAt (a : Axis) (k : Nat) : Option Rat := match a.cal with
  | .points l => l[k]?
  | .uniform o s n => if k < n then some (o + s * k) else none

/-- The table of an axis is read backwards. -/
def Backwards (t : Option (List Rat)) : Prop := ∃ a b r, t = some (a :: b :: r) ∧ b < a

/-- The sum of the squares of the distances from a straight line. -/
def deviation (xs : List Rat) (a b : Rat) : Rat := ((xs.zipIdx).map fun e => (e.1 - (a + b * e.2)) ^ 2).sum

/-! ### Metadata -/

/-- A value at a path of a dictionary. -/
def Within (d : List (Text × M)) : List String → M → Prop
  | [], _ => False
  | [k], v => (k.toList, v) ∈ d
  | k :: ks, v => ∃ d', (k.toList, M.dict d') ∈ d ∧ Within d' ks v

/-- An entry of a section of the comment. -/
def Noted (md : List (Text × Sec)) (sec key : String) (t : Text) : Prop :=
  ∃ d, getKw sec.toList md = some (.dict d) ∧ getKw key.toList d = some t

end Verif.Spec.Hamamatsu
