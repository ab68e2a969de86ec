import Verif.Model.Tia
import Verif.Spec.Bytes
/-! Specification of C64-C67: the layout of `.ser` files, calibrations, and objects in `.emi` files. Of the model only
types are used. -/
namespace Verif.Spec.Tia
open Verif.Tia Verif.BytesSpec

/-- Bytes `o` to `o + b.length` of the file are `b`. -/
def Part (f : Bytes) (o : Nat) (b : Bytes) : Prop := ∃ pre post, f = pre ++ b ++ post ∧ pre.length = o

/-- The little-endian integer of `w` bytes at `o` is `v`. -/
def Holds (f : Bytes) (o w v : Nat) : Prop := ∃ b, Part f o b ∧ b.length = w ∧ stored false b = v

/-- `b` without null bytes at the end. -/
def Trimmed (b t : Bytes) : Prop := (∃ n, b = t ++ List.replicate n 0) ∧ t.getLast? ≠ some 0

/-- The dimension array from `p` on. -/
def DimsHold (f : Bytes) : Nat → List Dim → Prop
  | _, [] => True
  | p, d :: ds => ∃ descr units : Bytes, Holds f p 4 d.size ∧ Holds f (p + 4) 8 d.offset ∧ Holds f (p + 12) 8 d.delta ∧
      Holds f (p + 20) 4 d.element ∧ Holds f (p + 24) 4 descr.length ∧ Part f (p + 28) descr ∧
      Holds f (p + 28 + descr.length) 4 units.length ∧ Part f (p + 32 + descr.length) units ∧ Trimmed units d.units ∧
      DimsHold f (p + 32 + descr.length + units.length) ds

/-- Offsets have four bytes up to version 0x210. -/
def width (version : Nat) : Nat := if version ≤ 0x210 then 4 else 8

/-- The header of the file is `h`. -/
def SerFile (f : Bytes) (h : Header) : Prop :=
  Holds f 4 2 h.version ∧ Holds f 6 4 h.dataType ∧ Holds f 10 4 h.tagType ∧ Holds f 14 4 h.total ∧
  Holds f 18 4 h.valid ∧ Holds f 22 (width h.version) h.arrayOffset ∧
  Holds f (22 + width h.version) 4 h.dims.length ∧ DimsHold f (26 + width h.version) h.dims

/-- Bytes of a value of a data type. -/
def bytesOf (ty : Nat) : Option Nat := [none, some 1, some 2, some 4, some 1, some 2, some 4, some 4, some 8, some 8, some 16][ty]?.join

/-- The element at `o` of a file has the layout `L`. -/
def HasLayout (f : Bytes) (h : Header) (o : Nat) (L : Layout) : Prop :=
  (∃ ty, bytesOf ty = some L.item ∧
    if h.dataType = 0x4120 then
      L.kind = .spectrum ∧ L.front = 26 ∧ L.y = 1 ∧ Holds f (o + 20) 2 ty ∧ Holds f (o + 22) 4 L.x
    else L.kind = .image ∧ L.front = 50 ∧ Holds f (o + 40) 2 ty ∧ Holds f (o + 42) 4 L.x ∧ Holds f (o + 46) 4 L.y) ∧
  L.tag = if h.tagType = 0x4142 then 24 else 8

/-- Calibration of an axis in a file. -/
structure Cal where
  offset : Rat
  delta : Rat
  element : Nat
  size : Nat
  units : Option Text
  deriving DecidableEq

/-- The position of index `i` in the units of the file: the offset is that of the calibration element. -/
def Cal.at (c : Cal) (i : Nat) : Rat := c.offset + ((i : Rat) - c.element) * c.delta

/-- One unit of the file in units of the result, and the name of these. -/
def unit (u : Option Text) : Rat × Option Text :=
  if u = some "meters".toList then (1000000000, some "nm".toList)
  else if u = some "1/meters".toList then (1 / 1000000000, some "1 / nm".toList)
  else (1, u)

/-- Calibration of a dimension. -/
def dimCal (f8 : Nat → Rat) (d : Dim) : Cal :=
  ⟨f8 d.offset, f8 d.delta, d.element, d.size,
    if d.units = [] then none else some (d.units.map fun b => Char.ofNat b.toNat)⟩

end Verif.Spec.Tia
