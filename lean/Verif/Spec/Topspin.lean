import Verif.Model.Topspin
/-! Specification of C89 and C90: TopSpin files. -/
namespace Verif.Spec.Topspin
open Verif.Topspin
open Verif.Xml (El)

/-- A scan of `ny` rows of `nx` positions, row by row, in equal steps. -/
structure Raster (fs : List Frame) (nx ny : Nat) (x0 y0 dx dy : Rat) : Prop where
  px : 1 ≤ nx
  py : 1 ≤ ny
  length : fs.length = nx * ny
  hx : 0 < dx
  hy : 0 < dy
  at' : ∀ j i, j < ny → i < nx → ∃ f, fs[j * nx + i]? = some f ∧ f.x = x0 + i * dx ∧ f.y = y0 + j * dy

/-- A length in nanometres, rounded to picometres. -/
def Nm (metres : Rat) (s : Option Rat) : Prop := ∃ v, s = some v ∧ |v - metres * 10 ^ 9| ≤ 1 / 2000 ∧ ((∃ n : Int, metres = n / 10 ^ 12) → v = metres * 10 ^ 9)

/-- A number or a text, and the value that it stands for. -/
inductive Scalar (lib : Lib) : El → Val → Prop
  | double {e : El} {t : Text} {r : Rat} : getKw "Serializer".toList e.attrs = some "Double".toList → e.text = some t → lib.float t = .ok r → Scalar lib e (.num r)
  | string {e : El} {t : Text} : getKw "Serializer".toList e.attrs = some "String".toList → e.text = some t → Scalar lib e (.str t)
  | int {e : El} {t : Text} {i : Int} : getKw "Serializer".toList e.attrs = some "Int32".toList → e.text = some t → lib.int t = .ok i → Scalar lib e (.int i)
  | uint {e : El} {t : Text} {i : Int} : getKw "Serializer".toList e.attrs = some "UInt32".toList → e.text = some t → lib.int t = .ok i → Scalar lib e (.int i)

/-- A value of an item: a number or a text, or a record of such. -/
inductive Means (lib : Lib) : El → Val → Prop
  | scalar {e : El} {v : Val} : Scalar lib e v → Means lib e v
  | record {e : El} {s : Text} {vs : List Val} : getKw "Serializer".toList e.attrs = some s →
      s ∉ ["Boolean".toList, "Double".toList, "String".toList, "UInt32".toList, "Int32".toList] →
      List.Forall₂ (Scalar lib) e.children vs → (e.children.map El.tag).Nodup → Means lib e (.dict ((e.children.map El.tag).zip vs))

/-- An item: a name and a value. -/
def Item (lib : Lib) (e : El) (kv : Text × Val) : Prop := ∃ n v, e.children = [n, v] ∧ n.text = some kv.1 ∧ Means lib v kv.2

/-- A branch of the metadata: items with different names, or a text. -/
inductive Entry (lib : Lib) : El → Branch → Prop
  | items {e : El} {d : List (Text × Val)} : e.tag ∈ ["ProcedureData".toList, "HardwareSettings".toList] → List.Forall₂ (Item lib) e.children d → (d.map Prod.fst).Nodup → Entry lib e (.dict d)
  | text {e : El} : e.tag ∉ ["ProcedureData".toList, "HardwareSettings".toList] → Entry lib e (.text e.text)

/-- A name as Windows writes identifiers: groups of 8, 4, 4, 4 and 12 characters. -/
def Guid (n : Text) : Prop := ∃ a b c d e : Text, a.length = 8 ∧ b.length = 4 ∧ c.length = 4 ∧ d.length = 4 ∧ e.length = 12 ∧
  (∀ p ∈ [a, b, c, d, e], '-' ∉ p) ∧ n = a ++ '-' :: (b ++ '-' :: (c ++ '-' :: (d ++ '-' :: e)))

end Verif.Spec.Topspin
