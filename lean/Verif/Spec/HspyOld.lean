import Verif.Spec.HierDict
/-! Specification for C131: values of nested dictionaries by their path. -/
namespace Verif.HspyOldSpec
open Verif.HierDict (Val Scalar Text)

/-- The value under a key. -/
def find (k : Text) : List (Text × Val) → Option Val
  | [] => none
  | (k', v) :: rest => if k' = k then some v else find k rest

/-- The items of a value that is a dictionary. -/
def items : Option Val → List (Text × Val)
  | some (.dict d) => d
  | _ => []

/-- The value at a path `a.b.c`. -/
def atPath : List Text → List (Text × Val) → Option Val
  | [], _ => none
  | [k], d => find k d
  | k :: ks, d => atPath ks (items (find k d))

end Verif.HspyOldSpec
