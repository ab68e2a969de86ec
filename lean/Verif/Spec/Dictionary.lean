import Verif.Model.Dictionary
/-! Specification of metadata trees: leaves and their paths (uses only the tree type). -/
namespace Verif.DictionarySpec
open Verif.Dictionary (Tree)

mutual
/-- The leaves of a tree in order, each with its path of keys. -/
def leaves : List (String × Tree String) → List (List String × String)
  | [] => []
  | (k, t) :: rest => leavesItem k t ++ leaves rest

def leavesItem (k : String) : Tree String → List (List String × String)
  | .node sub => (leaves sub).map fun q => (k :: q.1, q.2)
  | .leaf v => [([k], v.getD "None")]
end

/-- One line: the prefix and the keys joined by `nsep`, `vsep`, the value, end of line. -/
def line (root nsep vsep : String) (path : List String) (value : String) : String :=
  path.foldl (fun s k => s ++ nsep ++ k) root ++ vsep ++ value ++ "\n"

/-- Neither path is an initial part of the other. -/
def Apart (p q : List String) : Prop := ¬ p <+: q ∧ ¬ q <+: p

end Verif.DictionarySpec
