import Verif.Model.Unpickle
/-! Specification of C91: which names a pickle may use. -/
namespace Verif.Spec.Unpickle
open Verif.Unpickle

/-- The names that the documentation lists. -/
def Allowed (module name : Text) : Prop :=
  (module = "numpy._core.multiarray".toList ∨ module = "numpy.core.multiarray".toList) ∧ (name = "_reconstruct".toList ∨ name = "scalar".toList) ∨
  module = "numpy".toList ∧ (name = "ndarray".toList ∨ name = "dtype".toList) ∨ module = "_codecs".toList ∧ name = "encode".toList

/-- Objects in which only allowed names occur. -/
inductive Good : Obj → Prop
  | text (t : Text) : Good (.text t)
  | data (n : Nat) : Good (.data n)
  | glob {m n : Text} : Allowed m n → Good (.glob m n)
  | box {l : List Obj} : (∀ o ∈ l, Good o) → Good (.box l)
  | result {n : Nat} {l : List Obj} : (∀ o ∈ l, Good o) → Good (.result n l)

/-- Allowed names do not make others appear: calls and methods of good objects return good objects. -/
structure Closed (w : World) : Prop where
  call : ∀ f args r, Good f → (∀ a ∈ args, Good a) → w.call f args = some r → Good r
  method : ∀ o m args r, Good o → (∀ a ∈ args, Good a) → w.method o m args = some r → Good r

/-- Only allowed names are looked up, called, used as arguments or asked for methods. -/
def Safe : Event → Prop
  | .lookup m n => Allowed m n
  | .call f args => Good f ∧ ∀ a ∈ args, Good a
  | .method o _ args => Good o ∧ ∀ a ∈ args, Good a

/-- The names that an instruction asks for, in a machine. -/
inductive Asks (w : World) (s : St) : Op → Text → Text → Prop
  | global (m n : Text) : Asks w s (.global m n) m n
  | inst (m n : Text) : Asks w s (.inst m n) m n
  | stack {m n : Text} {t : List Obj} : s.stack = .text n :: .text m :: t → Asks w s .stackGlobal m n
  | ext {c : Nat} {m n : Text} : w.registry c = some (m, n) → Asks w s (.ext c) m n

end Verif.Spec.Unpickle
