import Verif.Spec.HierDict
import Mathlib.Data.List.Forall2
/-!
Specification for C129 and C130: what it means that a signal was saved. Uses only the values of
`Model/HierDict.lean`; what is handed to the writer and what the reader returns are described by
their fields.
-/
namespace Verif.HspyFileSpec
open Verif.HierDict (Val Scalar Text)
open Verif.HierDictSpec

abbrev Dict := List (Text × Val)

/-- A signal as it is handed to the writer. -/
structure Given where
  package : Text
  packageVersion : Text
  axes : List Dict
  metadata : Dict
  originalMetadata : Dict
  learningResults : Dict
  attributes : Dict
  models : Dict
  data : Nat

/-- A signal as it is returned by the reader. -/
structure Returned where
  package : Text
  packageVersion : Text
  axes : List Dict
  metadata : Dict
  originalMetadata : Dict
  attributes : Dict
  models : Dict
  data : Nat

/-- The metadata have a title that is a text other than `__unnamed__`. -/
def Titled (metadata : Dict) (title : Text) : Prop :=
  title ≠ "__unnamed__".toList ∧ ∃ d, ("General".toList, Val.dict d) ∈ metadata ∧
    ("title".toList, Val.text title) ∈ d

/-- A signal that the format can hold: every dictionary storable, one axis with `navigate` for
every dimension of the data, and models that are dictionaries without an item `_signal`. -/
structure Valid (shape : Nat → List Nat) (title : Text) (s : Given) : Prop where
  axes : s.axes.length = (shape s.data).length
  axis : ∀ a ∈ s.axes, Storable (.dict a) ∧ "navigate".toList ∈ a.map Prod.fst
  metadata : Storable (.dict s.metadata)
  originalMetadata : Storable (.dict s.originalMetadata)
  learningResults : Storable (.dict s.learningResults)
  attributes : Storable (.dict s.attributes)
  models : Storable (.dict s.models)
  model : ∀ m ∈ s.models, ∃ d, m.2 = .dict d ∧ "_signal".toList ∉ d.map Prod.fst
  title : Titled s.metadata title

/-- The attributes returned: those given, and in addition `_lazy` and `learning_results`. -/
def SameAttributes (lazy : Bool) (learning given returned : Dict) : Prop :=
  (returned.map Prod.fst).Nodup ∧
  ("_lazy".toList, Val.scalar (.bool lazy)) ∈ returned ∧
  (∃ d, ("learning_results".toList, Val.dict d) ∈ returned ∧ SameDict learning d) ∧
  (∀ k v, (k, v) ∈ given → k ≠ "_lazy".toList → k ≠ "learning_results".toList →
    ∃ v', (k, v') ∈ returned ∧ Same v v') ∧
  ∀ k ∈ returned.map Prod.fst, k = "_lazy".toList ∨ k = "learning_results".toList ∨
    k ∈ given.map Prod.fst

/-- The signal returned is the signal given. -/
structure Saved (lazy : Bool) (s : Given) (r : Returned) : Prop where
  data : r.data = s.data
  axes : List.Forall₂ SameDict s.axes r.axes
  metadata : SameDict s.metadata r.metadata
  originalMetadata : SameDict s.originalMetadata r.originalMetadata
  attributes : SameAttributes lazy s.learningResults s.attributes r.attributes
  package : r.package = s.package
  packageVersion : r.packageVersion = s.packageVersion
  models : SameDict s.models r.models

end Verif.HspyFileSpec
