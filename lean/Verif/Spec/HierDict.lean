import Verif.Model.HierDict
/-!
Specification for C18 (uses only the types `Val`, `Scalar`, `Text` of the model): when two
values are the same, and which values the storage format can represent.
-/
namespace Verif.HierDictSpec
open Verif.HierDict (Val Scalar Text)

mutual
/-- The same Python value: equal atoms, equal lists/tuples element by element, dictionaries with
the same keys and the same values (in any order). -/
def Same : Val → Val → Prop
  | .none, w => w = .none
  | .text s, w => w = .text s
  | .scalar s, w => w = .scalar s
  | .bytes b, w => w = .bytes b
  | .arr t, w => w = .arr t
  | .list l, w => ∃ l', w = .list l' ∧ SameList l l'
  | .tuple l, w => ∃ l', w = .tuple l' ∧ SameList l l'
  | .dict d, w => ∃ d', w = .dict d' ∧ SameDict d d'

/-- The same elements in the same order. -/
def SameList : List Val → List Val → Prop
  | [], l' => l' = []
  | v :: vs, l' => ∃ v' vs', l' = v' :: vs' ∧ Same v v' ∧ SameList vs vs'

/-- The same items, in some order. -/
def SameDict : List (Text × Val) → List (Text × Val) → Prop
  | [], d' => d' = []
  | (k, v) :: rest, d' => ∃ v' rest', d'.Perm ((k, v') :: rest') ∧ Same v v' ∧ SameDict rest rest'
end

/-- Key prefixes with a meaning in the file. -/
def reserved : List Text :=
  ["_sig_".toList, "_list_".toList, "_tuple_".toList, "_bs_".toList, "_datetime_date".toList,
   "_datetime_time".toList, "_ragged_shapes_".toList, "_hspy_AxesManager_".toList]

/-- A key that begins with a number and an underscore, like `3_key`. -/
def Numbered (k : Text) : Prop :=
  ∃ ds rest, ds ≠ [] ∧ (∀ c ∈ ds, '0' ≤ c ∧ c ≤ '9') ∧ k = ds ++ '_' :: rest

/-- Keys without a special meaning. -/
def PlainKey (k : Text) : Prop := (∀ p ∈ reserved, ¬ p <+: k) ∧ ¬ Numbered k

/-- No NUL character. -/
def NoNul (s : Text) : Prop := '\x00' ∉ s

/-- A list of elements of one kind, stored as one array: texts, booleans, 64-bit integers or
floats. -/
def Uniform (l : List Val) : Prop :=
  (∀ v ∈ l, ∃ s, v = .text s ∧ NoNul s) ∨
  (∀ v ∈ l, ∃ b, v = .scalar (.bool b)) ∨
  (∀ v ∈ l, ∃ i : Int, v = .scalar (.int i) ∧ -2 ^ 63 ≤ i ∧ i < 2 ^ 63) ∨
  (∀ v ∈ l, ∃ q, v = .scalar (.float q))

/-- Something that is neither text nor number nor bytes. -/
def Composite : Val → Prop
  | .text _ => False
  | .scalar _ => False
  | .bytes _ => False
  | _ => True

mutual
/-- The values that the format represents faithfully. -/
def Storable : Val → Prop
  | .none => True
  | .text s => s ≠ "_None_".toList ∧ NoNul s
  | .scalar (.int i) => -2 ^ 63 ≤ i ∧ i < 2 ^ 64
  | .scalar _ => True
  | .bytes b => 0 ∈ b
  | .arr _ => True
  | .list l => Uniform l ∨ ((∃ v ∈ l, Composite v) ∧ l.length ≤ 10 ∧ StorableList l)
  | .tuple l => Uniform l ∨ ((∃ v ∈ l, Composite v) ∧ l.length ≤ 10 ∧ StorableList l)
  | .dict d => (d.map Prod.fst).Nodup ∧ StorableDict d

def StorableList : List Val → Prop
  | [] => True
  | v :: vs => Storable v ∧ StorableList vs

def StorableDict : List (Text × Val) → Prop
  | [] => True
  | (k, v) :: rest => PlainKey k ∧ Storable v ∧ StorableDict rest
end

end Verif.HierDictSpec
