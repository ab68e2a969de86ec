import Verif.Model.JeolTree
/-!
JEOL parameter trees: what is stored, byte by byte, and the dictionary a reader should return.
Independent of the parser.
-/
namespace Verif.JeolTree

/-- The content of an entry: a group, numbers of a type, or texts with some NUL bytes behind. -/
inductive Content
  | group
  | nums (ty : Nat) (ns : List Nat)
  | texts (ty : Nat) (ts : List Text) (pad : Nat)

/-- An entry: the bytes of its name, its name, its content and the entries below it. -/
inductive Tree
  | node (raw : List UInt8) (name : Text) (c : Content) (below : List Tree)

def ascii (t : Text) : List UInt8 := t.map fun c => UInt8.ofNat c.toNat

def IsAscii (t : Text) : Prop := ∀ c ∈ t, 0 < c.toNat ∧ c.toNat < 128

/-- The decoder decodes ASCII. -/
def Decodes (dec : List UInt8 → Option Text) : Prop :=
  ∀ t : Text, (∀ c ∈ t, c.toNat < 128) → dec (ascii t) = some t

/-- The types of numbers and their sizes in bytes. -/
def numTypes : List (Nat × Nat) :=
  [(1, 1), (2, 2), (3, 4), (4, 4), (5, 8), (6, 1), (7, 2), (8, 4), (9, 4), (10, 8), (11, 1), (14, 2),
   (65553, 1), (65552, 1)]

def textTypes : List Nat := [12, 13, 20]

/-- Texts separated by NUL. -/
def joinNul : List Text → Text
  | [] => []
  | [t] => t
  | t :: u :: ts => t ++ Char.ofNat 0 :: joinNul (u :: ts)

/-- Type and bytes of a content. -/
def Content.ty : Content → Nat
  | .group => 0
  | .nums ty _ => ty
  | .texts ty _ _ => ty

def Content.bytes : Content → List UInt8
  | .group => []
  | .nums ty ns => ns.flatMap (leBytes ((numTypes.lookup ty).getD 0))
  | .texts _ ts pad => ascii (joinNul ts) ++ List.replicate pad 0

def Tree.head : Tree → List UInt8
  | .node raw _ c _ => leBytes 4 raw.length ++ raw ++ leBytes 4 c.ty ++ leBytes 4 c.bytes.length ++
      c.bytes

mutual
/-- An entry in a file: mark 1, name, type and value, the entries below it, mark -1. -/
def Tree.enc : Tree → List UInt8
  | .node raw name c below => 1 :: ((Tree.node raw name c below).head ++ encAll below ++ [255])
def encAll : List Tree → List UInt8
  | [] => []
  | t :: ts => t.enc ++ encAll ts
end

/-- One element stands for itself. -/
def Content.value : Content → Option Value
  | .group => none
  | .nums ty [n] => some (.num ty n)
  | .nums ty ns => some (.nums ty ns)
  | .texts _ [t] _ => some (.text t)
  | .texts _ ts _ => some (.texts ts)

/-- A name ending with `PAGE` and one more character. -/
def Paged (k : Text) : Prop := ∃ a c, k = a ++ ['P', 'A', 'G', 'E', c]

instance (k : Text) : Decidable (Paged k) :=
  decidable_of_iff (k.reverse.drop 1 |>.take 4 |> (· = ['E', 'G', 'A', 'P'])) (by
    constructor
    · intro h
      rcases hr : k.reverse with _ | ⟨c, t⟩
      · rw [hr] at h; simp at h
      · rw [hr] at h
        simp only [List.drop_one, List.tail_cons] at h
        refine ⟨(t.drop 4).reverse, c, ?_⟩
        have h2 : t = ['E', 'G', 'A', 'P'] ++ t.drop 4 := by
          conv_lhs => rw [← List.take_append_drop 4 t]
          rw [h]
        have h3 : k = (c :: t).reverse := by rw [← hr, List.reverse_reverse]
        rw [h3]
        conv_lhs => rw [h2]
        simp
    · rintro ⟨a, c, rfl⟩
      simp)

/-- The name under which an entry is stored. -/
def Tree.key : Tree → Text
  | .node _ name c _ =>
    match c.value with
    | some (.text t) => if Paged name then name ++ '_' :: t else name
    | _ => name

mutual
/-- What an entry contributes to the dictionary of its parent: groups and pages are dictionaries of
the entries below, counting rates and dead times dictionaries with their value, values of type 14
dictionaries with an index; limits with values are left out; all others are values. -/
def Tree.meaning : Tree → Items
  | .node raw name c below =>
    match c.value with
    | none => [(name, .dict (meanings below))]
    | some v =>
      if Paged name then [((Tree.node raw name c below).key, .dict (meanings below))]
      else if name = "CountRate".toList ∨ name = "DeadTime".toList then
        [(name, .dict (("value".toList, .val v) :: meanings below))]
      else if name = "Limits".toList then []
      else if c.ty = 14 then [(name, .dict (("index".toList, .val v) :: meanings below))]
      else [(name, .val v)]
def meanings : List Tree → Items
  | [] => []
  | t :: ts => t.meaning ++ meanings ts
end

/-- The bytes of a name: ASCII, perhaps with NUL bytes behind; two other forms occur in files. -/
def NameBytes (raw : List UInt8) (name : Text) : Prop :=
  ∃ pad, (name ≠ [] ∧ IsAscii name ∧ raw = ascii name ++ List.replicate pad 0) ∨
    (IsAscii name ∧ raw = ascii name ++ 222 :: List.replicate pad 0) ∨
    (name = "Port".toList ∧ raw = [0xce, 0xdf, 0xb0, 0xc4] ++ List.replicate pad 0)

/-- A content that can be stored. -/
def Content.Good : Content → Prop
  | .group => True
  | .nums ty ns => ∃ w, (ty, w) ∈ numTypes ∧ ∀ n ∈ ns, n < 256 ^ w
  | .texts ty ts _ => ty ∈ textTypes ∧ (∀ t ∈ ts, IsAscii t) ∧
      (ts = [[]] ∨ ∃ t ∈ ts.getLast?, t ≠ [])

/-- A value has nothing below it, and the name of a page is a text. -/
def Content.Place (c : Content) (name : Text) (below : List Tree) : Prop :=
  (name = "Limits".toList → below = []) ∧
  (c.value ≠ none → Paged name → ∃ t, c.value = some (.text t)) ∧
  (c.value ≠ none → ¬ Paged name → name ≠ "CountRate".toList → name ≠ "DeadTime".toList →
    c.ty ≠ 14 → below = [])

/-- The names that an entry gives to its dictionary. -/
def Content.own (c : Content) (name : Text) : List Text :=
  if c.value = none ∨ Paged name then []
  else if name = "CountRate".toList ∨ name = "DeadTime".toList then ["value".toList]
  else if c.ty = 14 then ["index".toList] else []

mutual
/-- A tree that can be stored and is returned: storable names, contents and lengths, different names
within a group, nothing below values or limits. -/
def Tree.Good : Tree → Prop
  | .node raw name c below => NameBytes raw name ∧ c.Good ∧ raw.length < 2 ^ 31 ∧
      c.bytes.length < 2 ^ 31 ∧ c.Place name below ∧
      (c.own name ++ keys below).Nodup ∧ AllGood below
def AllGood : List Tree → Prop
  | [] => True
  | t :: ts => t.Good ∧ AllGood ts
def keys : List Tree → List Text
  | [] => []
  | t :: ts => t.key :: keys ts
end

end Verif.JeolTree
