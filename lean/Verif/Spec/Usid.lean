import Verif.Model.Usid
/-!
What USID files say, and what the signals made of them and written to them have to be: predicates on
the data only, without the functions of the reader and the writer.
-/
namespace Verif.Usid
open Verif

/-- `t` is `s` between blanks, and `s` begins and ends with other characters. -/
def Trimmed (s t : Text) : Prop :=
  (∃ a b : Text, t = a ++ s ++ b ∧ (∀ c ∈ a, isSpace c = true) ∧ ∀ c ∈ b, isSpace c = true) ∧
    (∀ c, s.head? = some c → isSpace c = false) ∧ ∀ c, s.getLast? = some c → isSpace c = false

/-- No bracket in the text. -/
def Plain (t : Text) : Prop := '(' ∉ t ∧ ')' ∉ t ∧ '[' ∉ t ∧ ']' ∉ t

/-- The text is a quantity with units in brackets, or only a quantity. -/
inductive Descriptor : Text → Text → Text → Prop
  | round {q u d q' : Text} : Trimmed q q' → Plain u → Trimmed (q' ++ '(' :: u ++ [')']) d → Descriptor d q u
  | square {q u d q' : Text} : Trimmed q q' → Plain u → '(' ∉ q → Trimmed (q' ++ '[' :: u ++ [']']) d → Descriptor d q u
  | bare {q d : Text} : Trimmed q d → '(' ∉ q → '[' ∉ q → Descriptor d q []

/-- The values are equally spaced. -/
def Uniform (step : ℚ) (vals : List ℚ) : Prop :=
  ∃ start : ℚ, ∀ (i : Nat) v, vals[i]? = some v → v = start + i * step

/-- The slope of equally spaced values is their step, and there is an answer or a complaint for all of them. -/
def SlopeOk (env : Env) : Prop :=
  (∀ vals step, 2 ≤ vals.length → Uniform step vals → env.slope vals = .ok step) ∧
    ∀ vals e, env.slope vals = .error e → 2 ≤ vals.length → e = .valueError

/-- A table of dimensions: the labels and units in any order, one list of values for each. -/
structure Table (t : Dims) (dims : List Dim) : Prop where
  order : ∃ l : List Dim, l.Perm dims ∧ t.labels = l.map (·.name) ∧ t.units = l.map (·.units)
  names : (dims.map (·.name)).Nodup
  values : ∀ d ∈ dims, (d.name, d.values) ∈ t.values ∧ ∀ v, (d.name, v) ∈ t.values → v = d.values

/-- The dataset has the dimensions `pos` and `spec`, in the order of its N-dimensional form, none of them empty. -/
structure Legible (m : Main) (pos spec : List Dim) : Prop where
  posTable : Table m.pos pos
  specTable : Table m.spec spec
  labels : m.labels = pos.map (·.name) ++ spec.map (·.name)
  shape : m.shape = pos.map (·.values.length) ++ spec.map (·.values.length)
  filled : ∀ d ∈ pos ++ spec, d.values ≠ []
  reshaped : m.reshaped = true

/-- The axis shows the dimension. -/
structure ShowsDim (env : Env) (d : Dim) (a : Axis) : Prop where
  name : a.name = d.name
  units : a.units = d.units
  size : a.size = d.values.length
  uniform : ∀ step, Uniform step d.values → ∀ (i : Nat) v, d.values[i]? = some v → v = a.offset + i * a.scale
  other : ∀ e, env.slope d.values = .error e → a.scale = 1 ∧ a.offset = 0
  slope : ∀ s, env.slope d.values = .ok s → a.scale = s ∧ d.values.head? = some a.offset

/-- The part of a path after the last slash. -/
def Ends (path last : Text) : Prop := '/' ∉ last ∧ (path = last ∨ ∃ a, path = a ++ '/' :: last)

/-- The signal shows the numbers of a main dataset. -/
structure ShowsData (env : Env) (f : File) (m : Main) (dims : List Dim) (numbers : List ℚ) (s : Sig) : Prop where
  axes : List.Forall₂ (ShowsDim env) (dims.filter fun d => d.values.length ≠ 1) s.axes
  shape : s.shape = s.axes.map (·.size)
  data : ∀ idx, InBounds m.shape idx → s.data[flatIndex s.shape (squeezeIdx m.shape idx)]? = numbers[flatIndex m.shape idx]?
  count : s.data.length = numbers.length
  filename : s.filename = f.name
  path : s.path = m.path
  title : Ends m.path s.title

/-- The signals show the main dataset: one signal, or one for each part of a compound type. -/
def ShowsMain (env : Env) (f : File) (m : Main) (dims : List Dim) (l : List Sig) : Prop :=
  match m.data with
  | .plain data => ∃ s, l = [s] ∧ ShowsData env f m dims data s ∧ s.signalType = [] ∧
      ∀ q u, Descriptor m.descriptor q u → s.quantity = q ∧ s.units = u
  | .compound parts => List.Forall₂ (fun p s => ShowsData env f m dims p.2 s ∧
      (∀ q u, Descriptor p.1 q u → s.quantity = q ∧ s.units = u) ∧
      ∀ q u, Descriptor m.descriptor q u → s.signalType = q) parts l

/-! ### Writing -/

/-- The name of an axis in the file: its own without surrounding blanks, or one made of its number. -/
def NameOf (kind : Text) (i : Nat) (a : WAxis) (n : Text) : Prop :=
  (∃ t, a.name = some t ∧ n ≠ [] ∧ Trimmed n t) ∨
    ((a.name = none ∨ ∃ t, a.name = some t ∧ ∀ c ∈ t, isSpace c = true) ∧ n = kind ++ "_Dim_".toList ++ (toString i).toList)

/-- The units of an axis in the file. -/
def UnitsOf (a : WAxis) (n : Text) : Prop :=
  (∃ t, a.units = some t ∧ n ≠ [] ∧ Trimmed n t) ∨
    ((a.units = none ∨ ∃ t, a.units = some t ∧ ∀ c ∈ t, isSpace c = true) ∧ n = "a. u.".toList)

/-- Axes of one kind from the slowest to the fastest, with their lengths and with the names in the file; the fastest has the number 0. -/
def Named (kind : Text) : List (WAxis × Nat) → List Text → Prop
  | [], [] => True
  | (a, _) :: l, n :: ns => NameOf kind l.length a n ∧ Named kind l ns
  | _, _ => False

/-- The signal has navigation axes `nav` before signal axes `sig`, with their lengths. -/
structure Writable (s : WSig) (nav sig : List (WAxis × Nat)) : Prop where
  axes : s.axes = nav.map Prod.fst ++ sig.map Prod.fst
  shape : s.shape = nav.map Prod.snd ++ sig.map Prod.snd
  navs : ∀ a ∈ nav, a.1.navigate = true
  sigs : ∀ a ∈ sig, a.1.navigate = false
  lengths : ∀ a ∈ nav ++ sig, a.2 ≠ 0

/-- The axis that was read shows the axis that was written under the name `p.2`. -/
structure ShowsAxis (p : (WAxis × Nat) × Text) (a : Axis) : Prop where
  name : a.name = p.2
  units : UnitsOf p.1.1 a.units
  size : a.size = p.1.2
  scale : a.scale = p.1.1.scale
  offset : a.offset = p.1.1.offset

/-- A value at the end of a path of keys. -/
inductive LeafAt : List (Text × Tree) → List Text → V → Prop
  | leaf {d k v} : (k, Tree.leaf v) ∈ d → LeafAt d [k] v
  | node {d k e ks v} : (k, Tree.node e) ∈ d → LeafAt e ks v → LeafAt d (k :: ks) v

/-- All keys, at all levels, are nonempty, without dashes, and different from the others of their level. -/
inductive CleanKeys : List (Text × Tree) → Prop
  | mk {d : List (Text × Tree)} : (d.map Prod.fst).Nodup → (∀ k ∈ d.map Prod.fst, k ≠ [] ∧ '-' ∉ k) →
      (∀ k e, (k, Tree.node e) ∈ d → CleanKeys e) → CleanKeys d

end Verif.Usid
