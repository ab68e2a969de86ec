import Verif.Model.Nexus
/-!
What NeXus files are, for C122 to C125: independent of the functions that read and write them.
-/
namespace Verif.Nexus
open Verif

/-! ### Objects of a file -/

/-- An object and what is behind its links; with `hard` soft links are not followed. -/
inductive Behind (hard : Bool) : Node → Node → Prop
  | same (n : Node) : Behind hard n n
  | soft {p : Text} {n m : Node} (h : hard = false) (b : Behind hard n m) : Behind hard (.soft p n) m
  | ext {n m : Node} (b : Behind hard n m) : Behind hard (.ext n) m

/-- The object at a path from a group, with the group that it is in. -/
inductive At (hard : Bool) : Attrs → Kids → List Text → Node → Attrs → Kids → Prop
  | last {a : Attrs} {l : Kids} {k : Text} {n m : Node} (h : (k, n) ∈ l) (b : Behind hard n m) : At hard a l [k] m a l
  | step {a a' qa : Attrs} {l l' qk : Kids} {k : Text} {n m : Node} {p : List Text} (h : (k, n) ∈ l) (b : Behind hard n (.grp a' l'))
      (r : At hard a' l' p m qa qk) : At hard a l (k :: p) m qa qk

/-- A path as text. -/
def pathText : List Text → Text
  | [] => []
  | k :: p => '/' :: k ++ pathText p

/-- The attributes of NXdata with a signal. -/
def NXdata (a : Attrs) : Prop :=
  (getKw "NX_class".toList a = some (.bytes "NXdata".toList) ∨ getKw "NX_class".toList a = some (.str "NXdata".toList)) ∧
  ∃ v, getKw "signal".toList a = some v

/-- No group within this one has an attribute `target`. -/
inductive NoTarget : Node → Prop
  | ds (a : Attrs) (v : Leaf) : NoTarget (.ds a v)
  | grp {a : Attrs} {l : Kids} (h : getKw "target".toList a = none) (r : ∀ e ∈ l, NoTarget e.2) : NoTarget (.grp a l)
  | soft {p : Text} {n : Node} (r : NoTarget n) : NoTarget (.soft p n)
  | ext {n : Node} (r : NoTarget n) : NoTarget (.ext n)

/-- All names in a group differ and have no slash. -/
inductive Distinct : Node → Prop
  | ds (a : Attrs) (v : Leaf) : Distinct (.ds a v)
  | grp {a : Attrs} {l : Kids} (h : (l.map Prod.fst).Nodup) (s : ∀ e ∈ l, '/' ∉ e.1 ∧ e.1 ≠ []) (r : ∀ e ∈ l, Distinct e.2) : Distinct (.grp a l)
  | soft {p : Text} {n : Node} (r : Distinct n) : Distinct (.soft p n)
  | ext {n : Node} (r : Distinct n) : Distinct (.ext n)

/-- Paths that are asked for: all, or those that are given, or those with one of the keys in them. -/
def Wanted (keys paths : Option (List Text)) (p : Text) : Prop :=
  (keys = none ∧ paths = none) ∨ (∃ l, paths = some l ∧ p ∈ l) ∨ ∃ l, keys = some l ∧ ∃ k ∈ l, k <:+: p

/-- The keys of an argument. -/
def Keys : Arg → Option (List Text) → Prop
  | .none, k => k = none
  | .one t, k => k = some [t]
  | .many l, k => k = some l
  | .other, _ => False

/-! ### Signals -/

/-- The dataset that the attribute `signal` names. -/
inductive SignalOf (a : Attrs) (l : Kids) (v : Leaf) : Prop
  | text {t : Text} {n : Node} {b : Attrs} (h : getKw "signal".toList a = some (.bytes t) ∨ getKw "signal".toList a = some (.str t))
      (hn : ∃ c ∈ t, isDigit c = false ∧ c ≠ '+' ∧ c ≠ '-' ∧ c ≠ '_' ∧ isSpace c = false) (m : getKw t l = some n) (b : Behind false n (.ds b v)) : SignalOf a l v
  | number {q : ℚ} {n : Node} {b : Attrs} (h : getKw "signal".toList a = some (.num q)) (m : getKw "data".toList l = some n)
      (b : Behind false n (.ds b v)) : SignalOf a l v

/-- The title of a signal. -/
def Title (t : Text) (s : Sig) : Prop :=
  ∃ d, getKw "General".toList s.metadata = some (.dict d) ∧ getKw "title".toList d = some (.str t)

/-! ### Axes -/

/-- Values in equal steps. -/
def evenly (o s : ℚ) (n : Nat) : List ℚ := (List.range n).map fun (i : Nat) => o + s * (i : ℚ)

/-- The units of an axis. -/
def Units (a : Attrs) (u : R) : Prop :=
  (getKw "units".toList a = none ∧ u = .str []) ∨ (∃ t, getKw "units".toList a = some (.str t) ∧ u = .str t) ∨
  ∃ t, getKw "units".toList a = some (.bytes t) ∧ u = .str t ∧ '\x00' ∉ t ∧ ∀ c, t.getLast? = some c → isSpace c = false

/-- Which dimension of the array an axis is for: the attribute `…_indices`, or its place in the list. -/
def Dimension (a : Attrs) (k : Text) (i j : Nat) : Prop :=
  (getKw (k ++ "_indices".toList) a = none ∧ j = i) ∨ getKw (k ++ "_indices".toList) a = some (.num j) ∨
  ∃ sh l, getKw (k ++ "_indices".toList) a = some (.nums sh ((j : ℚ) :: l))

/-- The axes of a list of names: a dot is an axis without name and values; the values of the others are evenly spaced and ascend, or there is one value. -/
inductive Rows (shape : List Nat) (a : Attrs) (l : Kids) : Nat → List Text → List Nat → List Ax → Prop
  | nil (i : Nat) : Rows shape a l i [] [] []
  | dot {i j n : Nat} {names : List Text} {js : List Nat} {xs : List Ax} (hn : shape[j]? = some n) (r : Rows shape a l (i + 1) names js xs) :
      Rows shape a l i (['.'] :: names) (j :: js) (⟨n, j, none, 1, 0, some (.str []), false⟩ :: xs)
  | named {i j n m : Nat} {o s : ℚ} {k : Text} {names : List Text} {js : List Nat} {xs : List Ax} {nd : Node} {b : Attrs} {u : R} (hk : k ≠ ['.'])
      (hn : shape[j]? = some n) (hd : Dimension a k i j) (hg : getKw k l = some nd) (hb : Behind false nd (.ds b (.nums [m] (evenly o s m)))) (hu : Units b u)
      (h2 : 2 ≤ m) (hs : 0 < s) (r : Rows shape a l (i + 1) names js xs) : Rows shape a l i (k :: names) (j :: js) (⟨n, j, some k, s, o, some u, true⟩ :: xs)
  | single {i j : Nat} {o : ℚ} {k : Text} {names : List Text} {js : List Nat} {xs : List Ax} {nd : Node} {b : Attrs} {u : R} (hk : k ≠ ['.'])
      (hn : shape[j]? = some 1) (hd : Dimension a k i j) (hg : getKw k l = some nd) (hb : Behind false nd (.ds b (.nums [1] [o]))) (hu : Units b u)
      (r : Rows shape a l (i + 1) names js xs) : Rows shape a l i (k :: names) (j :: js) (⟨1, j, some k, 1, o, some u, true⟩ :: xs)

/-- The attribute with the names of the axes. -/
def Names (a : Attrs) (names : List Text) : Prop :=
  (∃ sh, getKw "axes".toList a = some (.objs sh names)) ∨
  (∃ sh, getKw "axes".toList a = some (.texts sh names) ∧ ∀ k ∈ names, '\x00' ∉ k ∧ ∀ c, k.getLast? = some c → isSpace c = false)

/-- A text attribute. -/
def Says (a : Attrs) (k t : String) : Prop := getKw k.toList a = some (.str t.toList) ∨ getKw k.toList a = some (.bytes t.toList)

/-- The last axes are those of the signal. -/
def lastAxes (k : Nat) (xs : List Ax) : List Ax := xs.mapIdx fun i x => { x with navigate := decide (i + k < xs.length) }

/-- Which axes are those of the signal. -/
inductive Marked (a : Attrs) (xs : List Ax) : List Ax → Prop
  | asis (h : getKw "interpretation".toList a = none) : Marked a xs xs
  | spectrum (h : Says a "interpretation" "spectrum") (h1 : 1 ≤ xs.length) : Marked a xs (lastAxes 1 xs)
  | image (h : Says a "interpretation" "image") (h2 : 2 ≤ xs.length) : Marked a xs (lastAxes 2 xs)

/-! ### Writing -/

/-- An axis that comes back, for a dimension of size `n`. -/
inductive GoodAxis (n : Nat) : WAxis → Prop
  | named {k : Text} {u : Option Text} {nav : Bool} {s o : ℚ} (hk : k ≠ ['.'] ∧ k ≠ "data".toList) (hs : '/' ∉ k ∧ k ≠ [])
      (hc : '\x00' ∉ k ∧ ∀ c, k.getLast? = some c → isSpace c = false) (h : 2 ≤ n ∧ 0 < s ∨ n = 1 ∧ s = 1) : GoodAxis n ⟨some k, u, nav, .uniform s o n⟩
  | unnamed {u : Option Text} {nav : Bool} (h : u.getD [] = []) : GoodAxis n ⟨none, u, nav, .uniform 1 0 n⟩

/-- The axis that was written, as it is read: units that are not given are empty. -/
def comesBack (i : Nat) (w : WAxis) : Ax :=
  match w.kind with
  | .uniform s o n => ⟨n, i, w.name, s, o, some (.str (w.units.getD [])), w.navigate⟩
  | _ => ⟨0, i, w.name, 1, 0, none, w.navigate⟩

/-- The signal axes are the last one or two, or those without a name if there are more or none. -/
def GoodOrder (l : List WAxis) : Prop :=
  (∃ k, (k = 1 ∨ k = 2) ∧ k ≤ l.length ∧ ∀ (i : Nat) w, l[i]? = some w → w.navigate = decide (i + k < l.length)) ∨
  ((∀ w ∈ l, w.navigate = w.name.isSome) ∧ (l.filter fun w => !w.navigate).length ≠ 1 ∧ (l.filter fun w => !w.navigate).length ≠ 2)

/-- Axes that come back. -/
structure GoodAxes (shape : List Nat) (l : List WAxis) : Prop where
  length : l.length = shape.length
  axes : ∀ (i : Nat) w n, l[i]? = some w → shape[i]? = some n → GoodAxis n w
  names : (l.filterMap (·.name)).Nodup
  order : GoodOrder l
  nonempty : l ≠ []

/-- No dictionary within the value has the class of NXdata. -/
inductive Plain : M → Prop
  | none : Plain .none
  | num (q : ℚ) : Plain (.num q)
  | npnum (q : ℚ) : Plain (.npnum q)
  | str (t : Text) : Plain (.str t)
  | bytes (t : Text) : Plain (.bytes t)
  | nums (s : List Nat) (l : List ℚ) : Plain (.nums s l)
  | texts (l : List Text) : Plain (.texts l)
  | dict {d : MDict} (h : ("NX_class".toList, M.str "NXdata".toList) ∉ d ∧ ("NX_class".toList, M.bytes "NXdata".toList) ∉ d) (r : ∀ e ∈ d, Plain e.2) : Plain (.dict d)
  | list {l : List MDict} (r : ∀ d ∈ l, Plain (.dict d)) : Plain (.list l)

/-- The name of the group for a signal: its title, or its number if it has none. -/
inductive NameOf (i : Nat) (md : MDict) : Text → Prop
  | title {g : MDict} {t : Text} (hg : getKw "General".toList md = some (.dict g)) (ht : getKw "title".toList g = some (.str t)) (hs : '/' ∉ t) (h0 : t ≠ [] ∧ t ≠ ['.'])
      (hu : ¬ "__".toList <+: t) (ha : t ≠ "auxiliary".toList) : NameOf i md t
  | unnamed (h : getKw "General".toList md = none ∨ ∃ g, getKw "General".toList md = some (.dict g) ∧ getKw "title".toList g = none) :
      NameOf i md ("unnamed__".toList ++ (toString i).toList)

/-- A signal that comes back. -/
structure GoodSignal (i : Nat) (s : WSig) (name : Text) : Prop where
  axes : GoodAxes s.data.shape s.axes
  name : NameOf i s.metadata name
  metadata : Plain (.dict s.metadata)
  original : Plain (.dict s.original)
  learning : Plain (.dict s.learning)

/-! ### Metadata -/

/-- Names in metadata that come back. -/
def GoodKey (k : Text) : Prop :=
  '/' ∉ k ∧ k ≠ [] ∧ k ≠ ['.'] ∧ k ≠ "attrs".toList ∧ k ≠ "value".toList ∧ ¬ "keys".toList <+: k

/-- Values that come back: numbers, texts, arrays with at least two elements and dictionaries of such. -/
inductive Good : M → Prop
  | num (q : ℚ) : Good (.num q)
  | str {t : Text} (h : '\x00' ∉ t ∧ ∀ c, t.getLast? = some c → isSpace c = false) : Good (.str t)
  | nums {s : List Nat} {l : List ℚ} (h : 2 ≤ s.prod) : Good (.nums s l)
  | texts {l : List Text} (h : 2 ≤ l.length) (ha : ∀ t ∈ l, ∀ c ∈ t, c.toNat < 128) : Good (.texts l)
  | dict {d : MDict} (hn : (d.map Prod.fst).Nodup) (hk : ∀ e ∈ d, GoodKey e.1) (r : ∀ e ∈ d, Good e.2) : Good (.dict d)

/-- The same value: lists of texts are arrays of byte strings; entries that are skipped are not there. -/
inductive Same (skip : List Text) : M → R → Prop
  | num (q : ℚ) : Same skip (.num q) (.num q)
  | str (t : Text) : Same skip (.str t) (.str t)
  | nums (s : List Nat) (l : List ℚ) : Same skip (.nums s l) (.nums s l)
  | texts (l : List Text) : Same skip (.texts l) (.texts [l.length] l)
  | dict {d : MDict} {r : Dict} (h : ∀ k v w, getKw k d = some v → getKw k r = some w → Same skip v w)
      (hs : ∀ k v, getKw k d = some v → k ∉ skip → ∃ w, getKw k r = some w) (hn : ∀ k, getKw k d = none ∨ k ∈ skip → getKw k r = none) : Same skip (.dict d) (.dict r)

/-- The dictionary at the top, which has the class of its group in addition. -/
structure SameTop (skip : List Text) (d : MDict) (r : Dict) : Prop where
  values : ∀ k v w, k ≠ "attrs".toList → getKw k d = some v → getKw k r = some w → Same skip v w
  there : ∀ k v, getKw k d = some v → k ∉ skip → ∃ w, getKw k r = some w
  absent : ∀ k, k ≠ "attrs".toList → getKw k d = none ∨ k ∈ skip → getKw k r = none

/-- A signal with metadata that come back. -/
structure GoodMeta (s : WSig) : Prop where
  metadata : Good (.dict s.metadata)
  original : Good (.dict s.original)
  learning : Good (.dict s.learning)
  marked : ∀ e ∈ s.original, ¬ "_sig_".toList <+: e.1

/-- The metadata that were written: all but `General`, of which the title is left. -/
structure MetaBack (o : WOpts) (s : WSig) (sig : Sig) : Prop where
  metadata : ∀ k v, k ≠ "General".toList → getKw k s.metadata = some v → ∃ w, getKw k sig.metadata = some w ∧ Same [] v w
  nomore : ∀ k, k ≠ "General".toList → k ≠ "attrs".toList → getKw k s.metadata = none → getKw k sig.metadata = none
  original : o.saveOriginal = true → s.original ≠ [] → SameTop o.skip s.original sig.original
  learning : s.learning ≠ [] → ∃ r, sig.learning = some (.dict r) ∧ SameTop [] s.learning r
  nolearning : s.learning = [] → sig.learning = none

end Verif.Nexus
