import Verif.Py.Basic
/-!
Model of `rsciio/utils/_dictionary.py`.

`DTBox` is a `box.Box` (external). Modelled behaviour of `Box` with `box_dots=True`, for boxes
whose keys contain no dots: `box[path]`, `box.get(path)` and `box[path] = v` walk the dotted path
through nested boxes; `get` returns `None` when the walk fails; dictionaries assigned as values
become boxes. A path is the list of its keys (`path.split(".")`).
-/
namespace Verif.Dictionary

/-- A metadata tree: `none` leaves are Python's `None`. -/
inductive Tree (α : Type) where
  | leaf (v : Option α)
  | node (items : List (String × Tree α))

variable {α : Type}

/-- `dict.get(key)` on one level: the item, or nothing. -/
def lookup (k : String) : List (String × Tree α) → Option (Tree α)
  | [] => none
  | (k', t) :: rest => if k' = k then some t else lookup k rest

/-- `dict[key] = value` on one level: replaces in place or appends. -/
def putKey (k : String) (t : Tree α) : List (String × Tree α) → List (String × Tree α)
  | [] => [(k, t)]
  | (k', t') :: rest => if k' = k then (k, t) :: rest else (k', t') :: putKey k t rest

/-- `value is None`. -/
def isNone : Tree α → Bool
  | .leaf none => true
  | _ => false

/-- `self.get(path)` (Box): nothing if some key is missing or a leaf is in the way. -/
def getPath : List (String × Tree α) → List String → Option (Tree α)
  | _, [] => none
  | items, [k] => lookup k items
  | items, k :: k' :: ks =>
    match lookup k items with
    | some (.node sub) => getPath sub (k' :: ks)
    | _ => none

/-- `self.get(path) is None`. -/
def absent (items : List (String × Tree α)) (path : List String) : Bool :=
  match getPath items path with
  | none => true
  | some t => isNone t

/-- Lines 35-37: the child to go on with, a new empty node if there is none (or `None`). -/
def childOf (k : String) (items : List (String × Tree α)) : Tree α :=
  match lookup k items with
  | some t => if isNone t then .node [] else t
  | none => .node []

/-- `add_node`, lines 32-37: walk the keys, creating empty nodes for missing keys (and for `None`
values). A value without `get` on the way is an `AttributeError`. -/
def addNode : List (String × Tree α) → List String → Py (List (String × Tree α))
  | items, [] => .ok items
  | items, k :: ks =>
    match childOf k items, ks with
    | c, [] => .ok (putKey k c items)
    | .node sub, k' :: ks =>
      match addNode sub (k' :: ks) with
      | .ok sub' => .ok (putKey k (.node sub') items)
      | .error e => .error e
    | .leaf _, _ :: _ => .error .attributeError

/-- `self[path] = value` (Box): sets the item inside the nested box. -/
def setPath : List (String × Tree α) → List String → Tree α → Py (List (String × Tree α))
  | _, [], _ => .error .keyError
  | items, [k], t => .ok (putKey k t items)
  | items, k :: k' :: ks, t =>
    match lookup k items with
    | some (.node sub) =>
      match setPath sub (k' :: ks) t with
      | .ok sub' => .ok (putKey k (.node sub') items)
      | .error e => .error e
    | _ => .error .keyError

/-- `set_item`, lines 39-42. -/
def setItem (items : List (String × Tree α)) (path : List String) (t : Tree α) :
    Py (List (String × Tree α)) :=
  if absent items path then
    match addNode items path with
    | .ok items' => setPath items' path t
    | .error e => .error e
  else setPath items path t

/-- `has_item`, lines 44-45. -/
def hasItem (items : List (String × Tree α)) (path : List String) : Bool := !absent items path

/-! ### `dump_dictionary` -/

mutual
/-- `dump_dictionary`, lines 48-57: the lines written. `str(value)` is already text here. The
recursive call (line 53) passes only the prefix, so the separators fall back to `"."` and
`" = "` below the first level. -/
def dump (prefix_ nsep vsep : String) : List (String × Tree String) → List String
  | [] => []
  | (k, t) :: rest => dumpItem prefix_ nsep vsep k t ++ dump prefix_ nsep vsep rest

/-- One iteration of the loop, lines 52-57. -/
def dumpItem (prefix_ nsep vsep k : String) : Tree String → List String
  | .node sub => dump (prefix_ ++ nsep ++ k) "." " = " sub
  | .leaf v => [prefix_ ++ nsep ++ k ++ vsep ++ v.getD "None" ++ "\n"]
end

end Verif.Dictionary
