import Verif.Py.Dec
import Verif.Py.Text
/-!
Model of the names that `rsciio/renishaw/_api.py` finds for the values of nested parts of the block `WXDM`: `_match_WXDM_values`
(lines 698-719) and what `_map_WXDM` (lines 721-736) makes of it.

The parts are given by what `_pset_match_keys_and_values` stored for them (lines 639-643): the identifiers in the order of the dictionary, and for each
the keys and values without a partner. A value is of any type. Left out: the removal of keys from `_unmatched_WXDM_keys`, which is only used to
clean up the entries of `UNMATCHED` (lines 717, 738-742); a name `subdicts`.
-/
namespace Verif.RenishawNested

/-- A dictionary `sub…`: the dictionaries in `subdicts`, in the order of their numbers, and the values by name. -/
inductive Node (α : Type)
  | mk (subs : List (Node α)) (values : List (Text × α))

def Node.subs {α : Type} : Node α → List (Node α)
  | .mk s _ => s

/-- What is stored for a part: its keys (number and name) and its values (number and value). -/
structure Part (α : Type) where
  keys : List (Text × Text)
  values : List (Text × α)

/-- `d[k] = v`. -/
def put {α : Type} (d : List (Text × α)) (k : Text) (v : α) : List (Text × α) :=
  if d.any fun e => decide (e.1 = k) then d.map fun e => if e.1 = k then (k, v) else e else d ++ [(k, v)]

def look {β : Type} (d : List (Text × β)) (k : Text) : Option β := (d.find? fun e => decide (e.1 = k)).map (·.2)

/-- Lines 710-718: the values with a name. -/
def named {α : Type} (names : List (Text × Text)) (values : List (Text × α)) : List (Text × α) :=
  values.foldl (fun d e => match look names e.1 with
    | some t => put d t e.2
    | none => d) []

/-- The loop of lines 701-718: the identifier is removed, and those that begin with it are passed on. -/
def loop {α : Type} (part : Text → List Text → Node α) : List Text → List Text → List (Node α)
  | [], _ => []
  | k :: ks, keys => part k ((keys.erase k).filter fun i => k.isPrefixOf i) :: loop part ks (keys.erase k)

/-- `_match_WXDM_values`, lines 698-719. `fuel` bounds the levels. -/
def matchValues {α : Type} (names : List (Text × Text)) (vals : Text → List (Text × α)) : Nat → Nat → List Text → List (Node α)
  | 0, _, _ => []
  | fuel + 1, level, keys =>
    loop (fun k sub => .mk (matchValues names vals fuel (level + 1) sub) (named names (vals k)))
      (keys.filter fun i => i.count '_' = level) keys

/-- The values of a part. -/
def valuesOf {α : Type} (m : List (Text × Part α)) (k : Text) : List (Text × α) :=
  match look m k with
  | some p => p.values
  | none => []

/-- Lines 721-736: the entry `extra_matches`. -/
def extra {α : Type} (m : List (Text × Part α)) : Py (List (Node α)) :=
  let entries := (m.map Prod.fst).filter fun i => "WXDM".toList.isPrefixOf i
  match look m "WXDM_0".toList with
  | none => .error .keyError
  | some top =>
    match matchValues top.keys (valuesOf m) ((entries.map fun i => i.count '_').sum + 1) 1 entries with
    | [] => .error .keyError
    | n :: _ => if n.subs.isEmpty then .error .keyError else .ok n.subs

end Verif.RenishawNested
