import Verif.Py.Basic
/-!
Model of `sarray2dict` and `dict2sarray`, `rsciio/utils/_array.py` lines 24-74.

A structured array with `n` records is one column of `n` values per field. A dictionary is an
association list; assigning a value to a field of the same dtype stores it unchanged (NumPy).
-/
namespace Verif.HeaderArray

/-- A structured array: field names and, per field, the values of its records. -/
structure SArr (α : Type) where
  names : List String
  col : String → List α

/-- What a dictionary entry holds: one value, or the whole column. -/
inductive Entry (α : Type) | one (v : α) | column (vs : List α)

/-- A Python dictionary, as a look-up function. -/
abbrev Dict (α : Type) := String → Option (Entry α)

/-- `dictionary[name] = value`. -/
def Dict.set {α : Type} (d : Dict α) (k : String) (e : Entry α) : Dict α :=
  fun k' => if k' = k then some e else d k'

/-- Line 42: `sarray[name][0] if len(sarray[name]) == 1 else sarray[name]`. -/
def entryOf {α : Type} : List α → Entry α
  | [v] => .one v
  | vs => .column vs

/-- `sarray2dict`, lines 39-44, adding to the dictionary `d` (empty by default). -/
def sarray2dict {α : Type} (a : SArr α) (d : Dict α) : Dict α :=
  a.names.foldl (fun d n => d.set n (entryOf (a.col n))) d

/-- Lines 70-73: the assignment for one field. A column cannot be stored in one element
(`ValueError`); assigning one value to a column of another length broadcasts it. -/
def assign {α : Type} (a : SArr α) (n : String) (e : Entry α) : Py (SArr α) :=
  match a.col n, e with
  | [_], .one v => .ok { a with col := fun m => if m = n then [v] else a.col m }
  | [_], .column _ => .error .valueError
  | vs, .one v => .ok { a with col := fun m => if m = n then vs.map fun _ => v else a.col m }
  | vs, .column ws =>
    if ws.length = vs.length then .ok { a with col := fun m => if m = n then ws else a.col m }
    else .error .valueError

/-- Line 69-73: the loop over the names that are both in the dtype and in the dictionary, in the
order `order` (Python iterates over a set, so any order is possible). -/
def fill {α : Type} (d : Dict α) : List String → SArr α → Py (SArr α)
  | [], a => .ok a
  | n :: ns, a =>
    match d n with
    | none => .error .keyError
    | some e => match assign a n e with
      | .ok a' => fill d ns a'
      | .error er => .error er

/-- `np.zeros((1,), dtype=dtype)`, line 68. -/
def zeros1 {α : Type} (zero : α) (names : List String) : SArr α := ⟨names, fun _ => [zero]⟩

end Verif.HeaderArray
