import Verif.Py.Basic
/-!
Model of how signals and their models are stored in one hspy/zspy file:
`HierarchicalWriter.write_signal` (`rsciio/_hierarchical.py` lines 821-876, the part that stores
`data` and `models`) and `HierarchicalReader.read` (lines 208-278).

`σ` is everything stored for a signal except its models, `μ` the content of one model. Writing a
model under a name that is already used merges the two groups (`dict2group`, line 874); the
result of merging is the parameter `merge`.
-/
namespace Verif.StoredModels

/-- The groups `Experiments` and `Analysis/models`. An experiment without a `data` dataset has
`none`. A model carries its `_signal` attribute, if any. -/
structure File (σ μ : Type) where
  exps : List (String × Option σ)
  models : List (String × (Option String × μ))
  deriving Repr, DecidableEq

variable {σ μ : Type}

/-- `group[name] = value` on an ordered mapping. -/
def putKey {β : Type} (k : String) (v : β) : List (String × β) → List (String × β)
  | [] => [(k, v)]
  | (k', v') :: rest => if k' = k then (k, v) :: rest else (k', v') :: putKey k v rest

def lookup {β : Type} (k : String) : List (String × β) → Option β
  | [] => none
  | (k', v) :: rest => if k' = k then some v else lookup k rest

/-- `dict2group(signal["models"], model_group)`, line 874. -/
def putModels (merge : μ → μ → μ) : List (String × μ) → List (String × (Option String × μ)) →
    List (String × (Option String × μ))
  | [], ms => ms
  | (m, v) :: rest, ms =>
    putModels merge rest <|
      match lookup m ms with
      | some (s, old) => putKey m (s, merge old v) ms
      | none => putKey m (none, v) ms

/-- `write_signal`, lines 846-876: `name` is `group.name`; `data` is absent when
`write_dataset=False` (an existing dataset is then kept). -/
def writeSignal (merge : μ → μ → μ) (f : File σ μ) (name : String) (data : Option σ)
    (models : List (String × μ)) : File σ μ :=
  let data' := match data with
    | some d => some d
    | none => (lookup name f.exps).getD none
  { exps := putKey name data' f.exps
    models :=
      if models = [] then f.models                                     -- line 872
      else (putModels merge models f.models).map fun m => (m.1, some name, m.2.2) } -- 875-876

/-- What `read` returns: one dictionary per experiment, with its models, and then the models
returned on their own. -/
structure Read (σ μ : Type) where
  signals : List (String × σ × List (String × μ))
  standalone : List (String × μ)
  deriving Repr, DecidableEq

/-- Lines 231-246: the models with a `_signal` attribute and those without. -/
def withSignal (f : File σ μ) : List (String × (String × μ)) :=
  f.models.filterMap fun m => m.2.1.map fun key => (key, m.1, m.2.2)

def withoutSignal (f : File σ μ) : List (String × μ) :=
  f.models.filterMap fun m => if m.2.1.isNone then some (m.1, m.2.2) else none

/-- Lines 262-265: go backwards through the remaining models, moving those whose key is the name
of the experiment to `_tmp`. The list element that is current is the one removed (model names
are different, so no other entry is equal to it). Returns `_tmp` and the remaining models. -/
def takeModels (name : String) : List (String × (String × μ)) →
    List (String × μ) × List (String × (String × μ))
  | [] => ([], [])
  | (key, m) :: rest =>
    let r := takeModels name rest
    if key = name then (putKey m.1 m.2 r.1, r.2) else (r.1, (key, m) :: r.2)

/-- Lines 257-268. -/
def readExps : List (String × Option σ) → List (String × (String × μ)) →
    List (String × σ × List (String × μ)) × List (String × (String × μ))
  | [], ms => ([], ms)
  | (_, none) :: rest, ms => readExps rest ms                          -- no "data" in the group
  | (name, some d) :: rest, ms =>
    let t := takeModels name ms
    let r := readExps rest t.2
    ((name, d, t.1) :: r.1, r.2)

/-- `read`, lines 208-278. -/
def readFile (f : File σ μ) : Py (Read σ μ) :=
  let r := readExps f.exps (withSignal f)
  let standalone := withoutSignal f ++ r.2.map (·.2)                   -- lines 270-271
  if r.1 = [] ∧ standalone = [] then .error .ioError                   -- lines 275-276
  else .ok ⟨r.1, standalone⟩

end Verif.StoredModels
