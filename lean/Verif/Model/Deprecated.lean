import Verif.Py.Basic
/-!
Model of `deprecated_argument`, `rsciio/utils/_deprecated.py` lines 111-180. The warning text and
the warning itself are not modelled; the result is the keyword dictionary that the wrapped
function receives.
-/
namespace Verif.Deprecated

variable {α : Type}

/-- Keyword arguments: association list with distinct keys. -/
abbrev Kwargs (α : Type) := List (String × α)

/-- `kwargs[k]`. -/
def getKw (k : String) : Kwargs α → Option α
  | [] => none
  | (k', v) :: rest => if k' = k then some v else getKw k rest

/-- `kwargs.pop(k)`: value and the remaining arguments, `KeyError` if missing. -/
def pop (k : String) (kw : Kwargs α) : Py (α × Kwargs α) :=
  match getKw k kw with
  | some v => .ok (v, kw.filter fun q => q.1 ≠ k)
  | none => .error .keyError

/-- `kwargs[k] = v`. -/
def setKw (k : String) (v : α) : Kwargs α → Kwargs α
  | [] => [(k, v)]
  | (k', v') :: rest => if k' = k then (k, v) :: rest else (k', v') :: setKw k v rest

/-- Decorator settings (lines 118-125): only whether a removal version is given matters. -/
structure Setting where
  name : String
  removal : Option String
  alternative : Option String

/-- `wrapped`, lines 129-154: the keyword arguments passed on. -/
def wrapped (s : Setting) (kw : Kwargs α) : Py (Kwargs α) :=
  match getKw s.name kw with
  | none => .ok kw                                       -- line 130
  | some _ =>
    let kw1 : Py (Kwargs α) :=
      match s.removal with
      | some _ => .ok kw                                 -- lines 132-133
      | none => match pop s.name kw with                 -- line 136
        | .ok (_, kw') => .ok kw'
        | .error e => .error e
    match kw1 with
    | .error e => .error e
    | .ok kw1 =>
      match s.alternative with
      | none => .ok kw1
      | some a =>                                        -- line 140
        match pop s.name kw1 with
        | .ok (v, kw2) => .ok (setKw a v kw2)
        | .error e => .error e

/-- `distributed_keyword_deprecation`, lines 159-164. -/
def distributedSetting : Setting := ⟨"distributed", none, none⟩
/-- `mmap_mode_keyword_deprecation`, lines 167-172. -/
def mmapModeSetting : Setting := ⟨"mmap_mode", none, none⟩
/-- `endianess_keyword_deprecation`, lines 175-180. -/
def endianessSetting : Setting := ⟨"endianess", none, some "endianness"⟩

end Verif.Deprecated
