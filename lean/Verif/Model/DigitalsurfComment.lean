import Verif.Py.Assoc
/-!
Model of the comments in `rsciio/digitalsurf/_api.py`: `parse_metadata` and `_stringify_dict`.

Simplifications: what Python does with single values is given by parameters: `str` is `v.__str__()`, `lit` is
`ast.literal_eval` (`none` if it raises), `ofText` is a text as a value; `strDict` is `str` of a dictionary.
-/
namespace Verif.DigitalsurfComment

/-- A nested dictionary. -/
inductive Node (V : Type)
  | leaf (v : V)
  | dict (l : List (Text × Node V))

/-! ### Writing -/

section
variable {V : Type}

mutual
def Node.count : Node V → Nat
  | .leaf _ => 1
  | .dict l => countAll l + 1
def countAll : List (Text × Node V) → Nat
  | [] => 0
  | (_, n) :: l => n.count + countAll l
end

theorem countAll_append (a b : List (Text × Node V)) : countAll (a ++ b) = countAll a + countAll b := by
  induction a with
  | nil => simp [countAll]
  | cons x a ih =>
    obtain ⟨k, n⟩ := x
    rw [List.cons_append, countAll, countAll, ih, Nat.add_assoc]

/-- `keys_queue.index(k)` and both `pop(ku_idx)`. -/
def popKey (k : Text) : List (Text × Node V) → Option (Node V × List (Text × Node V))
  | [] => none
  | (k', n) :: q => if k' = k then some (n, q) else match popKey k q with
    | none => none
    | some (m, q') => some (m, (k', n) :: q')

theorem popKey_count {k : Text} : ∀ {q : List (Text × Node V)} {m : Node V} {q' : List (Text × Node V)},
    popKey k q = some (m, q') → countAll q' ≤ countAll q
  | [], m, q', h => by simp [popKey] at h
  | (k', n) :: q, m, q', h => by
    unfold popKey at h
    split at h
    · cases h
      rw [countAll]
      omega
    · split at h
      · cases h
      · rename_i hp
        cases h
        have := popKey_count hp
        rw [countAll, countAll]
        omega

def units (k : Text) : Text := k ++ ['_', 'u', 'n', 'i', 't', 's']

/-- `f"{vu}"`. -/
def strNode (str : V → Text) (strDict : List (Text × Node V) → Text) : Node V → Text
  | .leaf v => str v
  | .dict l => strDict l

/-- `_stringify_dict`, lines 1983-2022: the loop over the queue. -/
def stringify (str : V → Text) (strDict : List (Text × Node V) → Text) : List (Text × Node V) → Text
  | [] => []
  | (k, .dict l) :: q => ['$', '_'] ++ k ++ ['\n'] ++ stringify str strDict (l ++ q)
  | (k, .leaf v) :: q => match h : popKey (units k) q with
    | some (u, q') => ['$'] ++ k ++ [' ', '=', ' '] ++ str v ++ [' '] ++ strNode str strDict u ++ ['\n'] ++ stringify str strDict q'
    | none => ['$'] ++ k ++ [' ', '=', ' '] ++ str v ++ ['\n'] ++ stringify str strDict q
termination_by q => countAll q
decreasing_by
  · rw [countAll_append, countAll, Node.count]; omega
  · have := popKey_count h
    rw [countAll, Node.count]; omega
  · rw [countAll, Node.count]; omega

/-! ### Reading -/

/-- Characters at which `str.splitlines` splits. -/
def isBreak (c : Char) : Bool :=
  let n := c.toNat
  (10 ≤ n && n ≤ 13) || (28 ≤ n && n ≤ 30) || n == 0x85 || n == 0x2028 || n == 0x2029

/-- `str.splitlines()`. -/
def pyLines : Text → List Text
  | [] => []
  | [c] => if isBreak c then [[]] else [[c]]
  | c :: d :: t =>
    if c = '\r' ∧ d = '\n' then [] :: pyLines t
    else if isBreak c then [] :: pyLines (d :: t)
    else match pyLines (d :: t) with
      | [] => [[c]]
      | p :: ps => (c :: p) :: ps

/-- Sections, and the title of the last one. -/
structure State (V : Type) where
  dict : List (Text × List (Text × V))
  main : Option Text

/-- `parse_metadata`, lines 112-119: the value. -/
def valueOf (lit : Text → Option V) (ofText : Text → V) (key word : Text) : V :=
  if key = "Grating".toList then ofText word else match lit word with
    | some v => v
    | none => ofText word

/-- `parse_metadata`, lines 112-121: the words of a value into the section. -/
def store (lit : Text → Option V) (ofText : Text → V) (key : Text) (words : List Text) (sec : List (Text × V)) : List (Text × V) :=
  let sec := setKw key (valueOf lit ofText key (words.head?.getD [])) sec
  match words[1]? with
    | some u => setKw (units key) (ofText u) sec
    | none => sec

/-- `parse_metadata`, lines 102-121: a pair of key and value. -/
def pair (lit : Text → Option V) (ofText : Text → V) (pre : Text) (delim : Char) (s : State V) (line : Text) : State V :=
  let s := match s.main with
    | some _ => s
    | none => ⟨setKw "UNTITLED".toList [] s.dict, some "UNTITLED".toList⟩
  let main := s.main.getD []
  let parts := splitChar delim line
  let key := stripBy isSpace ((parts.head?.getD []).drop pre.length)
  let words := splitChar ' ' (stripBy isSpace (parts[1]?.getD []))
  ⟨setKw main (store lit ofText key words ((getKw main s.dict).getD [])) s.dict, some main⟩

/-- `parse_metadata`, lines 92-121, for one line. -/
def step (lit : Text → Option V) (ofText : Text → V) (pre : Text) (delim : Char) (s : State V) (line : Text) : State V :=
  if stripBy isSpace line = [] ∨ ['@', '@'] <+: line then s
  else if pre ++ ['_'] <+: line then
    let k := stripBy isSpace (line.drop (pre.length + 1))
    ⟨setKw k [] s.dict, some k⟩
  else if pre <+: line then pair lit ofText pre delim s line
  else s

/-- `parse_metadata`, lines 62-122. -/
def parse (lit : Text → Option V) (ofText : Text → V) (pre : Text) (delim : Char) (cmt : Text) : List (Text × List (Text × V)) :=
  ((pyLines cmt).foldl (step lit ofText pre delim) ⟨[], none⟩).dict

end

end Verif.DigitalsurfComment
