/-!
Specification of chunked loading, independent of the code.
-/
namespace Verif.DistributedSpec

/-- `idx` is an index of an array of the given shape. -/
def InShape : List Nat → List Nat → Prop
  | [], [] => True
  | n :: ns, i :: is => i < n ∧ InShape ns is
  | _, _ => False

/-- `idx` lies in the box given by one half-open interval per axis. -/
def InBox : List (Nat × Nat) → List Nat → Prop
  | [], [] => True
  | p :: ps, i :: is => (p.1 ≤ i ∧ i < p.2) ∧ InBox ps is
  | _, _ => False

instance : ∀ s idx, Decidable (InBox s idx)
  | [], [] => .isTrue trivial
  | p :: ps, i :: is =>
    match (inferInstance : Decidable (p.1 ≤ i ∧ i < p.2)),
      instDecidableInBox ps is with
    | .isTrue h, .isTrue g => .isTrue ⟨h, g⟩
    | .isFalse h, _ => .isFalse fun q => h q.1
    | _, .isFalse g => .isFalse fun q => g q.2
  | [], _ :: _ => .isFalse id
  | _ :: _, [] => .isFalse id

/-- The scan position `p` (negative coordinates count from the end, as everywhere in NumPy)
denotes the index `idx` of an array with shape `nav`. -/
def Denotes : List Nat → List Int → List Nat → Prop
  | [], [], [] => True
  | n :: ns, p :: ps, i :: is =>
    (i < n ∧ (p = i ∨ p + n = i)) ∧ Denotes ns ps is
  | _, _, _ => False

/-- Frame `k` is the last one recorded at `idx`. -/
def LastAt (nav : List Nat) (positions : List (List Int)) (idx : List Nat) (k : Nat) : Prop :=
  (∃ p, positions[k]? = some p ∧ Denotes nav p idx) ∧
    ∀ j p, k < j → positions[j]? = some p → ¬ Denotes nav p idx

/-- No frame was recorded at `idx`. -/
def Never (nav : List Nat) (positions : List (List Int)) (idx : List Nat) : Prop :=
  ∀ (j : Nat) p, positions[j]? = some p → ¬ Denotes nav p idx

end Verif.DistributedSpec
