import Verif.Model.Tofwerk
/-! Specification of C58-C63: events in windows, and sorting. Only the type of peaks is taken from the model. -/
namespace Verif.Spec.Tofwerk
open Verif.Tofwerk

/-- `σ` is a possible result of `np.argsort(l)`: positions in ascending order of the entries. -/
def IsArgsort {α : Type} [LE α] (l : List α) (σ : List Nat) : Prop :=
  σ.Perm (List.range l.length) ∧ σ.Pairwise fun a b => ∀ x y, l[a]? = some x → l[b]? = some y → x ≤ y

/-- The event `e` has a mass in the window from `lo` to `hi`. -/
def inWindow (clock samples : Nat) (mass : List Rat) (lo hi : Rat) (e : Nat) : Bool :=
  decide (e / clock < samples) && match mass[e / clock]? with
    | none => false
    | some m => decide (lo ≤ m) && decide (m ≤ hi)

/-- The number of events in the window of a peak. -/
def count (clock samples : Nat) (mass : List Rat) (events : List Nat) (p : Peak) : Nat :=
  events.countP (inWindow clock samples mass p.lo p.hi)

/-- The windows of the peaks do not overlap. -/
def Disjoint (table : List Peak) : Prop :=
  (∀ p ∈ table, p.lo ≤ p.hi) ∧ table.Pairwise fun p q => p.hi < q.lo ∨ q.hi < p.lo

/-- Values of the columns `cols` of a pixel. -/
def pick {β : Type} (cols : List Nat) (px : List β) : List β := cols.filterMap fun c => px[c]?

/-- The label of a nominal peak begins with `nominal`. -/
def Nominal (p : Peak) : Prop := ∃ rest, p.label = ['n', 'o', 'm', 'i', 'n', 'a', 'l'] ++ rest

/-- The mass is in the requested range, if there is one. -/
def Within (mz : Option (Rat × Rat)) (m : Rat) : Prop := ∀ a b, mz = some (a, b) → a ≤ m ∧ m ≤ b

/-- `cols` are the columns of the peaks of one kind with a mass in the range. -/
def Columns (kind : Peak → Prop) (mz : Option (Rat × Rat)) (table : List Peak) (cols : List Nat) : Prop :=
  cols.Nodup ∧ ∀ c : Nat, c ∈ cols ↔ ∃ p, table[c]? = some p ∧ kind p ∧ Within mz p.mass

/-- Each pixel has one value for each of `n` peaks. -/
def HasColumns {β : Type} (n : Nat) (slices : List (Slice β)) : Prop :=
  ∀ s ∈ slices, ∀ row ∈ s, ∀ px ∈ row, List.length px = n

/-- The values of the columns `cols` for each pixel. -/
def pickAll {β : Type} (cols : List Nat) (s : Slice β) : Slice β := s.map fun row => row.map fun px => pick cols px

/-- `masses` are the masses of the columns `cols`. -/
def MassesOf (table : List Peak) (cols : List Nat) (masses : List Rat) : Prop :=
  masses.map some = cols.map fun (c : Nat) => table[c]?.map Peak.mass

end Verif.Spec.Tofwerk
