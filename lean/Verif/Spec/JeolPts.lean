import Verif.Model.JeolPts
import Verif.Spec.Jeol
/-!
What a spectrum image of JEOL should be, independently of `_read_pts`.
-/
namespace Verif.Jeol

/-- The factors that `downsample` stands for. -/
inductive DownIs : Down → Nat → Nat → Prop
  | one (n : Nat) : DownIs (.one n) n n
  | many (a b : Nat) : DownIs (.many [a, b]) a b

/-- The shift of a frame in rows, columns and channels. -/
def shiftOf (o : Opts) (k : Nat) : Int × Int × Int :=
  match o.shifts with
  | none => (0, 0, 0)
  | some l => ((l.getD k []).getD 0 0, (l.getD k []).getD 1 0, (l.getD k []).getD 2 0)

/-- The file can have the frame (one more than its number of sweeps), and it has a shift if there are shifts. -/
def keepFrame (o : Opts) (sweep k : Nat) : Bool :=
  decide (k ≤ sweep) && (match o.shifts with
    | none => true
    | some l => decide (k < l.length))

/-- A frame number of the list. -/
def keepNumber (o : Opts) (sweep : Nat) : Int → Option Nat
  | .ofNat n => if keepFrame o sweep n = true then some n else none
  | .negSucc _ => none

/-- The frames that are wanted: those of the list that can be had, or all of them without a list. -/
def wanted (o : Opts) (sweep : Nat) : List Nat :=
  match o.frames with
  | none => (List.range (sweep + 1)).filter (keepFrame o sweep)
  | some [] => (List.range (sweep + 1)).filter (keepFrame o sweep)
  | some l => l.filterMap (keepNumber o sweep)

/-- `v` is the largest element. -/
def IsMax (l : List Int) (v : Int) : Prop := v ∈ l ∧ ∀ u ∈ l, u ≤ v
def IsMin (l : List Int) (v : Int) : Prop := v ∈ l ∧ ∀ u ∈ l, v ≤ u

/-- A scan of `W` columns and `H` rows in bins of `dw` columns, `dh` rows and `rebin` channels, moved by a shift; `aw`, `ah`, `n` is the
size of the result. -/
def scanPar (W H dw dh rebin : Nat) (aw ah n : Int) (dy dx dz : Int) : Par :=
  ⟨aw, ah, n, 4096 * dw / W, 4096 * dh / H, rebin, dx, dy, dz, 0, 0, 0, 0⟩

/-- Sum over frames. -/
def sumOver (f : Nat → Nat) (ks : List Nat) : Nat := (ks.map f).sum

/-- A frame that is accepted: it has data and is complete, unless incomplete ones are wanted. -/
def Taken (p : Par) (onlyValid : Bool) (a : List Nat) : Prop := a ≠ [] ∧ (onlyValid = true → Complete p a)

/-- The X-ray event of a word of a frame, at the pixel of the last position words before it, is in the bin (of `dw` columns, `dh` rows
and `rebin` channels of a scan of `W` columns and `H` rows). -/
def hit (W H dw dh rebin : Nat) (dy dx dz y x z : Int) (a : List Nat) (i : Nat) : Bool :=
  match a[i]?, (valuesOf 9 (a.take i)).getLast?, (valuesOf 8 (a.take i)).getLast? with
  | some w, some Y, some X => decide (w / 4096 = 11 ∧ ((Y * H / 4096 / dh : Nat) : Int) + dy = y ∧
      ((X * W / 4096 / dw : Nat) : Int) + dx = x ∧ ((w % 4096 / rebin : Nat) : Int) + dz = z)
  | _, _, _ => false

/-- Every X-ray event of a frame comes after a row and a column. -/
def Positioned (a : List Nat) : Prop :=
  ∀ (i : Nat) w, a[i]? = some w → w / 4096 = 11 → valuesOf 9 (a.take i) ≠ [] ∧ valuesOf 8 (a.take i) ≠ []

/-- The known starts of frames are right: none are given, or the first is 0 and the others are the places where frames start. -/
def RightStarts (o : Opts) (fs : List (List Nat)) : Prop :=
  ∀ l, o.starts = some l → l[0]? = some (some 0) ∧ ∀ (i : Nat) s, l[i]? = some (some s) → s = ((fs.take i).map List.length).sum

end Verif.Jeol
