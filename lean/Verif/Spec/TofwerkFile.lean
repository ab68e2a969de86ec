import Verif.Model.TofwerkFile
import Verif.Spec.Tofwerk
/-! What the axes, shapes and metadata of Tofwerk files should be (C140, C141). -/
namespace Verif.Spec.TofwerkFile
open Verif.TofwerkFile Verif.Tofwerk Verif.Spec.Tofwerk

/-- The data sets of a file are of `w` depth slices of `s` rows of `x` pixels, as the attributes say. -/
structure Consistent (f : File) (w s x : Nat) : Prop where
  writes : f.writes = some w
  segments : f.segments = some s
  peaks : ∀ d, f.peakData = some d → d.1 = w ∧ d.2.1 = s ∧ d.2.2.1 = x
  events : ∀ d, f.events = some d → d = (w, s, x)
  sum : f.sumLength = f.massAxis.length

/-- The slices from `a` up to `b` of `n`. -/
def IsDepth (n : Nat) (r : Option (Int × Int)) (a b : Nat) : Prop :=
  (r = none ∧ a = 0 ∧ b = n) ∨ (r = some ((a : Int), (b : Int)) ∧ a < b ∧ b ≤ n)

/-- An axis of `n` pixels over a field of `v` mm, in micrometers. -/
def Spans (v : Option Rat) (n : Nat) (cal : Option Cal) : Prop :=
  (∀ m, v = some m → n ≠ 0 → ∃ c, cal = some c ∧ c.offset = 0 ∧ c.scale * n = 1000 * m ∧ c.units = ['µ', 'm']) ∧
    (v = none ∨ n = 0 → cal = none)

/-- The depth axis: slices, one by one. -/
def IsSlices (n : Nat) (a : Ax) : Prop :=
  a = .line ['d', 'e', 'p', 't', 'h'] n (some ⟨0, 1, ['s', 'l', 'i', 'c', 'e']⟩) true

/-- An axis of the plane of `n` pixels; the pixels are as high as they are wide: `nx` on the field of view. -/
def InPlane (name : Char) (n nx : Nat) (v : Option Rat) (nav : Bool) (a : Ax) : Prop :=
  ∃ cal, a = .line [name] n cal nav ∧ Spans v nx cal

/-- The masses of peaks of a kind, within the range. -/
def MassesFrom (table : List Peak) (kind : Peak → Prop) (mz : Option (Rat × Rat)) (l : List Rat) : Prop :=
  ∃ ps : List Peak, l = ps.map Peak.mass ∧
    (∀ p, kind p → Within mz p.mass → ps.count p = table.count p) ∧ (∀ p ∈ ps, kind p ∧ Within mz p.mass)

/-- The axes and the shape of the data of peaks. -/
def IsPeaks (f : File) (w s x : Nat) (kind : Peak → Prop) (mz : Option (Rat × Rat)) (g : Signal) : Prop :=
  ∃ d y z l t, g.axes = [d, y, z, .masses l] ∧ f.table = some t ∧ IsSlices w d ∧ InPlane 'y' s x f.viewField true y ∧
    InPlane 'x' x x f.viewField true z ∧ MassesFrom t kind mz l ∧ g.shape = [w, s, x, l.length]

/-- The axes and the shape of the events. -/
def IsEvents (f : File) (w s x : Nat) (g : Signal) : Prop :=
  ∃ d y z, g.axes = [d, y, z] ∧ IsSlices w d ∧ InPlane 'y' s x f.viewField true y ∧
    InPlane 'x' x x f.viewField true z ∧ g.shape = [w, s, x]

/-- The axes and the shape of the images: `n` of the same shape. -/
def IsImages (f : File) (g : Signal) : Prop :=
  ∃ d y z n ny nx, g.axes = [d, y, z] ∧ IsSlices n d ∧ InPlane 'y' ny nx f.viewField false y ∧
    InPlane 'x' nx nx f.viewField false z ∧ g.shape = [n, ny, nx] ∧ n ≤ f.images.count (ny, nx) ∧ 0 < n

/-- The axis and the shape of the sum spectrum: the last samples. -/
def IsSum (f : File) (g : Signal) : Prop :=
  ∃ pre l, f.massAxis = pre ++ l ∧ g.axes = [.masses l] ∧ g.shape = [l.length]

def IsSignal (f : File) (w s x : Nat) (mz : Option (Rat × Rat)) (g : Signal) : Prop :=
  match g.kind with
  | .sum => IsSum f g
  | .nominal => IsPeaks f w s x Nominal mz g
  | .additional => IsPeaks f w s x (fun p => ¬Nominal p) mz g
  | .events => IsEvents f w s x g
  | .images => IsImages f g

/-- The number of entries of an axis. -/
def Entries : Ax → Nat → Prop
  | .line _ n _ _, k => k = n
  | .masses l, k => k = l.length

/-- Every dimension has an axis of its length. -/
def Agree (g : Signal) : Prop := List.Forall₂ Entries g.axes g.shape

/-- Two decimal digits. -/
def two (n : Nat) : Text := [digitChar (n / 10), digitChar (n % 10)]

/-- Four decimal digits. -/
def four (n : Nat) : Text := two (n / 100) ++ two (n % 100)

/-- A date and time of the calendar. -/
def Calendar (m : Moment) : Prop :=
  m.year < 10000 ∧ m.month < 100 ∧ m.day < 100 ∧ m.hour < 24 ∧ m.minute < 60 ∧ m.second < 60 ∧
    ∀ s, m.offset = some s → s.natAbs < 86400

/-- A zone of `h` hours and `k` minutes, ahead of UTC or behind it. -/
def IsZone (s : Int) (t : Text) : Prop :=
  ∃ h k r, k < 60 ∧ r < 60 ∧ ((s = 60 * (60 * (h : Nat) + (k : Nat)) + (r : Nat) ∧ t = '+' :: two h ++ ':' :: two k) ∨
    (s = -(60 * (60 * (h : Nat) + (k : Nat)) + (r : Nat)) ∧ s < 0 ∧ t = '-' :: two h ++ ':' :: two k))

/-- The least and the greatest of some numbers. -/
def IsRange (l : List Rat) (r : Rat × Rat) : Prop :=
  r.1 ∈ l ∧ r.2 ∈ l ∧ ∀ x ∈ l, r.1 ≤ x ∧ x ≤ r.2

/-- A line of a configuration: a channel and whether it records. -/
def entry (c : Char) (v : Nat) : Text := ['C', 'h', c] ++ ['R', 'e', 'c', 'o', 'r', 'd', '='] ++ [digitChar v]

/-- An entry at the beginning. -/
def Starts (t : Text) : Prop := ∃ c v rest, isDigit c = true ∧ v < 10 ∧ t = entry c v ++ rest

/-- A configuration with these channels (their numbers and whether they record), with any text before, between and behind them. -/
inductive Config : List (Char × Nat) → Text → Prop
  | nil : Config [] []
  | other {c t l} : ¬Starts (c :: t) → Config l t → Config l (c :: t)
  | channel {l t c v} : isDigit c = true → v < 10 → Config l t → Config ((c, v) :: l) (entry c v ++ t)

end Verif.Spec.TofwerkFile
