import Verif.Model.Jeol
/-!
What the words of a JEOL event stream mean, independently of the readers: the last position words
before an event give its pixel, and a frame ends before the first row word that goes back.
-/
namespace Verif.Jeol

/-- The values of the words of a type. -/
def valuesOf (ty : Nat) (ws : List Nat) : List Nat := (ws.filter (· / 4096 = ty)).map (· % 4096)

/-- `a` is the first frame of the stream `a ++ b`: its rows do not go back, and the next word, if
any, is a row before its last one. -/
def IsFrame (a b : List Nat) : Prop :=
  (valuesOf 9 a).Pairwise (· ≤ ·) ∧
    ∀ w t, b = w :: t → w / 4096 = 9 ∧ ∃ y, (valuesOf 9 a).getLast? = some y ∧ w % 4096 < y

/-- Row, column and channel of the X-ray events of some words inside the map; `x`, `y` is the position
before them. -/
def eventsOf (p : Par) : Int → Int → List Nat → List (Int × Int × Int)
  | _, _, [] => []
  | x, y, w :: ws =>
    if w / 4096 = 8 then eventsOf p ((w % 4096 / p.wnorm : Nat) + p.dx) y ws
    else if w / 4096 = 9 then eventsOf p x ((w % 4096 / p.hnorm : Nat) + p.dy) ws
    else if w / 4096 = 11 then
      let z : Int := (w % 4096 / p.rebin : Nat) + p.dz
      if (0 ≤ x ∧ x < p.width) ∧ (0 ≤ y ∧ y < p.height) ∧ (0 ≤ z ∧ z < p.channels) then
        (y, x, z) :: eventsOf p x y ws
      else eventsOf p x y ws
    else eventsOf p x y ws

/-- Row, column and value of the S(T)EM image words inside the map. -/
def emEventsOf (p : Par) : Int → Int → List Nat → List (Int × Int × Nat)
  | _, _, [] => []
  | x, y, w :: ws =>
    if w / 4096 = 8 then emEventsOf p ((w % 4096 / p.wnorm : Nat) + p.dx) y ws
    else if w / 4096 = 9 then emEventsOf p x ((w % 4096 / p.hnorm : Nat) + p.dy) ws
    else if w / 4096 = 10 ∧ (0 ≤ x ∧ x < p.width) ∧ (0 ≤ y ∧ y < p.height) then
      (y, x, w % 4096) :: emEventsOf p x y ws
    else emEventsOf p x y ws

/-- Number of X-ray events of a frame at a position. -/
def counts (p : Par) (a : List Nat) : Map := fun y x z => (eventsOf p 0 0 a).count (y, x, z)

/-- A frame is complete: its last row is the last of the map and, if there is a S(T)EM image, its last
column too. -/
def Complete (p : Par) (a : List Nat) : Prop :=
  (∃ y, (valuesOf 9 a).getLast? = some y ∧ 4096 ≤ y + p.hnorm) ∧
    (emEventsOf p 0 0 a = [] ∨ ∃ x, (valuesOf 8 a).getLast? = some x ∧ 4096 ≤ x + p.wnorm)

/-- The stream cut into frames. -/
inductive Frames : List Nat → List (List Nat) → Prop
  | nil : Frames [] []
  | cons {a b : List Nat} {fs : List (List Nat)} : a ≠ [] → IsFrame a b → Frames b fs →
      Frames (a ++ b) (a :: fs)

end Verif.Jeol
