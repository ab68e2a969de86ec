/-!
Specification of an FEI/Thermo Fisher EDS event stream, independent of the readers.

A stream is a sequence of numbers. `65535` ends a pixel; any other number is one X-ray
event in that energy channel. Pixels follow each other in scan order, row by row and
frame after frame.
-/
namespace Verif.FeiSpec

/-- The events of each pixel: cut the stream at the `65535` marks. -/
def pixels : List Nat → List (List Nat)
  | [] => [[]]
  | v :: vs =>
    if v = 65535 then [] :: pixels vs
    else match pixels vs with
      | [] => [[v]]
      | p :: ps => (v :: p) :: ps

/-- The events recorded in frame `f` at row `y`, column `x` of a `ny × nx` map. -/
def eventsOf (stream : List Nat) (ny nx f y x : Nat) : List Nat :=
  (pixels stream)[(f * ny + y) * nx + x]?.getD []

/-- Number of events of frame `f`, pixel `(y, x)` in energy bin `c`, where a bin is made of
`rebin` consecutive channels. -/
def count (stream : List Nat) (ny nx rebin f y x c : Nat) : Nat :=
  (eventsOf stream ny nx f y x).countP (fun e => decide (e / rebin = c))

/-- Number of events summed over frames `first, ..., last - 1`. -/
def countSum (stream : List Nat) (ny nx rebin first last y x c : Nat) : Nat :=
  ((List.range (last - first)).map fun k => count stream ny nx rebin (first + k) y x c).sum

/-- Every event of the frames `first ≤ f < last` falls into one of `nc` energy bins. -/
def InRange (stream : List Nat) (ny nx rebin first last nc : Nat) : Prop :=
  ∀ f y x, first ≤ f → f < last → y < ny → x < nx →
    ∀ e ∈ eventsOf stream ny nx f y x, e / rebin < nc

end Verif.FeiSpec
