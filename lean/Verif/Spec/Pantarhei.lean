import Verif.Model.Pantarhei
/-! What Panta Rhei calibrations mean. -/
namespace Verif.Pantarhei

/-- The coordinate of sample `j` of a dimension: the offset is in pixels. -/
def coordinate (o v : Rat) (pixelFactor : Option Rat) (j : Nat) : Rat := o * v + j * (v * pixelFactor.getD 1)

/-- The axis `a` has the calibration `c`; if `flipped`, samples are in reverse order and coordinates have the
other sign. -/
def Calibrated (a : Axis) (c : Option Calib) (flipped : Prop) : Prop :=
  (c = none ∨ c = some ⟨none, none, none, none⟩) ∧ a.units = none ∧ a.offset = none ∧ a.scale = none ∨
  ∃ c' o v off sc, c = some c' ∧ c'.offset = some o ∧ c'.value = some v ∧ a.units = c'.unit ∧ a.offset = some off ∧
    a.scale = some sc ∧ (¬ flipped → ∀ i, i < a.size → off + i * sc = coordinate o v c'.pixelFactor i) ∧
    (flipped → ∀ i, i < a.size → off + i * sc = -coordinate o v c'.pixelFactor (a.size - 1 - i))

end Verif.Pantarhei
