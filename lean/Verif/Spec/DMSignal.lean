import Verif.Model.DMSignal
/-!
What Digital Micrograph stores, independently of the reader: dimensions are X, Y, Z, … with X varying
fastest, each with its calibration; and what the signals read from a file are to be.
-/
namespace Verif.DMSignal

/-- Place of a pixel among the stored values; the first dimension varies fastest. -/
def place : List Nat → List Nat → Nat
  | n :: ns, i :: is => i + n * place ns is
  | _, _ => 0

/-- The data types of Digital Micrograph that hold one number or one colour per pixel, with their size in bytes:
integers of 1, 2 and 4 bytes (signed 9, 1, 7; unsigned 6, 10, 11), reals (2, 12), complex numbers (3, 13),
binary (14) and colours (8, 23). -/
def pixelTypes : List (Nat × Nat) :=
  [(9, 1), (1, 2), (7, 4), (6, 1), (10, 2), (11, 4), (2, 4), (12, 8), (3, 8), (13, 16), (14, 1), (8, 4), (23, 4)]

/-- The file holds the value `val c` at every pixel `c` (X first), in numbers of `w` bytes. -/
def Holds (im : Im) (w : Nat) (file : List UInt8) (val : List Nat → Nat) : Prop :=
  im.offset + size im.dims * w ≤ file.length ∧
  ∀ c, InBounds im.dims c → val c < 256 ^ w ∧
    (file.drop (im.offset + place im.dims c * w)).take w =
      if im.big then beBytes w (val c) else leBytes w (val c)

/-- The array read holds at every pixel the value `val c`; the axes of the array are in reverse order. -/
def Shows (im : Im) (val : List Nat → Nat) : Data → Prop
  | .array sh at_ => sh = im.dims.reverse ∧ ∀ c, InBounds im.dims c → at_ c.reverse = some (val c)
  | .packed _ => False

/-- The same number with its bytes `b g r a` in the order `r g b a`. -/
def swapRB (v : Nat) : Nat :=
  v / 65536 % 256 + 256 * (v / 256 % 256) + 65536 * (v % 256) + 16777216 * (v / 16777216)

/-- The axis read for dimension `k` has its size and calibration; missing calibrations are neutral. -/
def Calibrated (im : Im) (axs : List Axis) : Prop :=
  axs.length = im.dims.length ∧
  ∀ (k : Nat) (n : Nat), im.dims[k]? = some n → ∃ a, axs[im.dims.length - 1 - k]? = some a ∧
    a.size = n ∧ a.index = im.dims.length - 1 - k ∧
    (∀ c, im.cals[k]? = some c → a.scale = c.scale ∧ a.offset = -(c.origin * c.scale) ∧ a.units = c.units) ∧
    (im.cals.length ≤ k → a.scale = 1 ∧ a.offset = 0 ∧ a.units = [])

/-- Marked as a spectrum or spectrum image. -/
def Spectral (im : Im) : Prop :=
  im.format = some "Spectrum image".toList ∨ im.format = some "Spectrum".toList ∨ im.spim = true

/-- The first dimension is a signal axis, the second too unless the image is a line of spectra;
the others are navigation axes. -/
def Navigated (im : Im) (axs : List Axis) : Prop :=
  ∀ (k : Nat) a, axs[im.dims.length - 1 - k]? = some a → k < im.dims.length →
    (a.navigate = false ↔ k = 0 ∨ (k = 1 ∧ ¬ (Spectral im ∧ im.dims.length = 2)))

/-- Names of the space axes. -/
def letter : Nat → Option Text
  | 0 => some "x".toList
  | 1 => some "y".toList
  | 2 => some "z".toList
  | _ => none

/-- Dimension `k` is the last with these units. -/
def LastWith (im : Im) (u : Text) (k : Nat) : Prop :=
  k < im.dims.length ∧ (∃ c, im.cals[k]? = some c ∧ c.units = u) ∧
    ∀ (j : Nat) c, k < j → im.cals[j]? = some c → c.units ≠ u

/-- Dimension `s` has this name and the others are `x`, `y`, `z` in turn. -/
def NamedBut (im : Im) (s : Nat) (name : Text) (axs : List Axis) : Prop :=
  ∀ (k : Nat) a, axs[im.dims.length - 1 - k]? = some a → k < im.dims.length →
    a.name = if k = s then some name else letter (if k < s then k else k - 1)

/-- The dimensions are `x`, `y`, `z`. -/
def NamedPlain (im : Im) (axs : List Axis) : Prop :=
  ∀ (k : Nat) a, axs[im.dims.length - 1 - k]? = some a → k < im.dims.length → a.name = letter k

def IsXray (im : Im) : Prop := im.signal = some "X-ray".toList

def IsCL (im : Im) : Prop := ¬ IsXray im ∧ (im.signal = some "CL".toList ∨ im.monarc = true)

def IsEels (im : Im) : Prop :=
  ¬ IsXray im ∧ ¬ IsCL im ∧ (im.signal = some "EELS".toList ∨ im.spimEels = true)

instance (im : Im) : Decidable (IsXray im) := by unfold IsXray; infer_instance
instance (im : Im) : Decidable (IsCL im) := by unfold IsCL; infer_instance
instance (im : Im) : Decidable (IsEels im) := by unfold IsEels; infer_instance

/-- The axes of an image. -/
def AxesOf (im : Im) (axs : List Axis) : Prop :=
  Calibrated im axs ∧ Navigated im axs ∧
  (∀ k, IsEels im → LastWith im "eV".toList k → NamedBut im k "Energy loss".toList axs) ∧
  (∀ k, IsCL im → LastWith im "nm".toList k → NamedBut im k "Wavelength".toList axs) ∧
  ((¬ IsEels im ∨ ∀ k, ¬ LastWith im "eV".toList k) → (¬ IsCL im ∨ ∀ k, ¬ LastWith im "nm".toList k) →
    NamedPlain im axs)

/-- The signal read for an image whose pixels are `val`. -/
def SignalOf (filename : Text) (im : Im) (val : List Nat → Nat) (s : Signal) : Prop :=
  s.original = im ∧ s.title = im.name ∧ s.filename = filename ∧ AxesOf im s.axes ∧
  Shows im (fun c => if im.dataType = 8 ∨ im.dataType = 23 then swapRB (val c) else val c) s.data ∧
  (s.toSpectrum = true ↔ (im.format = some "Spectrum image".toList ∨ im.spim = true) ∧ 2 < im.dims.length) ∧
  (IsXray im → s.signalType = "EDS_TEM".toList) ∧ (IsCL im → s.signalType = "CL".toList) ∧
  (IsEels im → s.signalType = "EELS".toList) ∧
  (¬ IsXray im → ¬ IsCL im → ¬ IsEels im → s.signalType = [])

end Verif.DMSignal
