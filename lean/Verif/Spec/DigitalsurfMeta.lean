import Verif.Model.DigitalsurfMeta
import Verif.Spec.DigitalsurfComment
/-!
Specification of the metadata of Digital Surf files, for `Props/DigitalsurfMeta.lean`. Of the model only types are used.
-/
namespace Verif.Spec.DigitalsurfMeta
open Verif Verif.DigitalsurfMeta
open Verif.DigitalsurfComment (Node isBreak)

def digit (n : Nat) : Char := Char.ofNat (48 + n % 10)

/-- Two and four digits. -/
def digits2 (n : Nat) : Text := [digit (n / 10), digit n]
def digits4 (n : Nat) : Text := [digit (n / 1000), digit (n / 100), digit (n / 10), digit n]

def isoDate (y m d : Nat) : Text := digits4 y ++ '-' :: digits2 m ++ '-' :: digits2 d
def isoTime (h m s : Nat) : Text := digits2 h ++ ':' :: digits2 m ++ ':' :: digits2 s

/-- A date and time with years of four digits. -/
structure Clock where
  year : Nat
  month : Nat
  day : Nat
  hour : Nat
  minute : Nat
  second : Nat
  hy : 1000 ≤ year ∧ year ≤ 9999
  hm : month ≤ 12
  hd : day ≤ 31
  hh : hour ≤ 23
  hi : minute ≤ 59
  hs : second ≤ 59

def Clock.date (c : Clock) : Text := isoDate c.year c.month c.day
def Clock.time (c : Clock) : Text := isoTime c.hour c.minute c.second

/-- The fields of a header have these numbers. -/
def Holds (h : Head) (c : Clock) : Prop :=
  h.year = c.year ∧ h.month = c.month ∧ h.day = c.day ∧ h.hours = c.hour ∧ h.minutes = c.minute ∧ h.seconds = c.second

/-- `dateutil` reads dates and times in the format of ISO. -/
def Parses (P : Parser) : Prop :=
  ∀ c : Clock, P.parse (c.date ++ 'T' :: c.time) = .ok ⟨c.year, c.month, c.day, c.hour, c.minute, c.second⟩

/-- A name without white space at its ends. -/
def Trimmed (t : Text) : Prop := (∀ c ∈ t.head?, isSpace c = false) ∧ ∀ c ∈ t.getLast?, isSpace c = false

/-- Units: not empty, without white space, parentheses and brackets. -/
def Units (u : Text) : Prop := u ≠ [] ∧ ∀ c ∈ u, isSpace c = false ∧ c ≠ '(' ∧ c ≠ ')' ∧ c ≠ '[' ∧ c ≠ ']'

/-- The fields 40 to 46 of a header. -/
def withFields (h : Head) : List Int → Option Head
  | [s, mi, hh, d, m, y, _] => some { h with seconds := s, minutes := mi, hours := hh, day := d, month := m, year := y }
  | _ => none

/-! ### Comments -/

/-- The text of lines. -/
def Lines (ls : List Text) (t : Text) : Prop := t = (ls.map (· ++ ['\n'])).flatten ∧ ∀ l ∈ ls, ∀ c ∈ l, isBreak c = false

/-- A blank line, or one that begins with two signs. -/
def Ignored (l : Text) : Prop := (∀ c ∈ l, isSpace c = true) ∨ ∃ r, l = '@' :: '@' :: r

/-- A title, or a key with a value. -/
def Title (l : Text) : Prop := ∃ r, l = '$' :: '_' :: r
def Pair (l : Text) : Prop := ∃ k v, l = '$' :: k ++ '=' :: v

/-- All lines are metadata, and there are some. -/
def Parsable (ls : List Text) : Prop := (∃ l ∈ ls, ¬ Ignored l) ∧ ∀ l ∈ ls, Ignored l ∨ Title l ∨ Pair l

/-- The key of an object in the original metadata. -/
def ObjectKey (k : Text) : Prop :=
  ∃ a r : Text, k = "Object_".toList ++ a ++ "_Channel_".toList ++ r ∧ ∀ c ∈ a, 48 ≤ c.toNat ∧ c.toNat ≤ 57

/-- No object has parsed metadata here. -/
def NoParsed {V : Type} (omd : List (Text × Node V)) : Prop :=
  ∀ k l, (k, Node.dict l) ∈ omd → ObjectKey k → "Parsed".toList ∉ l.map Prod.fst

/-! ### Cathodoluminescence -/

/-- Entry of a dictionary, with different keys. -/
def HasEntry {α : Type} (d : List (Text × α)) (k : String) (v : α) : Prop := (k.toList, v) ∈ d ∧ (d.map Prod.fst).Nodup

/-- The entry of a section of the comment, if there is one. -/
inductive InSection {V : Type} (parsed : List (Text × List (Text × V))) (sec key : String) : Option V → Prop
  | found {l : List (Text × V)} {v : V} (hs : HasEntry parsed sec l) (hk : HasEntry l key v) : InSection parsed sec key (some v)
  | noKey {l : List (Text × V)} (hs : HasEntry parsed sec l) (hk : key.toList ∉ l.map Prod.fst) : InSection parsed sec key none
  | noSection (hs : sec.toList ∉ parsed.map Prod.fst) : InSection parsed sec key none

/-- A quantity of the metadata, its section and its key in the comment, with the units beside the value. -/
inductive Quantity : String → String → String → String → Prop
  | energy : Quantity "SEM" "beam_energy" "SEM" "Beam Energy"
  | entrance : Quantity "Spectrometer" "entrance_slit_width" "SPECTROMETER" "Entrance slit width"
  | exit : Quantity "Spectrometer" "exit_slit_width" "SPECTROMETER" "Exit slit width"
  | wavelength : Quantity "Spectrometer" "central_wavelength" "SPECTROMETER" "Central wavelength"
  | grooves : Quantity "Spectrometer" "groove_density" "SPECTROMETER" "Grating - Groove Density"
  | pixel : Quantity "Detector" "pixel_size" "CCD" "Pixel Width"

/-- Other entries without units. -/
inductive Single : String → String → String → String → Prop
  | magnification : Single "SEM" "magnification" "SEM" "Real Magnification"
  | grating : Single "Spectrometer" "Grating" "SPECTROMETER" "Grating"
  | blaze : Single "Spectrometer" "blazing_wavelength" "SPECTROMETER" "Grating - Blaze Angle"
  | model : Single "Detector" "model" "CCD" "Camera Model"
  | exposure : Single "Detector" "integration_time" "CCD" "Exposure Time"

/-- Positions and angles of the stage. -/
inductive OnStage : String → String → String → Prop
  | rotation : OnStage "rotation" "stage_rotation_z" "deg"
  | alpha : OnStage "tilt_alpha" "stage_rotation_x" "deg"
  | beta : OnStage "tilt_beta" "stage_rotation_y" "deg"
  | x : OnStage "x" "stage_position_x" "mm"
  | y : OnStage "y" "stage_position_y" "mm"
  | z : OnStage "z" "stage_position_z" "mm"

/-- A part of the instrument. -/
def Part {V : Type} (m : List (Text × Item V)) (name : String) (p : List (Text × Item V)) : Prop :=
  ∃ i, HasEntry m "Acquisition_instrument" (.dict i) ∧ HasEntry i name (.dict p)

end Verif.Spec.DigitalsurfMeta
