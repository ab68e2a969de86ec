import Verif.Model.RenishawMeta
import Verif.Spec.Renishaw
/-! Specification of C159-C161: metadata of `.wdf` files. Of the model only types and the numbers of bit patterns are used. -/
namespace Verif.Spec.RenishawMeta
open Verif Verif.Renishaw

/-! ### Dates -/

/-- Leap years of the Gregorian calendar. -/
def Leap (y : Nat) : Prop := (4 ∣ y ∧ ¬ 100 ∣ y) ∨ 400 ∣ y

instance (y : Nat) : Decidable (Leap y) := by unfold Leap; infer_instance

/-- Days of a month. -/
def days (y m : Nat) : Nat := if m = 2 then if Leap y then 29 else 28 else if m = 4 ∨ m = 6 ∨ m = 9 ∨ m = 11 then 30 else 31

/-- A date and a time of the day. -/
structure Moment where
  year : Nat
  month : Nat
  day : Nat
  hour : Nat
  minute : Nat
  second : Nat

/-- It exists, and is not before 1601. -/
structure Moment.Valid (c : Moment) : Prop where
  year : 1601 ≤ c.year ∧ c.year ≤ 9999
  month : 1 ≤ c.month ∧ c.month ≤ 12
  day : 1 ≤ c.day ∧ c.day ≤ days c.year c.month
  hour : c.hour < 24
  minute : c.minute < 60
  second : c.second < 60

/-- Days from the beginning of 1601 to the beginning of a year. -/
def before (y : Nat) : Nat := 365 * (y - 1601) + (y - 1601) / 4 - (y - 1601) / 100 + (y - 1601) / 400

/-- Seconds since the beginning of 1601. -/
def Moment.seconds (c : Moment) : Nat :=
  86400 * (before c.year + ((List.range (c.month - 1)).map fun i => days c.year (i + 1)).sum + (c.day - 1)) + 3600 * c.hour + 60 * c.minute + c.second

def digit (n : Nat) : Char := Char.ofNat (48 + n % 10)
def Moment.date (c : Moment) : Text :=
  [digit (c.year / 1000), digit (c.year / 100), digit (c.year / 10), digit c.year, '-', digit (c.month / 10), digit c.month, '-', digit (c.day / 10), digit c.day]
def Moment.time (c : Moment) : Text :=
  [digit (c.hour / 10), digit c.hour, ':', digit (c.minute / 10), digit c.minute, ':', digit (c.second / 10), digit c.second]

/-- Microseconds of a number of intervals of 100 ns, as floating-point arithmetic finds them: up to two microseconds wrong (until 2057), and right for whole seconds. -/
structure Close (micro : Nat → Nat) : Prop where
  above : ∀ t < 2 ^ 57, 10 * micro t ≤ t + 20
  below : ∀ t < 2 ^ 57, t ≤ 10 * micro t + 20
  whole : ∀ k, 10000000 * k < 2 ^ 57 → micro (10000000 * k) = 1000000 * k

/-- The names of the units of the intensity. -/
def quantities : List String :=
  ["Arbitrary", "Raman_shift", "Wavelength", "Nanometer", "Electron_volt", "Micrometer", "Counts", "Electrons", "Millimeter", "Meter", "Kelvin", "Pascal",
    "Seconds", "Milliseconds", "Hours", "Days", "Pixels", "Intensity", "Relative_intensity", "Degrees", "Radians", "Celsius", "Fahrenheit",
    "Kelvin_per_minute", "Windows_file_time", "Microseconds"]

/-! ### Entries -/

/-- A dictionary holds a value of this name, itself or in dictionaries in it. -/
inductive Leaf : Dict → Text → Val → Prop
  | here {d : Dict} {k : Text} {v : Val} : (k, v) ∈ d → (∀ d', v ≠ .nested d') → Leaf d k v
  | deep {d d' : Dict} {k k' : Text} {v : Val} : (k', .nested d') ∈ d → Leaf d' k v → Leaf d k v

/-- The only value of this name, which is there. -/
def Only (d : Dict) (k : Text) (v : Val) : Prop := Leaf d k v ∧ v ≠ .none ∧ ∀ v', Leaf d k v' → v' = v

/-- There is no value of this name. -/
def Lacks (d : Dict) (k : Text) : Prop := ∀ v, ¬ Leaf d k v

/-- The number that a value is. -/
inductive Number : Val → Rat → Prop
  | int (i : Int) : Number (.int i) i
  | single (b : Nat) : Number (.single b) (f32Dec b)
  | double (b : Nat) : Number (.double b) (f64Dec b)

/-- The metadata of a file hold a dictionary of this name. -/
def Part (r : Result) (block name : String) (d : Dict) : Prop :=
  ∃ b, getKw block.toList r.metadata = some b ∧ getKw name.toList b = some (.nested d)

/-- They hold nothing of this name. -/
def NoPart (r : Result) (block name : String) : Prop :=
  getKw block.toList r.metadata = none ∨ ∃ b, getKw block.toList r.metadata = some b ∧ getKw name.toList b = none

end Verif.Spec.RenishawMeta
