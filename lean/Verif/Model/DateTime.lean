import Mathlib.Algebra.Order.Floor.Defs
import Mathlib.Data.Rat.Floor
/-!
Model of the serial-date functions of `rsciio/utils/_date_time.py`, lines 53-68.

A date and time is its distance in seconds from the origin 1899-12-30 (UTC). Simplification:
`float` arithmetic is exact rational arithmetic, so a serial date is a rational number, and the
microseconds that `delta.seconds` ignores are a separate argument.
-/
namespace Verif.DateTime

/-- `datetime_to_serial_date`, lines 53-59, for a time that is `secs` whole seconds and `micro`
microseconds (`0 ≤ micro < 10^6`) after the origin. `timedelta` keeps `days` (rounded down),
`seconds` in `[0, 86400)` and `microseconds`, and the last are not used. -/
def datetimeToSerial (secs : Int) (_micro : Nat) : ℚ :=
  let days := secs / 86400          -- delta.days (floor division)
  let seconds := secs % 86400       -- delta.seconds
  (days : ℚ) + (seconds : ℚ) / 86400

/-- Python's `int(x)`: truncation towards zero (line 67). -/
def pyInt (x : ℚ) : Int := if 0 ≤ x then ⌊x⌋ else ⌈x⌉

/-- Python's `x % 1.0` (line 66): the result has the sign of the divisor. -/
def pyMod1 (x : ℚ) : ℚ := x - ⌊x⌋

/-- `serial_date_to_datetime`, lines 62-68, in seconds after the origin. -/
def serialToDatetime (serial : ℚ) : ℚ :=
  (pyInt serial : ℚ) * 86400 + pyMod1 serial * 86400

end Verif.DateTime
