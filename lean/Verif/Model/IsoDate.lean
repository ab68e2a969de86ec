import Verif.Model.DateTime
import Verif.Py.Text
/-!
Model of `serial_date_to_ISO_format` and `ISO_format_to_serial_date` of `rsciio/utils/_date_time.py`, lines 28-50.

External code as parameters (`Env`): `dateutil` (the parser, the time zones by name and the local time zone) and the texts of dates and times.
A date and time without zone is its distance in seconds from 1899-12-30 on the clock that shows it; a zone gives the seconds that its clock is ahead
of UTC when it shows a time. Simplifications: microseconds are left out; the parser finds numeric zones only, as it does outside of UTC and the local
zone; serial dates are exact, as in `DateTime`.
-/
namespace Verif.IsoDate
open Verif.DateTime

/-- A time zone: seconds ahead of UTC, by what its clock shows. -/
abbrev Zone := Int → Int

/-- A `datetime`: what the clock shows, and its zone. -/
abbrev Stamp := Int × Option Zone

structure Env where
  /-- `dateutil.parser.parse` -/
  parse : Text → Py Stamp
  /-- `tz.gettz` -/
  gettz : Text → Option Zone
  /-- the local time zone: seconds ahead of UTC at a moment, in seconds from the origin -/
  ahead : Int → Int
  /-- its name at a moment -/
  name : Int → Text
  /-- texts of the date and of the time that a clock shows -/
  dateText : Int → Text
  timeText : Int → Text

def tUtc : Text := "UTC".toList

/-- `datetime_to_serial_date`, lines 53-59: a time without zone is UTC. -/
def serialOf (d : Stamp) : ℚ :=
  match d.2 with
  | none => datetimeToSerial d.1 0
  | some z => datetimeToSerial (d.1 - z d.1) 0

/-- Lines 40-41. -/
def zoneName : Option Text → Text
  | none => tUtc
  | some t => if t = "Coordinated Universal Time".toList then tUtc else t

/-- `ISO_format_to_serial_date`, lines 38-50. -/
def isoToSerial (env : Env) (date time : Text) (timezone : Option Text) : Py ℚ := do
  let name := zoneName timezone
  let dt ← env.parse (date ++ ['T'] ++ time)
  match env.gettz name, dt.2 with
  | none, none =>
    let dt ← env.parse (date ++ ['T'] ++ time ++ name)
    .ok (serialOf dt)
  | some z, _ => .ok (serialOf (dt.1, some z))
  | none, some _ => .ok (serialOf dt)

/-- `serial_date_to_ISO_format`, lines 28-35: date, time and name of the zone. -/
def serialToIso (env : Env) (serial : ℚ) : Text × Text × Text :=
  let u := ⌊serialToDatetime serial⌋
  let s := u + env.ahead u
  (env.dateText s, env.timeText s, env.name u)

end Verif.IsoDate
