import Verif.Model.Grid

/-!
# The time labels of the weather tables

`/repo/pylesa/tools.py` L85-87, `/repo/pylesa/environment/weather.py` L42, L56-58, L74 and
`/repo/pylesa/power/renewables.py` L235-237. `pd.date_range` is modelled by counting hours in the Gregorian calendar,
and the time zone `Europe/London` by its two changes of clock in 2017, as the tz database has them.
-/

set_option autoImplicit false

namespace Verif
namespace TimeIndex
open Tariff

/-- A timestamp with whole hours, as the clock shows it. -/
structure Stamp where
  year : ℕ
  month : ℕ
  day : ℕ
  hour : ℕ
  deriving DecidableEq, Repr

/-- The month of day number `d` (from 0) of year `y`. -/
def monthOf (y d : ℕ) : ℕ := ((List.range 12).filter (fun m => daysBeforeMonth y (m + 1) ≤ d)).length

/-- The timestamp `t` hours after the start of year `y`, within the year. -/
def stamp (y t : ℕ) : Stamp :=
  let d := t / 24
  { year := y, month := monthOf y d, day := d - daysBeforeMonth y (monthOf y d) + 1, hour := t % 24 }

/-- `tools.timeindex`, tools.py L85-87: the labels of the tables for the heat pump (weather.py L74) and, at first,
for the panels (weather.py L42). -/
def timeindex : List Stamp := (List.range 8760).map (stamp 2017)

/-- The labels of the table for the turbines, weather.py L56-58. -/
def windIndex : List Stamp := (List.range 8760).map (stamp 2012)

/-- How many hours the clock in London is ahead, `t` hours after the start of 2017 in Greenwich. -/
def londonOffset (t : ℕ) : ℕ := if 2017 ≤ t ∧ t < 7225 then 1 else 0

/-- The labels the panels' table gets in the end, renewables.py L235-237: hourly steps of time, not of the clock, from
the start of 2017 to the start of 2018 in London, without the last. Clocks there show Greenwich time on both days. -/
def pvIndex : List Stamp := (List.range (365 * 24)).map (fun t => stamp 2017 (t + londonOffset t))

end TimeIndex
end Verif
