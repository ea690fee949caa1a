import Verif.Model.Grid
import Verif.Model.Run

/-!
# Demand profiles: `/repo/pylesa/demand/electricity_demand.py` and `/repo/pylesa/demand/heat_demand.py`

The Elexon table, the sheets of standard heat profiles and the inputs (houses, air temperature, hot
water) are parameters; where they come from is in `Model/DemandFiles.lean`. The plots are not modelled.
-/

set_option autoImplicit false

namespace Verif
namespace Demand
open Tariff

/-! ## Electricity -/

/-- The season part of the column names of the Elexon table. -/
inductive Season where
  | wtr | spr | smr | hsr | aut
  deriving DecidableEq, Repr

/-- The day part of the column names. -/
inductive DayType where
  | sat | sun | wd
  deriving DecidableEq, Repr

/-- `time_of_year`, electricity_demand.py L31-63. -/
def timeOfYear (hour : ℤ) : Season :=
  if hour ≥ 0 ∧ hour < 2160 then .wtr
  else if hour ≥ 2160 ∧ hour < 4008 then .spr
  else if hour ≥ 4008 ∧ hour < 5688 then .smr
  else if hour ≥ 5688 ∧ hour < 6744 then .hsr
  else if hour ≥ 6744 ∧ hour < 8280 then .aut
  else .wtr

/-- The weekday of the day number `day` (from 0) after 1 January of `year`: what
`pd.date_range('1/1/year', …)[hour]` gives at L72-73. -/
def weekdayAt (year day : ℕ) : Weekday := weekdayOfNumber (toOrdinal year 1 1 + day + 6)

/-- `day_of_week`, L66-80. The range has 8760 hours. (pandas refuses years outside 1678 to 2262;
such years are outside the model.) -/
def dayOfWeek (year hour : ℕ) : Except PyErr DayType :=
  if hour < 8760 then
    .ok (match weekdayAt year (hour / 24) with
      | .saturday => .sat
      | .sunday => .sun
      | _ => .wd)
  else .error .indexError

/-- `df[column_name][hour_day]`, L92. -/
def tableAt (table : Season → DayType → List ℚ) (s : Season) (d : DayType) (h : ℕ) : Except PyErr ℚ :=
  match (table s d)[h]? with
  | some x => .ok x
  | none => .error .keyError

/-- One hour of `year_time_series`, L88-92. -/
def seriesHour (table : Season → DayType → List ℚ) (year hour : ℕ) : Except PyErr ℚ := do
  let d ← dayOfWeek year hour
  tableAt table (timeOfYear hour) d (hour % 24)

/-- `year_time_series`, L83-95. -/
def yearTimeSeries (table : Season → DayType → List ℚ) (year : ℕ) : Except PyErr (List ℚ) :=
  (List.range 8760).mapM (seriesHour table year)

/-- `profile_from_input`, L98-116; `counts` is the column 'Number of type'. Without houses Python
returns the number 0 instead of an array; that case is an error here. -/
def profileFromInput (table : Season → DayType → List ℚ) (year : ℕ) (counts : List ℚ) :
    Except PyErr (List ℚ) := do
  let standard ← yearTimeSeries table year
  match counts with
  | [] => .error .other
  | _ => .ok (standard.map fun x => counts.foldl (fun acc n => acc + x * n) 0)

/-! ## Smoothing -/

/-- `movingaverage`, electricity_demand.py L121-124 and heat_demand.py L250-253, for at least `w`
values. -/
def movingAverage (w : ℕ) (y : List ℚ) : List ℚ :=
  (List.range (y.length + 1 - w)).map fun i => ((y.drop i).take w).sum / w

/-- `np.insert(xs, 1, ys)`. -/
def insertAt1 (xs ys : List ℚ) : List ℚ := xs.take 1 ++ ys ++ xs.drop 1

/-- `predicted_demand` of electricity_demand.py L126-135, from the profile on. Profiles shorter than the
window, and profiles whose average is zero throughout (a division by zero that numpy turns into nan),
are outside the model. -/
def predictedElec (y : List ℚ) : Except PyErr (List ℚ) :=
  let yMA := movingAverage 7 y
  if y.length < 7 then .error .other
  else if FixedOrder.listMax yMA = 0 then .error .other
  else
    let ratio := FixedOrder.listMax y / FixedOrder.listMax yMA
    .ok (insertAt1 yMA ((yMA.take 6).map (ratio * ·)))

/-- `predicted_demand` of heat_demand.py L255-264. -/
def predictedHeat (y : List ℚ) : Except PyErr (List ℚ) :=
  let yMA := movingAverage 4 y
  if y.length < 4 then .error .other
  else if FixedOrder.listMax yMA = 0 then .error .other
  else
    let ratio := FixedOrder.listMax y / FixedOrder.listMax yMA
    .ok (insertAt1 yMA ((y.take 3).map (ratio * ·)))

/-! ## Heat -/

/-- The house types of heat_demand.py L46-54. -/
inductive House where
  | detached | semiDetached | midTerrace | detachedBungalow | semiDetachedBungalow
  | groundFloorFlat | midFloorFlat | topFloorFlat
  deriving DecidableEq, Repr

/-- `floor[y]`, L64. -/
def floorArea : ℕ → Option ℚ
  | 1 => some 70
  | 2 => some 90
  | 3 => some 110
  | 4 => some 130
  | 5 => some 150
  | _ => none

/-- The area the standard profile of a type is for, L72-82. -/
def standardArea : House → ℚ
  | .detached => 130
  | .midTerrace => 70
  | _ => 90

/-- `floor_area_scaling_factor()[type][age][bedrooms]`, L41-108: the same for every age. -/
def floorFactor (h : House) (bedrooms : ℕ) : Except PyErr ℚ :=
  match floorArea bedrooms with
  | some a => .ok (pyRound (a / standardArea h) 2)
  | none => .error .keyError

/-- The sheet of a temperature, L144-147. -/
def sheetName (t : ℤ) : String := if t < 0 then "N" ++ toString (-1 * t) else toString t

/-- The sheets there are, L119-120. -/
def sheets : List String :=
  ["N3", "N2", "N1", "0", "1", "2", "3", "4", "5", "6", "7", "8", "9", "10", "11", "12", "13", "14"]

/-- `average_day_temperature`, L161-172, for one day: mean of its 24 hours, rounded to a whole degree
(half to even). -/
def dayTemp (air : List ℚ) (day : ℕ) : ℤ := roundHalfEven (((air.drop (24 * day)).take 24).sum / 24)

/-- L191-195. -/
def clampTemp (t : ℤ) : ℤ := if t > 14 then 14 else if t < -3 then -3 else t

/-- A row of the heating input. -/
structure HouseRow where
  type : House
  age : ℕ
  bedrooms : ℕ
  number : ℚ

/-- The standard profiles: sheet, type, age (by position in the list of ages). -/
abbrev Sheets := String → Option (House → ℕ → List ℚ)

/-- The heat of one row of houses on one day, L190-200 with `standard_day_profile` (L137-149) and
`scaled_day_profile` (L152-158). The assignment to 24 places needs 24 values. -/
def dayProfile (S : Sheets) (air : List ℚ) (r : HouseRow) (day : ℕ) : Except PyErr (List ℚ) :=
  match S (sheetName (clampTemp (dayTemp air day))) with
  | none => .error .keyError
  | some sheet =>
    match floorFactor r.type r.bedrooms with
    | .error e => .error e
    | .ok f =>
      if (sheet r.type r.age).length = 24 then .ok ((sheet r.type r.age).map fun x => x * f * r.number)
      else .error .valueError

/-- The year of one row of houses, L189-200. -/
def houseProfile (S : Sheets) (air : List ℚ) (r : HouseRow) : Except PyErr (List ℚ) := do
  let days ← (List.range 365).mapM (dayProfile S air r)
  .ok days.flatten

/-- `profiles_from_inputs`, L175-202. -/
def profilesFromInputs (S : Sheets) (air : List ℚ) (rows : List HouseRow) : Except PyErr (List (List ℚ)) :=
  rows.mapM (houseProfile S air)

/-- `hot_water_addition`, L205-227: one value, the same for every hour. -/
def hotWaterHour (rows : List HouseRow) (hotWater : ℚ) : ℚ :=
  rows.foldl (fun acc r => acc + (r.bedrooms : ℚ) * r.number) (0 : ℚ) * (3/2) * hotWater / 24

/-- `aggregate`, L230-245. -/
def aggregate (S : Sheets) (air : List ℚ) (rows : List HouseRow) (hotWater : ℚ) : Except PyErr (List ℚ) := do
  let profiles ← profilesFromInputs S air rows
  .ok ((List.range 8760).map fun hour =>
    profiles.foldl (fun acc p => acc + p.getD hour 0) 0 + hotWaterHour rows hotWater)

end Demand
end Verif
