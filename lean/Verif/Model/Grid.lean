import Verif.Base
import Mathlib.Data.List.Sort

/-!
# Electricity tariffs: `/repo/pylesa/power/grid.py` and the grid part of
`/repo/pylesa/initialise_classes.py`

Prices are exact rationals. The wind farm power series comes from windpowerlib (an external library)
and is a parameter. `datetime` is modelled by the proleptic Gregorian day number it documents.
The plots and the unused difference series are not modelled. Nor is `findhorn_tariff` (L263-285),
which no code calls and which returns nothing.
-/

set_option autoImplicit false

namespace Verif
namespace Tariff

/-- The column names of the variable period table, `/repo/pylesa/io/read_excel.py` L349-356; the values
of `strftime("%A")` in an English locale, L152 and L154. -/
inductive Weekday where
  | monday | tuesday | wednesday | thursday | friday | saturday | sunday
  deriving DecidableEq, Repr

/-- `datetime.weekday()`: 0 is Monday. -/
def weekdayOfNumber (n : ℕ) : Weekday :=
  match n % 7 with
  | 0 => .monday
  | 1 => .tuesday
  | 2 => .wednesday
  | 3 => .thursday
  | 4 => .friday
  | 5 => .saturday
  | _ => .sunday

/-- Python's `calendar.isleap`. -/
def isLeap (y : ℕ) : Bool := y % 4 = 0 ∧ (y % 100 ≠ 0 ∨ y % 400 = 0)

/-- Days before 1 January of year `y ≥ 1` (`datetime`'s `_days_before_year`). -/
def daysBeforeYear (y : ℕ) : ℕ := (y - 1) * 365 + (y - 1) / 4 - (y - 1) / 100 + (y - 1) / 400

/-- Days of year `y` before the first of month `m` (`datetime`'s `_days_before_month`). -/
def daysBeforeMonth (y m : ℕ) : ℕ :=
  let base := match m with
    | 1 => 0 | 2 => 31 | 3 => 59 | 4 => 90 | 5 => 120 | 6 => 151 | 7 => 181 | 8 => 212 | 9 => 243
    | 10 => 273 | 11 => 304 | _ => 334
  if m > 2 ∧ isLeap y then base + 1 else base

/-- `datetime(y, m, d).toordinal()`: 1 January of year 1 is day 1. -/
def toOrdinal (y m d : ℕ) : ℕ := daysBeforeYear y + daysBeforeMonth y m + d

/-- `datetime.datetime(year, m, d).strftime("%A")`, L151-154: years outside 1..9999 are refused.
Only called with a month and day that exist in every year. -/
def dayName (year : ℤ) (m d : ℕ) : Except PyErr Weekday :=
  if year < 1 ∨ year > 9999 then .error .valueError
  else .ok (weekdayOfNumber (toOrdinal year.toNat m d + 6))

/-- The attributes of `Grid` the tariffs read (L18-45); `none` where the caller leaves the default
`None`. `flatRate` is `flat_rate['import']`; `periods` is the table of 24 hourly prices per weekday. -/
structure Grid where
  tariff : String
  flatRate : Option ℚ := none
  periods : Option (Weekday → List ℚ) := none
  year : Option ℤ := none
  wholesale : Option (List ℚ) := none
  premium : Option ℚ := none
  maximum : Option ℚ := none
  lowerPercent : Option ℚ := none
  higherPercent : Option ℚ := none
  lowerPenalty : Option ℚ := none
  higherDiscount : Option ℚ := none

/-- Using `None` in arithmetic, in a comparison, as an argument of `datetime` or as a table. -/
def need {α : Type} : Option α → Except PyErr α
  | some x => .ok x
  | none => .error .typeError

/-- Reading a missing row of a pandas column. -/
def column (xs : List ℚ) (t : ℕ) : Except PyErr ℚ :=
  match xs[t]? with
  | some x => .ok x
  | none => .error .keyError

/-- Reading past the end of the power series, which is indexed by time (L122): by position. -/
def position (xs : List ℚ) (t : ℕ) : Except PyErr ℚ :=
  match xs[t]? with
  | some x => .ok x
  | none => .error .indexError

/-- `flat_rates_series`, L102-108. -/
def flatRatesSeries (g : Grid) : Except PyErr (List ℚ) := do
  let price ← need g.flatRate
  return List.replicate 8760 price

/-- Body of the loops of `variable_periods_series`, L162 and L164. -/
def periodPrice (table : Weekday → List ℚ) (day : Weekday) (hour : ℕ) : Except PyErr ℚ :=
  column (table day) hour

/-- The 24 prices of one day, L161-162 and L163-164. -/
def dayPrices (table : Weekday → List ℚ) (day : Weekday) : Except PyErr (List ℚ) :=
  (List.range 24).mapM (periodPrice table day)

/-- `variable_periods_series`, L145-170: 52 weeks that start with the weekday of 1 January, then one
day with the weekday of 31 December. -/
def variablePeriodsSeries (g : Grid) : Except PyErr (List ℚ) := do
  let year ← need g.year
  let dayList ← (List.range 7).mapM (fun d => dayName year 1 (d + 1))
  let lastDay ← dayName year 12 31
  let table ← need g.periods
  let weeks ← (List.range 52).mapM (fun _ => do
    let days ← dayList.mapM (dayPrices table)
    return days.flatten)
  let last ← dayPrices table lastDay
  return weeks.flatten ++ last

/-- Body of the loop of `tou_wm_series`, L214-222. -/
def wholesaleHour (g : Grid) (wm : List ℚ) (day hour : ℕ) : Except PyErr ℚ := do
  let currentHour := hour + day * 24
  let w ← column wm currentHour
  if hour = 16 ∨ hour = 17 ∨ hour = 18 then
    let premium ← need g.premium
    let maximum ← need g.maximum
    return min (22 / 10 * w + premium) maximum
  else
    let maximum ← need g.maximum
    return min (22 / 10 * w) maximum

/-- `tou_wm_series`, L207-226. -/
def touWmSeries (g : Grid) : Except PyErr (List ℚ) := do
  let wm ← need g.wholesale
  let days ← (List.range 365).mapM (fun day => (List.range 24).mapM (wholesaleHour g wm day))
  return days.flatten

/-- `np.sort(data)[::-1]`, L83. -/
def sortDesc (xs : List ℚ) : List ℚ := xs.insertionSort (· ≥ ·)

/-- `np.where(exceedence_rounded == percent)[0]`, L84-88 and L92-93. Comparing with `None` matches
nothing. -/
def matchingIndices (n : ℕ) (percent : Option ℚ) : List ℕ :=
  (List.range n).filter (fun i => some (pyRound (((i : ℚ) + 1) / n) 2) = percent)

/-- `int(np.median(…))` of a sorted list of indices, L89-90 and L94-95: the mean of the two middle
entries, cut to an integer; of an empty list NaN, which `int` refuses. -/
def intMedian (xs : List ℕ) : Except PyErr ℕ :=
  let k := xs.length
  if k = 0 then .error .valueError
  else if k % 2 = 1 then .ok (xs.getD (k / 2) 0)
  else .ok ((xs.getD (k / 2 - 1) 0 + xs.getD (k / 2) 0) / 2)

/-- One band of `wind_farm_info`, L87-90 and L92-95. -/
def band (power : List ℚ) (percent : Option ℚ) : Except PyErr ℚ := do
  let m ← intMedian (matchingIndices power.length percent)
  position (sortDesc power) m

/-- What `wind_farm_info` returns, L97-98. -/
structure WindFarm where
  lowerBand : ℚ
  higherBand : ℚ
  power : List ℚ

/-- `wind_farm_info`, L67-100, given the power series of the farm. -/
def windFarmInfo (g : Grid) (power : List ℚ) : Except PyErr WindFarm := do
  let lower ← band power g.lowerPercent
  let higher ← band power g.higherPercent
  return ⟨lower, higher, power⟩

/-- Body of the loops L121-127, L183-189 and L240-246. -/
def ppaHour (g : Grid) (w : WindFarm) (base : List ℚ) (t : ℕ) : Except PyErr ℚ := do
  let p ← position w.power t
  let b ← position base t
  if p ≥ w.higherBand then
    let d ← need g.higherDiscount
    return b - d
  else if p ≤ w.lowerBand then
    let d ← need g.lowerPenalty
    return b + d
  else return b

/-- The loops of the three purchase agreement tariffs. -/
def ppaSeries (g : Grid) (w : WindFarm) (base : List ℚ) : Except PyErr (List ℚ) :=
  (List.range 8760).mapM (ppaHour g w base)

/-- `flat_rates_wind`, L110-143. -/
def flatRatesWind (g : Grid) (power : List ℚ) : Except PyErr (List ℚ) := do
  let fr ← flatRatesSeries g
  let w ← windFarmInfo g power
  ppaSeries g w fr

/-- `variable_periods_wind`, L172-205. -/
def variablePeriodsWind (g : Grid) (power : List ℚ) : Except PyErr (List ℚ) := do
  let vp ← variablePeriodsSeries g
  let w ← windFarmInfo g power
  ppaSeries g w vp

/-- `tou_wm_wind_ppa`, L228-261. -/
def touWmWindPpa (g : Grid) (power : List ℚ) : Except PyErr (List ℚ) := do
  let w ← windFarmInfo g power
  let tou ← touWmSeries g
  ppaSeries g w tou

/-- `import_cost_series`, L47-65; `none` is Python's `None` (no branch taken). -/
def importCostSeries (g : Grid) (power : List ℚ) : Except PyErr (Option (List ℚ)) :=
  if g.tariff = "Flat rates" then some <$> flatRatesSeries g
  else if g.tariff = "Variable periods" then some <$> variablePeriodsSeries g
  else if g.tariff = "Time of use - WM" then some <$> touWmSeries g
  else if g.tariff = "Time of use - PPA + WM" then some <$> touWmWindPpa g power
  else if g.tariff = "Time of use - PPA + FR" then some <$> flatRatesWind g power
  else if g.tariff = "Time of use - PPA + VP" then some <$> variablePeriodsWind g power
  else .ok none

/-- The grid inputs read from the sheet, `/repo/pylesa/io/inputs.py` L363-391. -/
structure GridInputs where
  tariff : String
  flatImport : ℚ
  periods : Weekday → List ℚ
  year : ℤ
  wholesale : List ℚ
  premium : ℚ
  maximum : ℚ
  lowerPercent : ℚ
  higherPercent : ℚ
  lowerPenalty : ℚ
  higherDiscount : ℚ

/-- The grid part of `initialise_classes.init`, `/repo/pylesa/initialise_classes.py` L140-223: only the
arguments each tariff needs are given; without a matching tariff `myGrid` is never assigned and its
use at L223 fails. -/
def initGrid (i : GridInputs) : Except PyErr Grid :=
  if i.tariff = "Flat rates" then .ok { tariff := i.tariff, flatRate := some i.flatImport }
  else if i.tariff = "Variable periods" then
    .ok { tariff := i.tariff, periods := some i.periods, year := some i.year }
  else if i.tariff = "Time of use - WM" then
    .ok { tariff := i.tariff, wholesale := some i.wholesale, premium := some i.premium,
          maximum := some i.maximum }
  else if i.tariff = "Time of use - PPA + FR" then
    .ok { tariff := i.tariff, flatRate := some i.flatImport, lowerPercent := some i.lowerPercent,
          higherPercent := some i.higherPercent, higherDiscount := some i.higherDiscount,
          lowerPenalty := some i.lowerPenalty }
  else if i.tariff = "Time of use - PPA + WM" then
    .ok { tariff := i.tariff, wholesale := some i.wholesale, premium := some i.premium,
          maximum := some i.maximum, lowerPercent := some i.lowerPercent,
          higherPercent := some i.higherPercent, higherDiscount := some i.higherDiscount,
          lowerPenalty := some i.lowerPenalty }
  else if i.tariff = "Time of use - PPA + VP" then
    .ok { tariff := i.tariff, periods := some i.periods, year := some i.year,
          lowerPercent := some i.lowerPercent, higherPercent := some i.higherPercent,
          higherDiscount := some i.higherDiscount, lowerPenalty := some i.lowerPenalty }
  else .error .unboundLocalError

end Tariff
end Verif
