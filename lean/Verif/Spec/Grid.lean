import Verif.Model.Grid
import Mathlib.Logic.Function.Iterate

/-!
# What the tariff properties say, apart from the code
-/

set_option autoImplicit false

namespace Verif
namespace Spec
open Tariff

/-! ## The calendar (C39) -/

/-- A day of the Gregorian calendar. -/
structure Date where
  year : ℕ
  month : ℕ
  day : ℕ
  deriving DecidableEq, Repr

/-- Every fourth year has a 29 February, except centuries not divisible by 400. -/
def LeapYear (y : ℕ) : Prop := 4 ∣ y ∧ (¬ 100 ∣ y ∨ 400 ∣ y)

instance (y : ℕ) : Decidable (LeapYear y) := by unfold LeapYear; infer_instance

/-- "Thirty days hath September …". -/
def monthLength (y m : ℕ) : ℕ :=
  if m = 2 then (if LeapYear y then 29 else 28)
  else if m = 4 ∨ m = 6 ∨ m = 9 ∨ m = 11 then 30 else 31

/-- The following day. -/
def nextDay (D : Date) : Date :=
  if D.day < monthLength D.year D.month then ⟨D.year, D.month, D.day + 1⟩
  else if D.month < 12 then ⟨D.year, D.month + 1, 1⟩
  else ⟨D.year + 1, 1, 1⟩

/-- The day `n` days after 1 January of year 1. -/
def dateAt (n : ℕ) : Date := nextDay^[n] ⟨1, 1, 1⟩

/-- The following weekday. -/
def nextWeekday : Weekday → Weekday
  | .monday => .tuesday
  | .tuesday => .wednesday
  | .wednesday => .thursday
  | .thursday => .friday
  | .friday => .saturday
  | .saturday => .sunday
  | .sunday => .monday

/-- The weekday `n` days after 1 January of year 1, which was a Monday. -/
def weekdayAt (n : ℕ) : Weekday := nextWeekday^[n] .monday

/-- A date that exists. -/
structure DateOk (D : Date) : Prop where
  year : 1 ≤ D.year
  month : 1 ≤ D.month ∧ D.month ≤ 12
  day : 1 ≤ D.day ∧ D.day ≤ monthLength D.year D.month

/-! ## Prices -/

/-- C37: the documented wholesale price of an hour of the year. -/
def wholesalePrice (market premium maximum : ℚ) (t : ℕ) : ℚ :=
  if 16 ≤ t % 24 ∧ t % 24 < 19 then min (22 / 10 * market + premium) maximum
  else min (22 / 10 * market) maximum

/-- C38: the documented purchase agreement price of an hour. -/
def agreementPrice (lower higher discount penalty power base : ℚ) : ℚ :=
  if higher ≤ power then base - discount else if power ≤ lower then base + penalty else base

/-- C38: `x` is exceeded `percent` of the time (to the nearest hundredth): for some `m` with
`m / hours` rounding to `percent`, at least `m` hours reach `x` and fewer than `m` exceed it. -/
def ExceededFor (power : List ℚ) (percent x : ℚ) : Prop :=
  ∃ m : ℕ, 1 ≤ m ∧ m ≤ power.length ∧ pyRound ((m : ℚ) / power.length) 2 = percent ∧
    m ≤ power.countP (fun p => x ≤ p) ∧ power.countP (fun p => x < p) < m

/-- C36: a percentage the sheet can express: a whole number of hundredths up to one. -/
def WholePercent (p : ℚ) : Prop := ∃ j : ℕ, j ≤ 100 ∧ p = j / 100

/-- C36: complete grid inputs. -/
structure TariffSheetOk (i : GridInputs) (power : List ℚ) : Prop where
  year : 1 ≤ i.year ∧ i.year ≤ 9999
  periods : ∀ d, (i.periods d).length = 24
  wholesale : i.wholesale.length = 8760
  power : power.length = 8760
  lowerPercent : WholePercent i.lowerPercent
  higherPercent : WholePercent i.higherPercent

/-- C36: the six tariffs of the sheet. -/
def tariffNames : List String :=
  ["Flat rates", "Variable periods", "Time of use - WM", "Time of use - PPA + WM",
   "Time of use - PPA + FR", "Time of use - PPA + VP"]

/-- A complete sheet for examples. -/
def sampleTariffSheet (tariff : String) : GridInputs :=
  { tariff := tariff, flatImport := 150, periods := fun d => List.replicate 24 (if d = .sunday then 80 else 120),
    year := 2020, wholesale := List.replicate 8760 40, premium := 120, maximum := 350,
    lowerPercent := 67 / 100, higherPercent := 33 / 100, lowerPenalty := 30, higherDiscount := 20 }

/-- A wind farm year for examples: half the hours calm, half windy. -/
def samplePower : List ℚ := List.replicate 4380 0 ++ List.replicate 4380 1000

end Spec
end Verif
