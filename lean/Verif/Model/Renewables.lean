import Verif.Base

/-!
# Wind and solar power: `/repo/pylesa/power/renewables.py`

pvlib and windpowerlib are parameters: they give a series of power in W (`none` for a missing value).
What is modelled is what the code does with it, and the helper functions of L31-115.
-/

set_option autoImplicit false

namespace Verif
namespace Renewables

/-- The correction factors, L253-264. -/
def cf : List ℚ :=
  [1042785944/1000000000, 1059859907/1000000000, 1037299072/1000000000, 984286745/1000000000, 995849527/1000000000, 973795815/1000000000,
   1003315908/1000000000, 1014427134/1000000000, 1046833/1000000, 1091837017/1000000000, 1039504694/1000000000, 95520793/100000000]

/-- `int(math.floor(hour / 730))`, L268. -/
def monthIndex (hour : ℕ) : ℕ := hour / 730

/-- L247-250 for one hour: missing values are 0, two decimals, system losses twice 0.85, negatives
become 0. -/
def pvRaw (multiplier : ℚ) (ac : Option ℚ) : ℚ :=
  let p := pyRound (ac.getD 0) 2 * multiplier * (1/1000) * (85/100) * (85/100)
  if p < 0 then 0 else p

/-- The loop L267-269, one hour. -/
def corrected (power : List ℚ) (hour : ℕ) : Except PyErr ℚ :=
  match power[hour]?, cf[monthIndex hour]? with
  | some p, some c => .ok (p * c)
  | _, _ => .error .indexError

/-- `PV.power_output`, L210-273; `ac` is the power of one system for the 8760 hours. -/
def pvPower (multiplier : ℚ) (ac : List (Option ℚ)) : Except PyErr (List ℚ) :=
  if multiplier = 0 then .ok (List.replicate 8760 0)
  else (List.range 8760).mapM (corrected (ac.map (pvRaw multiplier)))

/-- The one column of the data frames of `Windturbine`, by name. -/
structure Frame where
  column : String
  values : List ℚ

/-- `df[name]`. -/
def Frame.get (f : Frame) (name : String) : Except PyErr (List ℚ) :=
  if name = f.column then .ok f.values else .error .keyError

/-- `Windturbine.user_power`, L326-369; `power` from windpowerlib, in W. -/
def userPower (multiplier : ℚ) (power : List ℚ) : Frame :=
  if multiplier = 0 then ⟨"wind_user", List.replicate 8760 0⟩
  else ⟨"wind_user", power.map fun p => pyRound (p * multiplier / 1000) 2⟩

/-- `Windturbine.database_power`, L371-431. -/
def databasePower (multiplier : ℚ) (power : List ℚ) : Frame :=
  if multiplier = 0 then ⟨"wind_database", List.replicate 8760 0⟩
  else ⟨"wind_database", power.map fun p => pyRound (p * multiplier * (1/2) / 1000) 2⟩

/-- `Windturbine.wind_farm_power`, L433-481; `farm` is the power of the whole farm. -/
def windFarmPower (multiplier : ℚ) (farm : List ℚ) : Frame :=
  if multiplier = 0 then ⟨"wind_farm", List.replicate 8760 0⟩
  else ⟨"wind_farm", farm.map fun p => pyRound (p * (1/2) / 1000) 2⟩

/-- The wind power a controller uses, fixed_order.py L71-74 and mpc.py L60-63 (columns `wind_user` and
`wind_database`). -/
def windTotal (mUser : ℚ) (pUser : List ℚ) (mData : ℚ) (pData : List ℚ) : Except PyErr (List ℚ) := do
  let u ← (userPower mUser pUser).get "wind_user"
  let d ← (databasePower mData pData).get "wind_database"
  .ok (List.zipWith (· + ·) u d)

/-- The helper `wind_user_power`, L37-61: it asks for the column of the other turbine. -/
def windUserHelper (multiplier : ℚ) (power : List ℚ) : Except PyErr (List ℚ) :=
  (userPower multiplier power).get "wind_database"

/-- The helper `wind_database_power`, L64-85. -/
def windDatabaseHelper (multiplier : ℚ) (power : List ℚ) : Except PyErr (List ℚ) :=
  (databasePower multiplier power).get "wind_user"

/-- `sum_renewable_generation`, L31-34: it calls the helpers without their two arguments. -/
def sumRenewableGeneration : Except PyErr (List ℚ) := .error .typeError

end Renewables
end Verif
