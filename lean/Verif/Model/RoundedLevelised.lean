import Verif.Model.RoundedKpi

/-!
# Levelised costs and lifetime cost with rounding (`/repo/pylesa/io/outputs.py` L1381-1406, L1465-1540, L1555-1584)

Continues `Verif.Model.RoundedKpi`. The power `x ** -0.501` of the price of a store is a parameter: what the library
gives for a float. The sizes are integers of Python; their products with 600 and with a float are rounded once.
-/

set_option autoImplicit false

namespace Verif
namespace RoundedKpi
open FixedOrder Kpi
variable {N : Type} (R : Rounding)

/-- `ts_calc`, L1389-1395. -/
def tsCalc (pow : ℚ → ℚ) (size : ℚ) : ℚ :=
  if size ≤ 0 then 0 else R.mul (R.rnd (74791 / 10)) (pow (R.div size 1000))

/-- `capital_cost`, L1381-1406. -/
def capitalCost (pow : ℚ → ℚ) (C : Calcs N) : Except PyErr ℚ := do
  let hp ← Para.numberAt C.name 0
  let ts ← Para.numberAt C.name 1
  return R.div (R.add (R.mul hp 600) (R.div (R.mul ts (tsCalc R pow ts)) 1000)) 1000

/-- `8760 / self.timesteps`, L1496, L1533, L1578. -/
def yearFactor (C : Calcs N) : Except PyErr ℚ :=
  if C.timesteps = 0 then .error .zeroDivisionError else .ok (R.div 8760 C.timesteps)

/-- `levelised_cost_of_heat`, L1465-1503. -/
def levelisedCostOfHeat (np : Numpy) (pow : ℚ → ℚ) (C : Calcs N) : Except PyErr (Option ℚ) := do
  let heatCost ← heatCost R np C
  let capex := R.mul (← capitalCost R pow C) 1000
  let rhi ← rhiIncome R np C
  let hd ← sumHd R np C
  let f ← yearFactor R C
  return npDiv R (R.sub (R.add capex (R.mul (R.mul heatCost f) 20)) rhi.total) (R.mul (R.mul hd f) 20)

/-- The loops and the sums of L1510-1525 and L1560-1575. -/
def energyCost (np : Numpy) (C : Calcs N) : Except PyErr ℚ :=
  if C.electric then total R np C fun r => R.div (-r.grid.cashflow) 1000
  else total R np C fun r => R.add (R.div (-r.grid.cashflow) 1000) (R.div r.aux.cost 1000)

/-- `levelised_cost_of_energy`, L1505-1540. -/
def levelisedCostOfEnergy (np : Numpy) (pow : ℚ → ℚ) (C : Calcs N) : Except PyErr (Option ℚ) := do
  let cost ← energyCost R np C
  let capex := R.mul (← capitalCost R pow C) 1000
  let energyCostTot := R.mul cost 1000
  let rhi ← rhiIncome R np C
  let heatDem ← sumHd R np C
  let elecDem ← sumEd R np C
  let f ← yearFactor R C
  return npDiv R (R.sub (R.add capex (R.mul (R.mul energyCostTot f) 20)) rhi.total)
    (R.mul (R.mul (R.add heatDem elecDem) f) 20)

/-- `lifetime_cost`, L1555-1584. -/
def lifetimeCost (np : Numpy) (pow : ℚ → ℚ) (C : Calcs N) : Except PyErr ℚ := do
  let cost ← energyCost R np C
  let capex ← capitalCost R pow C
  let f ← yearFactor R C
  return R.add capex (R.mul (R.mul cost f) 20)

end RoundedKpi
end Verif
