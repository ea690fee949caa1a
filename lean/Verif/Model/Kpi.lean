import Verif.Model.Run
import Verif.Model.Grid
import Verif.Model.Para
import Mathlib.Analysis.SpecialFunctions.Pow.Real

/-!
# Performance indicators (`Calcs`, `/repo/pylesa/io/outputs.py` L680-1584)

Line numbers refer to `/repo/pylesa/io/outputs.py`. Sums are exact rationals; the capital cost uses a
power with a fractional exponent and is real, and so are the indicators built on it. NumPy division by
zero gives `nan` or `inf` with a warning; here it gives `none`.
-/

set_option autoImplicit false

namespace Verif
namespace Kpi
open FixedOrder
variable {N : Type}

/-- `RHI()` of the inputs, read at L1356. -/
structure Rhi where
  tariffType : String
  rhiType : String
  fixedRate : ℚ
  tier1 : ℚ
  tier2 : ℚ

/-- `Calcs.__init__`, L682-694, and the inputs its methods read: the results of one combination,
`total_timesteps`, the name of the combination, whether the auxiliary fuel is electricity, the RHI
inputs, the tariff and the percentages of the wind farm (L923-936) and the power of the wind farm. -/
structure Calcs (N : Type) where
  results : List (Results N)
  timesteps : ℕ
  name : List Char
  electric : Bool
  rhi : Rhi
  tariff : String
  lowerPercent : ℚ
  higherPercent : ℚ
  farmPower : List ℚ

/-- `results[i]` of a list. -/
def result (C : Calcs N) (i : ℕ) : Except PyErr (Results N) :=
  match C.results[i]? with
  | some r => .ok r
  | none => .error .indexError

/-- The loops `for i in range(timesteps): x[i] = results[i][..][..]`, e.g. L704-705. -/
def series (C : Calcs N) (f : Results N → ℚ) : Except PyErr (List ℚ) :=
  (List.range C.timesteps).mapM fun i => f <$> result C i

/-- Such a loop followed by `np.sum`. -/
def total (C : Calcs N) (f : Results N → ℚ) : Except PyErr ℚ := List.sum <$> series C f

/-- NumPy division. -/
def npDiv (a b : ℚ) : Option ℚ := if b = 0 then none else some (a / b)

/-- `np.amax` of a list: `ValueError` on an empty one. -/
def amax : List ℚ → Except PyErr ℚ
  | [] => .error .valueError
  | x :: xs => .ok (xs.foldl max x)

/-- `max_heat_pump_output`, L697-709. -/
def maxHeatPumpOutput (C : Calcs N) : Except PyErr ℚ := do
  amax (← series C (·.hp.heatTotalOutput))

/-- `max_heat_demand`, L711-723. -/
def maxHeatDemand (C : Calcs N) : Except PyErr ℚ := do
  amax (← series C (·.heatDemand.heatDemand))

/-- `sum_aux_output`, L725-737. -/
def sumAuxOutput (C : Calcs N) := total C (·.aux.demand)
/-- `sum_hp_output`, L739-751. -/
def sumHpOutput (C : Calcs N) := total C (·.hp.heatTotalOutput)
/-- `sum_hp_usage`, L753-765. -/
def sumHpUsage (C : Calcs N) := total C (·.hp.elecTotalUsage)
/-- `sum_hd`, L772-784. -/
def sumHd (C : Calcs N) := total C (·.heatDemand.heatDemand)
/-- `sum_ed`, L786-798. -/
def sumEd (C : Calcs N) := total C (·.elecDemand.elecDemand)
/-- `sum_ed_import`, L800-812. -/
def sumEdImport (C : Calcs N) := total C (·.grid.importForElecDemand)
/-- `sum_ed_RES`, L814-826. -/
def sumEdRes (C : Calcs N) := total C (·.res.elecDemand)
/-- `sum_import`, L828-840. -/
def sumImport (C : Calcs N) := total C (·.grid.totalImport)
/-- `sum_export`, L842-854. -/
def sumExport (C : Calcs N) := total C (·.grid.totalExport)
/-- `sum_RES`, L856-868. -/
def sumRes (C : Calcs N) := total C (·.res.generationTotal)

/-- `calc_scop`, L767-770. -/
def calcScop (C : Calcs N) : Except PyErr (Option ℚ) := do
  return npDiv (← sumHpOutput C) (← sumHpUsage C)

/-- `HP_size_ratio`, L872-883. -/
def hpSizeRatio (C : Calcs N) : Except PyErr (Option ℚ) := do
  return (npDiv (← maxHeatPumpOutput C) (← maxHeatDemand C)).map (pyRound · 2)

/-- `HP_utilisation`, L885-892. -/
def hpUtilisation (C : Calcs N) : Except PyErr (Option ℚ) := do
  return (npDiv (← sumHpOutput C) (← sumHd C)).map (pyRound · 2 * 100)

/-- `RES_self_consumption`, L894-904. -/
def resSelfConsumption (C : Calcs N) : Except PyErr ℚ := do
  let sumRes ← sumRes C
  let sumExport ← sumExport C
  let ratio := if sumRes > 0 then 1 - sumExport / sumRes else 0
  return ratio * 100

/-- `total_RES_self_consumption`, L906-910. -/
def totalResSelfConsumption (C : Calcs N) : Except PyErr ℚ := do
  return (← sumRes C) - (← sumExport C)

/-- The common body of `grid_RES_used` (L912-992), `heat_grid_RES_used` (L994-1075),
`heat_from_grid_RES` (L1077-1159) and `HP_from_grid_RES` (L1161-1242): nothing for the tariffs
without a wind farm; otherwise the sum over the hours with much wind, the power being read at the
position of the result. No `Grid` is made for another tariff and its use fails. -/
def gridRes (C : Calcs N) (f : Results N → ℚ) : Except PyErr ℚ :=
  if C.tariff = "Flat rates" then .ok 0
  else if C.tariff = "Variable periods" then .ok 0
  else if C.tariff = "Time of use - WM" then .ok 0
  else if C.tariff = "Time of use - PPA + FR" ∨ C.tariff = "Time of use - PPA + WM" ∨
      C.tariff = "Time of use - PPA + VP" then do
    let farm ← Tariff.windFarmInfo
      { tariff := C.tariff, lowerPercent := some C.lowerPercent,
        higherPercent := some C.higherPercent } C.farmPower
    let xs ← (List.range C.timesteps).mapM fun i => do
      let p ← Tariff.position farm.power i
      if p ≥ farm.higherBand then f <$> result C i else .ok 0
    return xs.sum
  else .error .unboundLocalError

/-- `grid_RES_used`, L912-992. -/
def gridResUsed (C : Calcs N) := gridRes C (·.grid.totalImport)
/-- `heat_grid_RES_used`, L994-1075. -/
def heatGridResUsed (C : Calcs N) :=
  gridRes C fun r => r.aux.demand - r.res.aux + r.hp.elecImportUsage
/-- `heat_from_grid_RES`, L1077-1159. -/
def heatFromGridRes (C : Calcs N) :=
  gridRes C fun r => r.aux.demand - r.res.aux + r.hp.elecImportUsage * r.hp.cop
/-- `HP_from_grid_RES`, L1161-1242. -/
def hpFromGridRes (C : Calcs N) := gridRes C fun r => r.hp.elecImportUsage * r.hp.cop

/-- `heat_from_local_RES`, L1244-1260. -/
def heatFromLocalRes (C : Calcs N) : Except PyErr ℚ := do
  return (← total C (·.res.aux)) + (← total C fun r => r.hp.elecResUsage * r.hp.cop)

/-- `HP_from_local_RES`, L1262-1276. -/
def hpFromLocalRes (C : Calcs N) := total C fun r => r.hp.elecResUsage * r.hp.cop

/-- `HP_total_RES_used`, L1278-1282. -/
def hpTotalResUsed (C : Calcs N) : Except PyErr ℚ := do
  return (← hpFromLocalRes C) + (← hpFromGridRes C)

/-- `total_RES_used`, L1284-1286. -/
def totalResUsed (C : Calcs N) : Except PyErr ℚ := do
  return (← gridResUsed C) + (← totalResSelfConsumption C)

/-- `heat_total_RES_used`, L1288-1294. -/
def heatTotalResUsed (C : Calcs N) : Except PyErr ℚ := do
  return (← heatGridResUsed C) + (← totalResSelfConsumption C) - (← sumEdRes C)

/-- `demand_met_RES`, L1296-1305. -/
def demandMetRes (C : Calcs N) : Except PyErr (Option ℚ) := do
  let demand := (← sumHpUsage C) + (← sumAuxOutput C) + (← sumEd C)
  let resUsed ← totalResUsed C
  return (npDiv (demand - resUsed) demand).map fun x => (1 - x) * 100

/-- `heat_met_RES`, L1307-1316. -/
def heatMetRes (C : Calcs N) : Except PyErr (Option ℚ) := do
  let demand := (← sumHpOutput C) + (← sumAuxOutput C)
  let resUsed := (← heatFromLocalRes C) + (← heatFromGridRes C)
  return (npDiv resUsed demand).map (· * 100)

/-- `HP_met_RES`, L1318-1326. -/
def hpMetRes (C : Calcs N) : Except PyErr (Option ℚ) := do
  let demand ← sumHpOutput C
  let resUsed := (← hpFromLocalRes C) + (← hpFromGridRes C)
  return (npDiv resUsed demand).map (· * 100)

/-- `days_storage_content`, L1328-1342. -/
def daysStorageContent (C : Calcs N) : Except PyErr (Option ℚ) := do
  let f : ℚ := C.timesteps / 8760
  let hd ← sumHd C
  let capacity ← Para.numberAt C.name 1
  let energy : ℚ := capacity * (418 / 100) * 20 / 3600
  match npDiv hd (365 * f) with
  | none => return none
  | some perDay => return npDiv energy perDay

/-- What `RHI_income` returns. -/
structure RhiIncome where
  year : ℚ
  total : ℚ
  deriving DecidableEq

/-- `year_income` of `RHI_income`, L1358-1369, from the eligible heat and the capacity. No value is
assigned for another tariff type. -/
def rhiYear (i : Rhi) (eligible capacity : ℚ) : Except PyErr ℚ :=
  if i.tariffType = "Fixed" then .ok (eligible * i.fixedRate / 100)
  else if i.tariffType = "Tiered" then
    let tier1Output := capacity * 1314
    if eligible ≤ tier1Output then .ok (eligible * i.tier1 / 100)
    else .ok ((tier1Output * i.tier1 + (eligible - tier1Output) * i.tier2) / 100)
  else .error .unboundLocalError

/-- `years` of `RHI_income`, L1371-1374. -/
def rhiYears (i : Rhi) : Except PyErr ℚ :=
  if i.rhiType = "Domestic" then .ok 7
  else if i.rhiType = "Non-domestic" then .ok 20
  else .error .unboundLocalError

/-- `RHI_income`, L1346-1379. -/
def rhiIncome (C : Calcs N) : Except PyErr RhiIncome := do
  let hpSum ← sumHpOutput C
  let hpeSum ← sumHpUsage C
  let capacity ← Para.numberAt C.name 0
  let year ← rhiYear C.rhi (hpSum - hpeSum) capacity
  let years ← rhiYears C.rhi
  return ⟨year, year * years⟩

/-- `ts_calc`, L1389-1395: pounds per cubic metre. -/
noncomputable def tsCalc (size : ℝ) : ℝ :=
  if size ≤ 0 then 0 else 74791 / 10 * (size / 1000) ^ (-(501 / 1000) : ℝ)

/-- The formula of `capital_cost`, L1381-1406, in thousand pounds. -/
noncomputable def capex (hp ts : ℝ) : ℝ := (hp * 600 + ts * tsCalc ts / 1000) / 1000

/-- `capital_cost`, L1381-1406. -/
noncomputable def capitalCost (C : Calcs N) : Except PyErr ℝ := do
  let hp ← Para.numberAt C.name 0
  let ts ← Para.numberAt C.name 1
  return capex hp ts

/-- `operating_cost`, L1408-1431. -/
def operatingCost (C : Calcs N) : Except PyErr ℚ := do
  let cashflow ← series C fun r => r.grid.cashflow
  let auxCost ← series C fun r => r.aux.cost / 1000
  let opex := if C.electric then (cashflow.map (- ·)).sum
    else (cashflow.map (- ·)).sum + auxCost.sum
  return opex / 1000

/-- The loops of L1438-1454 and L1470-1485. -/
def heatCost (C : Calcs N) : Except PyErr ℚ :=
  if C.electric then
    total C fun r => (r.grid.totalImport - r.grid.importForElecDemand) * r.grid.importPrice / 1000
  else
    total C fun r => (r.grid.totalImport - r.grid.importForElecDemand) * r.grid.importPrice / 1000 +
      r.aux.cost / 1000

/-- `cost_of_heat`, L1433-1463. -/
def costOfHeat (C : Calcs N) : Except PyErr (Option ℚ) := do
  let heatCost ← heatCost C
  let auxTot ← sumAuxOutput C
  let hpTot ← sumHpOutput C
  let rhi ← rhiIncome C
  return npDiv (heatCost - rhi.year) (auxTot + hpTot)

/-- `f = 8760 / self.timesteps`, L1496, L1533, L1578: Python division. -/
def yearFactor (C : Calcs N) : Except PyErr ℚ :=
  if C.timesteps = 0 then .error .zeroDivisionError else .ok (8760 / C.timesteps)

/-- NumPy division of reals. -/
noncomputable def npDivR (a b : ℝ) : Option ℝ :=
  open Classical in if b = 0 then none else some (a / b)

/-- `levelised_cost_of_heat`, L1465-1503. -/
noncomputable def levelisedCostOfHeat (C : Calcs N) : Except PyErr (Option ℝ) := do
  let heatCost ← heatCost C
  let capex := (← capitalCost C) * 1000
  let rhi ← rhiIncome C
  let hd ← sumHd C
  let f ← yearFactor C
  return npDivR ((capex + ((heatCost * f * 20 : ℚ) : ℝ)) - (rhi.total : ℝ)) ((hd * f * 20 : ℚ) : ℝ)

/-- The loops of L1510-1521 and L1560-1571. -/
def energyCost (C : Calcs N) : Except PyErr ℚ :=
  if C.electric then total C fun r => -r.grid.cashflow / 1000
  else total C fun r => -r.grid.cashflow / 1000 + r.aux.cost / 1000

/-- `levelised_cost_of_energy`, L1505-1540. -/
noncomputable def levelisedCostOfEnergy (C : Calcs N) : Except PyErr (Option ℝ) := do
  let cost ← energyCost C
  let capex := (← capitalCost C) * 1000
  let energyCostTot := cost * 1000
  let rhi ← rhiIncome C
  let heatDem ← sumHd C
  let elecDem ← sumEd C
  let f ← yearFactor C
  return npDivR ((capex + ((energyCostTot * f * 20 : ℚ) : ℝ)) - (rhi.total : ℝ))
    (((heatDem + elecDem) * f * 20 : ℚ) : ℝ)

/-- `cost_elec`, L1542-1553. -/
def costElec (C : Calcs N) : Except PyErr ℚ := total C fun r => -r.grid.cashflow / 1000

/-- `lifetime_cost`, L1555-1584. -/
noncomputable def lifetimeCost (C : Calcs N) : Except PyErr ℝ := do
  let cost ← energyCost C
  let capex ← capitalCost C
  let f ← yearFactor C
  return capex + ((cost * f * 20 : ℚ) : ℝ)

end Kpi
end Verif
