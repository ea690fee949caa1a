import Verif.Model.Rounding
import Verif.Model.Kpi
import Mathlib.Data.List.Range

/-!
# Performance indicators with rounding (`Calcs`, `/repo/pylesa/io/outputs.py` L680-1584)

`Verif.Model.Kpi` with a rounding after every addition, subtraction, multiplication and division. Line numbers refer to
`/repo/pylesa/io/outputs.py`. The results of the hours are taken as they are.

`np.sum` does not add from left to right: it splits long arrays in halves and adds in eight columns. Here it may add in
any order and with any brackets, as long as these depend only on the number of values.
-/

set_option autoImplicit false

namespace Verif
namespace RoundedKpi
open FixedOrder Kpi
variable {N : Type} (R : Rounding)

/-- An order of additions: the value at a position, or the sum of two sums. -/
inductive Adding where
  | one (i : ℕ)
  | both (a b : Adding)

/-- The positions whose values are added. -/
def Adding.places : Adding → List ℕ
  | .one i => [i]
  | .both a b => a.places ++ b.places

/-- The sum of values in that order. -/
def Adding.sum (xs : List ℚ) : Adding → ℚ
  | .one i => xs[i]?.getD 0
  | .both a b => R.add (a.sum xs) (b.sum xs)

/-- The orders in which `np.sum` adds arrays of each length: every value once. -/
structure Numpy where
  order : ℕ → Adding
  all : ∀ n, 0 < n → (order n).places.Perm (List.range n)

/-- `np.sum`; 0 for no values. -/
def npSum (np : Numpy) (xs : List ℚ) : ℚ := if xs = [] then 0 else (np.order xs.length).sum R xs

/-- A loop over the hours followed by `np.sum`, e.g. L725-737. -/
def total (np : Numpy) (C : Calcs N) (f : Results N → ℚ) : Except PyErr ℚ := npSum R np <$> series C f

/-- `sum_aux_output`, L725-737. -/
def sumAuxOutput (np : Numpy) (C : Calcs N) := total R np C (·.aux.demand)
/-- `sum_hp_output`, L739-751. -/
def sumHpOutput (np : Numpy) (C : Calcs N) := total R np C (·.hp.heatTotalOutput)
/-- `sum_hp_usage`, L753-765. -/
def sumHpUsage (np : Numpy) (C : Calcs N) := total R np C (·.hp.elecTotalUsage)
/-- `sum_hd`, L772-784. -/
def sumHd (np : Numpy) (C : Calcs N) := total R np C (·.heatDemand.heatDemand)
/-- `sum_ed`, L786-798. -/
def sumEd (np : Numpy) (C : Calcs N) := total R np C (·.elecDemand.elecDemand)
/-- `sum_import`, L828-840. -/
def sumImport (np : Numpy) (C : Calcs N) := total R np C (·.grid.totalImport)
/-- `sum_export`, L842-854. -/
def sumExport (np : Numpy) (C : Calcs N) := total R np C (·.grid.totalExport)
/-- `sum_RES`, L856-868. -/
def sumRes (np : Numpy) (C : Calcs N) := total R np C (·.res.generationTotal)

/-- NumPy division. -/
def npDiv (a b : ℚ) : Option ℚ := if b = 0 then none else some (R.div a b)

/-- `calc_scop`, L767-770. -/
def calcScop (np : Numpy) (C : Calcs N) : Except PyErr (Option ℚ) := do
  return npDiv R (← sumHpOutput R np C) (← sumHpUsage R np C)

/-- `HP_utilisation`, L885-892. -/
def hpUtilisation (np : Numpy) (C : Calcs N) : Except PyErr (Option ℚ) := do
  return (npDiv R (← sumHpOutput R np C) (← sumHd R np C)).map fun x => R.mul (R.round x 2) 100

/-- `RES_self_consumption`, L894-904. -/
def resSelfConsumption (np : Numpy) (C : Calcs N) : Except PyErr ℚ := do
  let sumRes ← sumRes R np C
  let sumExport ← sumExport R np C
  let ratio := if sumRes > 0 then R.sub 1 (R.div sumExport sumRes) else 0
  return R.mul ratio 100

/-- `total_RES_self_consumption`, L906-910. -/
def totalResSelfConsumption (np : Numpy) (C : Calcs N) : Except PyErr ℚ := do
  return R.sub (← sumRes R np C) (← sumExport R np C)

/-- The common body of `grid_RES_used` (L912-992) and `HP_from_grid_RES` (L1161-1242). The band is one of the values of the
power series, and choosing it needs no rounding of these; the positions are chosen as in `Tariff.windFarmInfo`. -/
def gridRes (np : Numpy) (C : Calcs N) (f : Results N → ℚ) : Except PyErr ℚ :=
  if C.tariff = "Flat rates" then .ok 0
  else if C.tariff = "Variable periods" then .ok 0
  else if C.tariff = "Time of use - WM" then .ok 0
  else if C.tariff = "Time of use - PPA + FR" ∨ C.tariff = "Time of use - PPA + WM" ∨
      C.tariff = "Time of use - PPA + VP" then do
    let farm ← Tariff.windFarmInfo
      { tariff := C.tariff, lowerPercent := some C.lowerPercent,
        higherPercent := some C.higherPercent } C.farmPower
    let xs ← (List.range C.timesteps).mapM fun i => do
      let p ← Tariff.position farm.power i
      if p ≥ farm.higherBand then f <$> result C i else .ok 0
    return npSum R np xs
  else .error .unboundLocalError

/-- `grid_RES_used`, L912-992. -/
def gridResUsed (np : Numpy) (C : Calcs N) := gridRes R np C (·.grid.totalImport)
/-- `HP_from_grid_RES`, L1161-1242. -/
def hpFromGridRes (np : Numpy) (C : Calcs N) := gridRes R np C fun r => R.mul r.hp.elecImportUsage r.hp.cop
/-- `HP_from_local_RES`, L1262-1276. -/
def hpFromLocalRes (np : Numpy) (C : Calcs N) := total R np C fun r => R.mul r.hp.elecResUsage r.hp.cop

/-- `total_RES_used`, L1284-1286. -/
def totalResUsed (np : Numpy) (C : Calcs N) : Except PyErr ℚ := do
  return R.add (← gridResUsed R np C) (← totalResSelfConsumption R np C)

/-- `demand_met_RES`, L1296-1305. -/
def demandMetRes (np : Numpy) (C : Calcs N) : Except PyErr (Option ℚ) := do
  let demand := R.add (R.add (← sumHpUsage R np C) (← sumAuxOutput R np C)) (← sumEd R np C)
  let resUsed ← totalResUsed R np C
  return (npDiv R (R.sub demand resUsed) demand).map fun x => R.mul (R.sub 1 x) 100

/-- `HP_met_RES`, L1318-1326. -/
def hpMetRes (np : Numpy) (C : Calcs N) : Except PyErr (Option ℚ) := do
  let demand ← sumHpOutput R np C
  let resUsed := R.add (← hpFromLocalRes R np C) (← hpFromGridRes R np C)
  return (npDiv R resUsed demand).map fun x => R.mul x 100

/-- `operating_cost`, L1408-1431. -/
def operatingCost (np : Numpy) (C : Calcs N) : Except PyErr ℚ := do
  let cashflow ← series C fun r => r.grid.cashflow
  let auxCost ← series C fun r => R.div r.aux.cost 1000
  let opex := if C.electric then npSum R np (cashflow.map (- ·))
    else R.add (npSum R np (cashflow.map (- ·))) (npSum R np auxCost)
  return R.div opex 1000

/-- The loops and the sum of `cost_of_heat`, L1438-1459. -/
def heatCost (np : Numpy) (C : Calcs N) : Except PyErr ℚ :=
  if C.electric then
    total R np C fun r =>
      R.div (R.mul (R.sub r.grid.totalImport r.grid.importForElecDemand) r.grid.importPrice) 1000
  else
    total R np C fun r =>
      R.add (R.div (R.mul (R.sub r.grid.totalImport r.grid.importForElecDemand) r.grid.importPrice) 1000)
        (R.div r.aux.cost 1000)

/-- `cost_elec`, L1542-1553. -/
def costElec (np : Numpy) (C : Calcs N) : Except PyErr ℚ := total R np C fun r => R.div (-r.grid.cashflow) 1000

/-- `year_income` of `RHI_income`, L1358-1369. The capacity and `tier_1_output` are integers, which Python computes exactly;
that they have at most 53 binary digits is assumed. -/
def rhiYear (i : Rhi) (eligible capacity : ℚ) : Except PyErr ℚ :=
  if i.tariffType = "Fixed" then .ok (R.div (R.mul eligible i.fixedRate) 100)
  else if i.tariffType = "Tiered" then
    let tier1Output := capacity * 1314
    if eligible ≤ tier1Output then .ok (R.div (R.mul eligible i.tier1) 100)
    else .ok (R.div (R.add (R.mul tier1Output i.tier1) (R.mul (R.sub eligible tier1Output) i.tier2)) 100)
  else .error .unboundLocalError

/-- `RHI_income`, L1346-1379. -/
def rhiIncome (np : Numpy) (C : Calcs N) : Except PyErr RhiIncome := do
  let hpSum ← sumHpOutput R np C
  let hpeSum ← sumHpUsage R np C
  let capacity ← Para.numberAt C.name 0
  let year ← rhiYear R C.rhi (R.sub hpSum hpeSum) capacity
  let years ← rhiYears C.rhi
  return ⟨year, R.mul year years⟩

/-- `cost_of_heat`, L1433-1463. -/
def costOfHeat (np : Numpy) (C : Calcs N) : Except PyErr (Option ℚ) := do
  let heatCost ← heatCost R np C
  let auxTot ← sumAuxOutput R np C
  let hpTot ← sumHpOutput R np C
  let rhi ← rhiIncome R np C
  return npDiv R (R.sub heatCost rhi.year) (R.add auxTot hpTot)

end RoundedKpi
end Verif
