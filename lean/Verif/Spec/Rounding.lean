import Verif.Model.Rounded
import Verif.Spec.Run

/-!
# Specification vocabulary for arithmetic with rounding
-/

set_option autoImplicit false

namespace Verif.Spec

/-- What all roundings to nearest have in common: they keep order, signs and what is already rounded. -/
structure Rounds (R : Rounding) : Prop where
  mono : ∀ x y, x ≤ y → R.rnd x ≤ R.rnd y
  neg : ∀ x, R.rnd (-x) = -R.rnd x
  idem : ∀ x, R.rnd (R.rnd x) = R.rnd x

/-- The error of one rounding is at most `u` of the result, or `η` for results next to zero. -/
def Accurate (R : Rounding) (u η : ℚ) : Prop := ∀ x, |R.rnd x - x| ≤ u * |x| + η

/-- A number that can be represented. -/
def IsFloat (R : Rounding) (x : ℚ) : Prop := R.rnd x = x

open FixedOrder

/-- `B` (at least 1 kWh) bounds every energy of the hour: demands, duty, tank, battery, surplus, and the heat surplus
and battery could make; the coefficient of performance is between 1 and 1000. -/
structure Sized {N : Type} (P : Plant N) (i : StepIn N) (B : ℚ) : Prop where
  one_le : 1 ≤ B
  cop_ge : 1 ≤ i.perf.cop
  cop_le : i.perf.cop ≤ 1000
  deficit : i.deficit ≤ B
  peak : P.peakHeatDemand ≤ B
  duty : i.perf.duty ≤ B
  chargeMax : P.es.chargeMax ≤ B
  surplus : i.surplus * i.perf.cop ≤ B
  battery : P.es.capacity * i.perf.cop ≤ B
  tank : ∀ s m, P.tank.maxInOut i.hour s i.nodes = .ok m → m ≤ B

/-- A safe order in which, below the setpoint, the battery supplies nothing (3, 8) after 'Import to ES' (14). -/
def TidyOrder (below : Bool) (order : List ℤ) : Prop :=
  SafeOrder below order ∧ (below = true → ∀ q ∈ ([3, 8] : List ℤ), ¬ [14, q].Sublist order)

/-- Every flow of energy a process reports is at least `-σ`. -/
structure FlowsAbove {N : Type} (σ : ℚ) (r : Results N) : Prop where
  elecDemand : -σ ≤ r.elecDemand.es ∧ -σ ≤ r.elecDemand.imp
  heatDemand : -σ ≤ r.heatDemand.hpRes ∧ -σ ≤ r.heatDemand.hpImport ∧ -σ ≤ r.heatDemand.hpEs ∧ -σ ≤ r.heatDemand.ts
  res : -σ ≤ r.res.hpToHeatDemand ∧ -σ ≤ r.res.hpToTs ∧ -σ ≤ r.res.es ∧ -σ ≤ r.res.exp
  hpHeat : -σ ≤ r.hp.heatFromResToDemand ∧ -σ ≤ r.hp.heatFromResToTs ∧ -σ ≤ r.hp.heatFromImportToDemand ∧
    -σ ≤ r.hp.heatFromImportToTs ∧ -σ ≤ r.hp.heatFromEsToDemand
  hpElec : -σ ≤ r.hp.elecFromResToDemand ∧ -σ ≤ r.hp.elecFromResToTs ∧ -σ ≤ r.hp.elecFromImportToDemand ∧
    -σ ≤ r.hp.elecFromImportToTs ∧ -σ ≤ r.hp.elecFromEsToDemand
  ts : -σ ≤ r.ts.dischargingTotal ∧ -σ ≤ r.ts.hpFromResToTs ∧ -σ ≤ r.ts.hpFromImportToTs ∧ -σ ≤ r.ts.auxToTs
  aux : -σ ≤ r.aux.resToDemand ∧ -σ ≤ r.aux.resToTs
  es : -σ ≤ r.es.dischargingToDemand ∧ -σ ≤ r.es.dischargingToHp ∧ -σ ≤ r.es.chargingFromRes ∧
    -σ ≤ r.es.chargingFromImport
  grid : -σ ≤ r.grid.importForElecDemand ∧ -σ ≤ r.grid.importForHeatPumpToHeatDemand ∧
    -σ ≤ r.grid.importForHeatPumpToTs ∧ -σ ≤ r.grid.importForEs ∧ -σ ≤ r.grid.totalExport

/-- `B` (at least 1 kWh) bounds every energy of every hour of a run, including the heat generation and battery could
make; demands and generation are not negative; coefficients of performance are between 1 and 1000. -/
structure SizedRun {N : Type} (R : Rounding) (S : RunIn N) (B : ℚ) : Prop where
  one_le : 1 ≤ B
  cop : ∀ p ∈ S.perf, 1 ≤ p.cop ∧ p.cop ≤ 1000 ∧ p.duty ≤ B ∧ S.es.capacity * p.cop ≤ B
  generation : ∀ g ∈ Rounded.generation R S, 0 ≤ g ∧ ∀ p ∈ S.perf, g * p.cop ≤ B
  elecDemand : ∀ d ∈ S.elecDemand, 0 ≤ d ∧ d ≤ B
  heatDemand : ∀ d ∈ S.heatDemand, d ≤ B
  chargeMax : S.es.chargeMax ≤ B
  tank : ∀ hour s nodes m, S.tank.maxInOut hour s nodes = .ok m → m ≤ B

/-- Both orders of a run list no process twice and are tidy. -/
structure TidyOrders {N : Type} (S : RunIn N) : Prop where
  above_nodup : S.orderAbove.Nodup
  below_nodup : S.orderBelow.Nodup
  above_tidy : TidyOrder false S.orderAbove
  below_tidy : TidyOrder true S.orderBelow

/-- Every number of the results of an hour, node temperatures left out, can be represented. -/
structure FloatResults {N : Type} (R : Rounding) (r : Results N) : Prop where
  elecDemand : ∀ x ∈ [r.elecDemand.res, r.elecDemand.es, r.elecDemand.imp, r.elecDemand.elecDemand], IsFloat R x
  heatDemand : ∀ x ∈ [r.heatDemand.hp, r.heatDemand.hpRes, r.heatDemand.hpImport, r.heatDemand.hpEs,
    r.heatDemand.ts, r.heatDemand.aux, r.heatDemand.heatDemand], IsFloat R x
  res : ∀ x ∈ [r.res.generationTotal, r.res.wind, r.res.pv, r.res.elecDemand, r.res.hp, r.res.es, r.res.exp,
    r.res.aux, r.res.hpToHeatDemand, r.res.hpToTs], IsFloat R x
  hp : ∀ x ∈ [r.hp.heatTotalOutput, r.hp.heatToHeatDemand, r.hp.heatToTs, r.hp.heatFromResToDemand,
    r.hp.heatFromResToTs, r.hp.heatFromImportToDemand, r.hp.heatFromImportToTs, r.hp.heatFromEsToDemand,
    r.hp.elecTotalUsage, r.hp.elecResUsage, r.hp.elecImportUsage, r.hp.elecFromResToDemand,
    r.hp.elecFromResToTs, r.hp.elecFromImportToDemand, r.hp.elecFromImportToTs, r.hp.elecFromEsToDemand,
    r.hp.cop, r.hp.duty], IsFloat R x
  ts : ∀ x ∈ [r.ts.chargingTotal, r.ts.dischargingTotal, r.ts.hpToTs, r.ts.hpFromResToTs,
    r.ts.hpFromImportToTs, r.ts.auxToTs], IsFloat R x
  aux : ∀ x ∈ [r.aux.demand, r.aux.usage, r.aux.mass, r.aux.cost, r.aux.resToDemand, r.aux.resToTs], IsFloat R x
  es : ∀ x ∈ [r.es.chargingTotal, r.es.dischargingTotal, r.es.dischargingToDemand, r.es.dischargingToHp,
    r.es.chargingFromRes, r.es.chargingFromImport, r.es.finalSoc], IsFloat R x
  grid : ∀ x ∈ [r.grid.totalImport, r.grid.totalExport, r.grid.importForElecDemand,
    r.grid.importForHeatPumpTotal, r.grid.importForHeatPumpToHeatDemand, r.grid.importForHeatPumpToTs,
    r.grid.importForEs, r.grid.importBelowSetpoint, r.grid.importPrice, r.grid.exportPrice, r.grid.importCosts,
    r.grid.exportIncome, r.grid.cashflow, r.grid.surplus, r.grid.deficit, r.grid.netMatch], IsFloat R x

/-- Every number a run reports or compares as given can be represented: the battery, prices, all series and what the
tank offers. -/
structure FloatRun {N : Type} (R : Rounding) (S : RunIn N) : Prop where
  es : ∀ x ∈ [S.es.capacity, S.es.chargeMax], IsFloat R x
  exportPrice : IsFloat R S.exportPrice
  series : ∀ l ∈ [S.pv, S.elecDemand, S.heatDemand, S.importPrice], ∀ x ∈ l, IsFloat R x
  perf : ∀ p ∈ S.perf, IsFloat R p.cop ∧ IsFloat R p.duty
  tank : ∀ hour s nodes m, S.tank.maxInOut hour s nodes = .ok m → IsFloat R m

end Verif.Spec
