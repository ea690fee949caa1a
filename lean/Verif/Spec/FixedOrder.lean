import Verif.Model.FixedOrder
import Verif.Spec.Battery

/-!
# Specification vocabulary for one fixed-order timestep
-/

set_option autoImplicit false

namespace Verif.Spec
open FixedOrder

/-- Meaningful inputs of one timestep: a valid battery with its state of charge inside, no
negative demand, surplus or duty, a positive COP, no demand above the yearly peak, no duty for a
heat pump of capacity zero, and a tank that never offers a negative amount of energy. -/
structure StepOk {N : Type} (P : Plant N) (i : StepIn N) : Prop where
  es : BatteryOk P.es
  soc_nonneg : 0 ≤ i.soc
  soc_le : i.soc ≤ P.es.capacity
  surplus_nonneg : 0 ≤ i.surplus
  deficit_nonneg : 0 ≤ i.deficit
  heat_nonneg : 0 ≤ i.heatDemand
  heat_le_peak : i.heatDemand ≤ P.peakHeatDemand
  cop_pos : 0 < i.perf.cop
  duty_nonneg : 0 ≤ i.perf.duty
  zero_cap : P.hp.capacity = 0 → i.perf.duty = 0
  tank_nonneg : ∀ s m, P.tank.maxInOut i.hour s i.nodes = .ok m → 0 ≤ m

/-- Process numbers, as documented in `process_key`. -/
structure Numbers where
  importToDemand : ℤ
  auxToDemand : ℤ
  resToExport : ℤ
  esToHp : ℤ

/-- Numbers used above / below the setpoint. -/
def numbers : Bool → Numbers
  | false => { importToDemand := 3, auxToDemand := 9, resToExport := 13, esToHp := 7 }
  | true => { importToDemand := 2, auxToDemand := 9, resToExport := 15, esToHp := 8 }

/-- `[a,b] <+ order` says that `a` comes before `b`. Below the setpoint: no heat pump process and
no electric store charging after 'HP import to TS' (12), which rounds and may overshoot, and no
'RES to ES' (13) after 'Import to ES' (14), which may overfill. Vacuous above the setpoint. -/
def NoOvershoot (below : Bool) (order : List ℤ) : Prop :=
  below = true →
    (∀ q ∈ ([4, 6, 8, 10, 11] : List ℤ), ¬ [12, q].Sublist order) ∧
    ¬ ([14, 13] : List ℤ).Sublist order

/-- Orders that never make a flow negative: `NoOvershoot`, and not (electric heater to store,
then boiler to demand, then electric heater to demand). -/
def SafeOrder (below : Bool) (order : List ℤ) : Prop :=
  ¬ ([11, 9, 5] : List ℤ).Sublist order ∧ NoOvershoot below order

/-- No process of the heat pump comes after 'ES to HP to demand' (7 above, 8 below). -/
def EsPumpLast (below : Bool) (order : List ℤ) : Prop :=
  if below then ∀ q ∈ ([4, 6, 10, 12] : List ℤ), ¬ [8, q].Sublist order
  else ∀ q ∈ ([4, 8, 10] : List ℤ), ¬ [7, q].Sublist order

/-- Every reported flow of energy is non-negative. -/
structure FlowsNonneg {N : Type} (r : Results N) : Prop where
  elecDemand : 0 ≤ r.elecDemand.es ∧ 0 ≤ r.elecDemand.imp
  heatDemand : 0 ≤ r.heatDemand.hp ∧ 0 ≤ r.heatDemand.hpRes ∧ 0 ≤ r.heatDemand.hpImport ∧
    0 ≤ r.heatDemand.hpEs ∧ 0 ≤ r.heatDemand.ts ∧ 0 ≤ r.heatDemand.aux
  res : 0 ≤ r.res.hpToHeatDemand ∧ 0 ≤ r.res.hpToTs ∧ 0 ≤ r.res.es ∧ 0 ≤ r.res.exp
  hpHeat : 0 ≤ r.hp.heatTotalOutput ∧ 0 ≤ r.hp.heatToHeatDemand ∧ 0 ≤ r.hp.heatToTs ∧
    0 ≤ r.hp.heatFromResToDemand ∧ 0 ≤ r.hp.heatFromResToTs ∧ 0 ≤ r.hp.heatFromImportToDemand ∧
    0 ≤ r.hp.heatFromImportToTs ∧ 0 ≤ r.hp.heatFromEsToDemand
  hpElec : 0 ≤ r.hp.elecTotalUsage ∧ 0 ≤ r.hp.elecResUsage ∧ 0 ≤ r.hp.elecImportUsage ∧
    0 ≤ r.hp.elecFromResToDemand ∧ 0 ≤ r.hp.elecFromResToTs ∧ 0 ≤ r.hp.elecFromImportToDemand ∧
    0 ≤ r.hp.elecFromImportToTs ∧ 0 ≤ r.hp.elecFromEsToDemand
  ts : 0 ≤ r.ts.chargingTotal ∧ 0 ≤ r.ts.dischargingTotal ∧ 0 ≤ r.ts.hpToTs ∧
    0 ≤ r.ts.hpFromResToTs ∧ 0 ≤ r.ts.hpFromImportToTs ∧ 0 ≤ r.ts.auxToTs
  aux : 0 ≤ r.aux.demand ∧ 0 ≤ r.aux.resToDemand ∧ 0 ≤ r.aux.resToTs
  es : 0 ≤ r.es.chargingTotal ∧ 0 ≤ r.es.dischargingTotal ∧ 0 ≤ r.es.dischargingToDemand ∧
    0 ≤ r.es.dischargingToHp ∧ 0 ≤ r.es.chargingFromRes ∧ 0 ≤ r.es.chargingFromImport ∧
    0 ≤ r.es.finalSoc
  grid : 0 ≤ r.grid.totalImport ∧ 0 ≤ r.grid.totalExport ∧ 0 ≤ r.grid.importForElecDemand ∧
    0 ≤ r.grid.importForHeatPumpTotal ∧ 0 ≤ r.grid.importForHeatPumpToHeatDemand ∧
    0 ≤ r.grid.importForHeatPumpToTs ∧ 0 ≤ r.grid.importForEs ∧ 0 ≤ r.grid.importBelowSetpoint

/-- Surplus renewable energy the results say was spent. -/
def resSpent {N : Type} (r : Results N) : ℚ :=
  r.res.hpToHeatDemand + r.res.hpToTs + r.aux.resToDemand + r.aux.resToTs + r.res.es + r.res.exp

/-- Heat the results say was delivered to the demand by heat pump, store, boiler and electric
heater. `above` already folds the electric heater into `heat_demand.aux`. -/
def heatDelivered {N : Type} (below : Bool) (r : Results N) : ℚ :=
  r.heatDemand.hp + r.heatDemand.ts + r.heatDemand.aux + (if below then r.aux.resToDemand else 0)

/-- A tank that always offers 20 kWh of room and 15 kWh of heat, for the examples. -/
def sampleTank : TankI Unit :=
  { capacity := 1000, initTemps := (),
    maxInOut := fun _ s _ => .ok (match s with | .charging => 20 | _ => 15),
    newNodes := fun _ _ _ _ _ => .ok () }

/-- A plant with a 12 kW heat pump, the sample battery and an electric heater. -/
def samplePlant : Plant Unit :=
  { hp := { capacity := 12, minimumRuntime := 60, minimumOutput := 20 }
    es := sampleBattery
    aux := { electric := true, efficiency := 1, cost := 0, energyDensity := 0 }
    tank := sampleTank
    exportPrice := 40
    peakHeatDemand := 50 }

/-- An hour with 5 kWh surplus and 30 kWh heat demand. -/
def sampleStep : StepIn Unit :=
  { hour := 7, surplus := 5, deficit := 0, heatDemand := 30, importPrice := 100, nodes := (),
    soc := 5, perf := { cop := 3, duty := 12 } }

/-- An hour with 6 kWh deficit and 30 kWh heat demand. -/
def sampleStep2 : StepIn Unit :=
  { sampleStep with surplus := 0, deficit := 6 }

theorem sampleStep_ok : StepOk samplePlant sampleStep := by
  constructor <;> try (norm_num [samplePlant, sampleStep, sampleBattery])
  · exact sampleBattery_ok
  · intro s m h
    simp only [sampleTank] at h
    cases h
    cases s <;> norm_num

theorem sampleStep2_ok : StepOk samplePlant sampleStep2 := by
  constructor <;> try (norm_num [samplePlant, sampleStep2, sampleStep, sampleBattery])
  · exact sampleBattery_ok
  · intro s m h
    simp only [sampleTank] at h
    cases h
    cases s <;> norm_num

end Verif.Spec
