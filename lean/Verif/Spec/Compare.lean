import Verif.Spec.Run

/-!
# Specification vocabulary for comparing two timesteps or two runs
-/

set_option autoImplicit false

namespace Verif.Spec
open FixedOrder
variable {N : Type}

/-- No storage in a timestep: a battery of capacity zero, and a tank with neither room nor heat. -/
structure NoStores (P : Plant N) (i : StepIn N) : Prop where
  battery : P.es.capacity = 0
  tank : ∀ s m, P.tank.maxInOut i.hour s i.nodes = .ok m → m = 0

/-- The same hour with at least as much surplus generation and at most as much unmet electric demand. -/
structure MoreSurplus (i i' : StepIn N) : Prop where
  perf : i'.perf = i.perf
  heatDemand : i'.heatDemand = i.heatDemand
  importPrice : i'.importPrice = i.importPrice
  surplus : i.surplus ≤ i'.surplus
  deficit : i'.deficit ≤ i.deficit

/-- No storage in a run: battery and tank have capacity zero, and the tank never offers anything. -/
structure RunNoStores (S : RunIn N) : Prop where
  battery : S.es.capacity = 0
  tankCapacity : S.tank.capacity = 0
  tank : ∀ hour s nodes m, S.tank.maxInOut hour s nodes = .ok m → m = 0

/-- The same run with other wind and solar power and another electric demand, everything else the same. -/
def OtherGeneration (S S' : RunIn N) : Prop :=
  S' = { S with windUser := S'.windUser, windData := S'.windData, pv := S'.pv, elecDemand := S'.elecDemand }

/-- The same run with at least as much wind and solar power and at most as much electric demand in every
hour, everything else the same. -/
structure MoreGeneration (S S' : RunIn N) : Prop where
  same : OtherGeneration S S'
  windUser : List.Forall₂ (· ≤ ·) S.windUser S'.windUser
  windData : List.Forall₂ (· ≤ ·) S.windData S'.windData
  pv : List.Forall₂ (· ≤ ·) S.pv S'.pv
  elecDemand : List.Forall₂ (· ≤ ·) S'.elecDemand S.elecDemand

/-- The six entries of an hour's results that are prices or money. -/
structure Money where
  importPrice : ℚ
  exportPrice : ℚ
  importCosts : ℚ
  exportIncome : ℚ
  cashflow : ℚ
  auxCost : ℚ

/-- Results with their prices and money replaced. -/
def withMoney (m : Money) (r : Results N) : Results N :=
  { r with
    grid := { r.grid with
      importPrice := m.importPrice
      exportPrice := m.exportPrice
      importCosts := m.importCosts
      exportIncome := m.exportIncome
      cashflow := m.cashflow }
    aux := { r.aux with cost := m.auxCost } }

/-- The money of an hour's results. -/
def moneyOf (r : Results N) : Money :=
  { importPrice := r.grid.importPrice, exportPrice := r.grid.exportPrice,
    importCosts := r.grid.importCosts, exportIncome := r.grid.exportIncome,
    cashflow := r.grid.cashflow, auxCost := r.aux.cost }

/-- The energy flows and states of an hour: its results with all prices and money blanked out. -/
def energyOf (r : Results N) : Results N := withMoney ⟨0, 0, 0, 0, 0, 0⟩ r

/-- All prices and amounts of money multiplied by `k`. -/
def Money.times (k : ℚ) (m : Money) : Money :=
  { importPrice := k * m.importPrice, exportPrice := k * m.exportPrice,
    importCosts := k * m.importCosts, exportIncome := k * m.exportIncome,
    cashflow := k * m.cashflow, auxCost := k * m.auxCost }

/-- Two runs that differ in prices only (of imports, exports and fuel, and the setpoint). -/
structure OtherPrices (S S' : RunIn N) : Prop where
  same : S' = { S with exportPrice := S'.exportPrice, importPrice := S'.importPrice,
                       setpoint := S'.setpoint, aux := { S.aux with cost := S'.aux.cost } }

/-- In hour `t` the import prices of the two runs are on the same side of their setpoints (or both are missing). -/
def SameSide (S S' : RunIn N) (t : ℕ) : Prop :=
  Option.Rel (fun p p' => p > S.setpoint ↔ p' > S'.setpoint) S.importPrice[t]? S'.importPrice[t]?

/-- A run with all prices multiplied by `k`, as after a change of currency. -/
def inCurrency (k : ℚ) (S : RunIn N) : RunIn N :=
  { S with
    exportPrice := k * S.exportPrice
    importPrice := S.importPrice.map (k * ·)
    setpoint := k * S.setpoint
    aux := { S.aux with cost := k * S.aux.cost } }

/-- A battery `k` times as large. -/
def timesBattery (k : ℚ) (b : Battery) : Battery :=
  { b with capacity := k * b.capacity, chargeMax := k * b.chargeMax,
           dischargeMax := k * b.dischargeMax }

/-- A system `k` times as large: demands, generation, heat pump and battery, with the same efficiencies,
prices and orders. -/
def timesRun (k : ℚ) (S : RunIn N) : RunIn N :=
  { S with
    hp := { S.hp with capacity := k * S.hp.capacity }
    es := timesBattery k S.es
    windUser := S.windUser.map (k * ·)
    windData := S.windData.map (k * ·)
    pv := S.pv.map (k * ·)
    elecDemand := S.elecDemand.map (k * ·)
    heatDemand := S.heatDemand.map (k * ·)
    perf := S.perf.map (fun p => ⟨p.cop, k * p.duty⟩) }

/-- Results with all energies and amounts of money multiplied by `k`; prices, COP and the temperatures of
the tank stay. -/
def timesResults (k : ℚ) (r : Results N) : Results N :=
  { elecDemand :=
      { res := k * r.elecDemand.res, es := k * r.elecDemand.es, imp := k * r.elecDemand.imp,
        elecDemand := k * r.elecDemand.elecDemand }
    heatDemand :=
      { hp := k * r.heatDemand.hp, hpRes := k * r.heatDemand.hpRes,
        hpImport := k * r.heatDemand.hpImport, hpEs := k * r.heatDemand.hpEs,
        ts := k * r.heatDemand.ts, aux := k * r.heatDemand.aux,
        heatDemand := k * r.heatDemand.heatDemand }
    res :=
      { generationTotal := k * r.res.generationTotal, wind := k * r.res.wind, pv := k * r.res.pv,
        elecDemand := k * r.res.elecDemand, hp := k * r.res.hp, es := k * r.res.es,
        exp := k * r.res.exp, aux := k * r.res.aux, hpToHeatDemand := k * r.res.hpToHeatDemand,
        hpToTs := k * r.res.hpToTs }
    hp :=
      { heatTotalOutput := k * r.hp.heatTotalOutput, heatToHeatDemand := k * r.hp.heatToHeatDemand,
        heatToTs := k * r.hp.heatToTs, heatFromResToDemand := k * r.hp.heatFromResToDemand,
        heatFromResToTs := k * r.hp.heatFromResToTs,
        heatFromImportToDemand := k * r.hp.heatFromImportToDemand,
        heatFromImportToTs := k * r.hp.heatFromImportToTs,
        heatFromEsToDemand := k * r.hp.heatFromEsToDemand,
        elecTotalUsage := k * r.hp.elecTotalUsage, elecResUsage := k * r.hp.elecResUsage,
        elecImportUsage := k * r.hp.elecImportUsage,
        elecFromResToDemand := k * r.hp.elecFromResToDemand,
        elecFromResToTs := k * r.hp.elecFromResToTs,
        elecFromImportToDemand := k * r.hp.elecFromImportToDemand,
        elecFromImportToTs := k * r.hp.elecFromImportToTs,
        elecFromEsToDemand := k * r.hp.elecFromEsToDemand, cop := r.hp.cop,
        duty := k * r.hp.duty }
    ts :=
      { chargingTotal := k * r.ts.chargingTotal, dischargingTotal := k * r.ts.dischargingTotal,
        hpToTs := k * r.ts.hpToTs, hpFromResToTs := k * r.ts.hpFromResToTs,
        hpFromImportToTs := k * r.ts.hpFromImportToTs, auxToTs := k * r.ts.auxToTs,
        finalNodesTemp := r.ts.finalNodesTemp }
    aux :=
      { demand := k * r.aux.demand, usage := k * r.aux.usage, mass := k * r.aux.mass,
        cost := k * r.aux.cost, resToDemand := k * r.aux.resToDemand,
        resToTs := k * r.aux.resToTs }
    es :=
      { chargingTotal := k * r.es.chargingTotal, dischargingTotal := k * r.es.dischargingTotal,
        dischargingToDemand := k * r.es.dischargingToDemand,
        dischargingToHp := k * r.es.dischargingToHp, chargingFromRes := k * r.es.chargingFromRes,
        chargingFromImport := k * r.es.chargingFromImport, finalSoc := k * r.es.finalSoc }
    grid :=
      { totalImport := k * r.grid.totalImport, totalExport := k * r.grid.totalExport,
        importForElecDemand := k * r.grid.importForElecDemand,
        importForHeatPumpTotal := k * r.grid.importForHeatPumpTotal,
        importForHeatPumpToHeatDemand := k * r.grid.importForHeatPumpToHeatDemand,
        importForHeatPumpToTs := k * r.grid.importForHeatPumpToTs,
        importForEs := k * r.grid.importForEs,
        importBelowSetpoint := k * r.grid.importBelowSetpoint, importPrice := r.grid.importPrice,
        exportPrice := r.grid.exportPrice, importCosts := k * r.grid.importCosts,
        exportIncome := k * r.grid.exportIncome, cashflow := k * r.grid.cashflow,
        surplus := k * r.grid.surplus, deficit := k * r.grid.deficit,
        netMatch := k * r.grid.netMatch } }

/-- A tank of capacity zero, for the examples. -/
def noTank : TankI Unit :=
  { capacity := 0, initTemps := (), maxInOut := fun _ _ _ => .ok 0,
    newNodes := fun _ _ _ _ _ => .ok () }

/-- The sample plant without its battery and tank. -/
def barePlant : Plant Unit :=
  { samplePlant with es := { sampleBattery with capacity := 0 }, tank := noTank }

/-- The sample year without battery and tank. -/
def bareRun : RunIn Unit :=
  { sampleRun with es := { sampleBattery with capacity := 0 }, tank := noTank }

/-- The same year with 2 kWh more of solar power in every hour. -/
def sunnyRun : RunIn Unit := { bareRun with pv := List.replicate 8760 3 }

theorem bareBattery_ok : BatteryOk { sampleBattery with capacity := 0 } := by
  have := sampleBattery_ok
  exact ⟨le_rfl, this.2, this.3, this.4, this.5, this.6, this.7, this.8, this.9, this.10, this.11⟩

theorem bareRun_ok : RunOk bareRun where
  es := bareBattery_ok
  heat_nonneg := sampleRun_ok.heat_nonneg
  cop_pos := sampleRun_ok.cop_pos
  duty_nonneg := sampleRun_ok.duty_nonneg
  zero_cap := sampleRun_ok.zero_cap
  tank_nonneg := fun _ _ _ _ _ h => (Except.ok.inj h).le

theorem bareRun_noStores : RunNoStores bareRun where
  battery := rfl
  tankCapacity := rfl
  tank := fun _ _ _ _ h => (Except.ok.inj h).symm

theorem bareRun_sunny : MoreGeneration bareRun sunnyRun where
  same := rfl
  windUser := List.forall₂_refl _
  windData := List.forall₂_refl _
  pv := by
    refine List.forall₂_iff_get.mpr ⟨?_, fun i h1 h2 => ?_⟩
    · exact (List.length_replicate).trans (List.length_replicate).symm
    · have e1 : bareRun.pv.get ⟨i, h1⟩ = 1 :=
        List.eq_of_mem_replicate (List.get_mem (List.replicate 8760 (1 : ℚ)) ⟨i, h1⟩)
      have e2 : sunnyRun.pv.get ⟨i, h2⟩ = 3 :=
        List.eq_of_mem_replicate (List.get_mem (List.replicate 8760 (3 : ℚ)) ⟨i, h2⟩)
      rw [e1, e2]
      norm_num
  elecDemand := List.forall₂_refl _

end Verif.Spec
