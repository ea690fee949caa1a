import Verif.Model.Run
import Verif.Spec.FixedOrder

/-!
# Specification vocabulary for a fixed-order run
-/

set_option autoImplicit false

namespace Verif.Spec
open FixedOrder
variable {N : Type}

/-- Meaningful inputs of a run: a valid battery with the initial charge inside, no negative heat
demand or duty, positive COP, no duty for a heat pump of capacity zero, a tank that never offers a
negative amount of energy at an hour of the series. -/
structure RunOk (S : RunIn N) : Prop where
  es : BatteryOk S.es
  heat_nonneg : ∀ x ∈ S.heatDemand, 0 ≤ x
  cop_pos : ∀ p ∈ S.perf, 0 < p.cop
  duty_nonneg : ∀ p ∈ S.perf, 0 ≤ p.duty
  zero_cap : S.hp.capacity = 0 → ∀ p ∈ S.perf, p.duty = 0
  tank_nonneg : ∀ hour s nodes m, hour < S.heatDemand.length →
    S.tank.maxInOut hour s nodes = .ok m → 0 ≤ m

/-- All series cover exactly one year. -/
structure FullYear (S : RunIn N) : Prop where
  windUser : S.windUser.length = 8760
  windData : S.windData.length = 8760
  pv : S.pv.length = 8760
  elecDemand : S.elecDemand.length = 8760
  heatDemand : S.heatDemand.length = 8760
  importPrice : S.importPrice.length = 8760
  perf : S.perf.length = 8760

/-- Both orders list no process twice and are safe (see `SafeOrder`). -/
structure OrdersOk (S : RunIn N) : Prop where
  above_nodup : S.orderAbove.Nodup
  below_nodup : S.orderBelow.Nodup
  above_safe : SafeOrder false S.orderAbove
  below_safe : SafeOrder true S.orderBelow

/-- Node temperatures before the `k`-th result of a run: those of the empty tank at first, then
those the previous result ended with. -/
def nodesBefore (S : RunIn N) (rs : List (Results N)) : ℕ → N
  | 0 => S.tank.initTemps
  | k + 1 => ((rs[k]?).bind (·.ts.finalNodesTemp)).getD S.tank.initTemps

/-- State of charge before the `k`-th result of a run. -/
def socBefore (S : RunIn N) (rs : List (Results N)) : ℕ → ℚ
  | 0 => S.es.initState
  | k + 1 => ((rs[k]?).map (·.es.finalSoc)).getD S.es.initState

/-- Two runs have the same plant, setpoint and orders and the same yearly peak heat demand. -/
structure SamePlant (S S' : RunIn N) : Prop where
  plant : plant S = plant S'
  setpoint : S.setpoint = S'.setpoint
  orderAbove : S.orderAbove = S'.orderAbove
  orderBelow : S.orderBelow = S'.orderBelow

/-- Two runs have the same data at hour `t`. -/
structure SameHour (S S' : RunIn N) (t : ℕ) : Prop where
  windUser : S.windUser[t]? = S'.windUser[t]?
  windData : S.windData[t]? = S'.windData[t]?
  pv : S.pv[t]? = S'.pv[t]?
  elecDemand : S.elecDemand[t]? = S'.elecDemand[t]?
  heatDemand : S.heatDemand[t]? = S'.heatDemand[t]?
  importPrice : S.importPrice[t]? = S'.importPrice[t]?
  perf : S.perf[t]? = S'.perf[t]?

/-- A year with constant data, for the examples: 4 kWh of wind and 1 kWh of PV each hour against
8 kWh of electric and 30 kWh of heat demand. -/
def sampleRun : RunIn Unit :=
  { hp := samplePlant.hp, es := sampleBattery, aux := samplePlant.aux, tank := sampleTank,
    exportPrice := 40,
    windUser := List.replicate 8760 4, windData := List.replicate 8760 0,
    pv := List.replicate 8760 1, elecDemand := List.replicate 8760 8,
    heatDemand := List.replicate 8760 30, importPrice := List.replicate 8760 100,
    perf := List.replicate 8760 ⟨3, 12⟩, setpoint := 80,
    orderAbove := [1, 2, 3, 4, 5, 6, 7, 8, 9, 10, 11, 12, 13],
    orderBelow := [1, 2, 3, 4, 5, 6, 7, 8, 9, 10, 11, 12, 13, 14, 15] }

theorem sampleRun_ok : RunOk sampleRun where
  es := sampleBattery_ok
  heat_nonneg := fun x hx => by
    rw [List.eq_of_mem_replicate hx]; norm_num
  cop_pos := fun p hp => by
    rw [List.eq_of_mem_replicate hp]; norm_num
  duty_nonneg := fun p hp => by
    rw [List.eq_of_mem_replicate hp]; norm_num
  zero_cap := fun h => by
    simp only [sampleRun, samplePlant] at h
    norm_num at h
  tank_nonneg := fun hour s nodes m _ h => by
    simp only [sampleRun, sampleTank] at h
    cases h
    cases s <;> norm_num

theorem sampleRun_orders : OrdersOk sampleRun where
  above_nodup := by decide
  below_nodup := by decide
  above_safe := ⟨by decide, fun h => by cases h⟩
  below_safe := ⟨by decide, fun _ => ⟨by decide, by decide⟩⟩

theorem sampleRun_fullYear : FullYear sampleRun where
  windUser := List.length_replicate
  windData := List.length_replicate
  pv := List.length_replicate
  elecDemand := List.length_replicate
  heatDemand := List.length_replicate
  importPrice := List.length_replicate
  perf := List.length_replicate

end Verif.Spec
