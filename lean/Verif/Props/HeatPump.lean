import Verif.Props.FixedOrder

/-!
# Properties of the hourly heat pump (C10–C12)
-/

set_option autoImplicit false

namespace Verif
open Spec FixedOrder
variable {N : Type}

/-- C10: an amount of heat is deliverable when electricity, demand and duty allow it. -/
def Spec.Deliverable (elecSupply heatDemand : ℚ) (p : Perf) (q : ℚ) : Prop :=
  q ≤ elecSupply * p.cop ∧ q ≤ heatDemand ∧ q ≤ p.duty

/-- C10: `thermal_output` delivers the greatest deliverable amount. -/
theorem C10_thermal_output_greatest {hp : HeatPump} (hc : hp.capacity ≠ 0) (x d : ℚ) (p : Perf) :
    IsGreatest {q | Deliverable x d p q} (hp.thermalOutput x p d).demand := by
  unfold HeatPump.thermalOutput
  rw [if_neg hc]
  dsimp only
  refine ⟨⟨?_, ?_, ?_⟩, ?_⟩
  · exact (min_le_left _ _).trans (min_le_left _ _)
  · exact (min_le_left _ _).trans (min_le_right _ _)
  · exact min_le_right _ _
  · rintro q ⟨h1, h2, h3⟩
    exact le_min (le_min h1 h2) h3

example := C10_thermal_output_greatest (hp := samplePlant.hp) (by norm_num [samplePlant]) 5 20 ⟨3, 12⟩

/-- C10: the reported electricity times COP is the reported heat. -/
theorem C10_thermal_output_electricity {hp : HeatPump} (hc : hp.capacity ≠ 0) (x d : ℚ) {p : Perf}
    (hp0 : 0 < p.cop) :
    (hp.thermalOutput x p d).elec * p.cop = (hp.thermalOutput x p d).demand := by
  unfold HeatPump.thermalOutput
  rw [if_neg hc]
  dsimp only
  exact div_mul_cancel₀ _ hp0.ne'

example : (samplePlant.hp.thermalOutput 5 ⟨3, 12⟩ 20).elec * 3 = (samplePlant.hp.thermalOutput 5 ⟨3, 12⟩ 20).demand :=
  C10_thermal_output_electricity (hp := samplePlant.hp) (by norm_num [samplePlant]) 5 20 (by norm_num)

/-- C10: it never uses more electricity than supplied. -/
theorem C10_thermal_output_within_supply {hp : HeatPump} (hc : hp.capacity ≠ 0) (x d : ℚ)
    {p : Perf} (hp0 : 0 < p.cop) : (hp.thermalOutput x p d).elec ≤ x := by
  have h1 := C10_thermal_output_electricity hc x d hp0
  have h2 := (C10_thermal_output_greatest hc x d p).1.1
  rw [← h1] at h2
  exact le_of_mul_le_mul_right h2 hp0

example : (samplePlant.hp.thermalOutput 5 ⟨3, 12⟩ 20).demand = 12 ∧
    (samplePlant.hp.thermalOutput 5 ⟨3, 12⟩ 20).elec = 4 ∧ samplePlant.hp.capacity ≠ 0 := by
  norm_num [samplePlant, HeatPump.thermalOutput]

/-- C11: electricity use is the demand, limited to the duty, over COP. -/
theorem C11_elec_usage_times_cop {hp : HeatPump} (hc : hp.capacity ≠ 0) (d : ℚ) {p : Perf}
    (hp0 : 0 < p.cop) : hp.elecUsage d p * p.cop = min d p.duty := by
  unfold HeatPump.elecUsage
  rw [if_neg hc]
  dsimp only
  rw [min_div_div_right hp0.le, div_mul_cancel₀ _ hp0.ne']

example : samplePlant.hp.elecUsage 20 ⟨3, 12⟩ * 3 = min 20 12 :=
  C11_elec_usage_times_cop (hp := samplePlant.hp) (by norm_num [samplePlant]) 20 (by norm_num)

theorem C11_elec_usage_mono {hp : HeatPump} {d d' : ℚ} {p : Perf}
    (hp0 : 0 < p.cop) (h : d ≤ d') : hp.elecUsage d p ≤ hp.elecUsage d' p := by
  unfold HeatPump.elecUsage
  split_ifs
  · exact le_rfl
  · exact min_le_min_right _ (div_le_div_of_nonneg_right h hp0.le)

example : samplePlant.hp.elecUsage 6 ⟨3, 12⟩ ≤ samplePlant.hp.elecUsage 20 ⟨3, 12⟩ :=
  C11_elec_usage_mono (by norm_num) (by norm_num)

/-- C11: `elec_usage` agrees with the electricity `thermal_output` reports. -/
theorem C11_elec_usage_of_thermal_output {hp : HeatPump} (hc : hp.capacity ≠ 0) (x d : ℚ)
    {p : Perf} (hp0 : 0 < p.cop) :
    hp.elecUsage (hp.thermalOutput x p d).demand p = (hp.thermalOutput x p d).elec := by
  have h1 := C11_elec_usage_times_cop hc (hp.thermalOutput x p d).demand hp0
  rw [min_eq_left (C10_thermal_output_greatest hc x d p).1.2.2] at h1
  exact mul_right_cancel₀ hp0.ne' (h1.trans (C10_thermal_output_electricity hc x d hp0).symm)

example : samplePlant.hp.elecUsage 20 ⟨3, 12⟩ = 4 ∧ samplePlant.hp.elecUsage 6 ⟨3, 12⟩ = 2 := by
  norm_num [samplePlant, HeatPump.elecUsage]

/-- C12: the two hourly methods return zero. -/
theorem C12_methods_zero {hp : HeatPump} (hc : hp.capacity = 0) (x d : ℚ) (p : Perf) :
    hp.elecUsage d p = 0 ∧ (hp.thermalOutput x p d).demand = 0 ∧
      (hp.thermalOutput x p d).elec = 0 := by
  unfold HeatPump.elecUsage HeatPump.thermalOutput
  simp [hc]

example := C12_methods_zero (hp := { samplePlant.hp with capacity := 0 }) rfl 5 20 ⟨3, 12⟩

/-- C12: a timestep reports no heat and no electricity for the heat pump, whatever the order,
repeats included. -/
theorem C12_step_reports_nothing {P : Plant N} {i : StepIn N} (H : StepOk P i)
    (hc : P.hp.capacity = 0) {b : Bool} {order : List ℤ} {r : Results N}
    (h : step P i b order = .ok r) :
    r.hp.heatTotalOutput = 0 ∧ r.hp.elecTotalUsage = 0 ∧ r.hp.elecFromEsToDemand = 0 ∧
    r.heatDemand.hp = 0 ∧ r.ts.hpToTs = 0 ∧ r.grid.importForHeatPumpTotal = 0 := by
  have hz := H.zero_cap hc
  obtain ⟨c, r1, hd, hm⟩ := step_ok h
  obtain ⟨r0, nodes, hrun, hr⟩ := dispatch_ok hd
  dsimp only at hr
  have hl := pumpZero_ok H hc hrun
  obtain ⟨z1, z2, z3, z4, z5, y1, y2, y3, y4, y5⟩ := hl.zero
  obtain ⟨c1, c2, c3, c4, c5, c6, c7, c8, c9, c10, c11, c12, c13, c14, c15, c16, c17⟩ := hl.copies
  have h0 : r1.hp.heatTotalOutput = 0 := by
    subst hr; simp only [totals2, totals1]; linarith
  have hmo : minOut P i = 0 := by unfold minOut; rw [hz, mul_zero]
  have key : r1.hp.heatTotalOutput = 0 ∧ r1.hp.elecTotalUsage = 0 ∧
      r1.hp.elecFromEsToDemand = 0 ∧ r1.heatDemand.hp = 0 ∧ r1.ts.hpToTs = 0 ∧
      r1.grid.importForHeatPumpTotal = 0 := by
    refine ⟨h0, ?_⟩
    subst hr
    simp only [totals2, totals1] at z1 z2 z3 z4 z5 y1 y2 y3 y4 y5 c3 c5 c6 c8 c11 c13 c14 ⊢
    refine ⟨?_, ?_, ?_, ?_, ?_⟩ <;> linarith
  rcases rule_outcome hm with ⟨rfl, hu⟩ | ⟨_, hu, rfl⟩ | ⟨_, hu, _, rfl⟩ | ⟨_, _, hu, _, _, rfl⟩
  · exact key
  all_goals (rw [h0, hmo] at hu; exact absurd hu.1 (lt_irrefl _))

example : ∃ r, step { samplePlant with hp := { samplePlant.hp with capacity := 0 } }
    { sampleStep with perf := ⟨1 / 2, 0⟩ } true orderBelow = .ok r ∧
    r.heatDemand.ts = 15 ∧ r.aux.demand = 15 :=
  exists_of_checks (by decide +kernel)

end Verif
