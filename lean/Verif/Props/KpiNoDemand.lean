import Verif.Props.KpiShares

/-! # Levelised costs without a demand (C46, continued) -/

set_option autoImplicit false

namespace Verif
open FixedOrder Kpi Spec
variable {N : Type}

/-- **Without a demand there is no levelised cost.** The division by nothing gives no number, neither for heat nor for all
energy, and is not taken as a cost of zero. With a demand for electricity only, all energy has a levelised cost and heat
has none. -/
theorem C46_no_demand {C : Calcs N} (h : AllHours C) {hp ts : ℕ} (hn : C.name = Para.folderName (hp, ts))
    (h0 : C.timesteps ≠ 0) {i : RhiIncome} (hi : rhiIncome C = .ok i)
    (hd : (C.results.map (·.heatDemand.heatDemand)).sum = 0) :
    levelisedCostOfHeat C = .ok none ∧
      (levelisedCostOfEnergy C = .ok none ↔ (C.results.map (·.elecDemand.elecDemand)).sum = 0) := by
  have hpos : (C.timesteps : ℚ) ≠ 0 := by exact_mod_cast h0
  obtain ⟨c, hc⟩ : ∃ c, Kpi.heatCost C = .ok c := by
    unfold Kpi.heatCost
    split_ifs
    · exact ⟨_, total_ok h _⟩
    · exact ⟨_, total_ok h _⟩
  obtain ⟨d, hd'⟩ : ∃ d, Kpi.energyCost C = .ok d := by
    unfold Kpi.energyCost
    split_ifs
    · exact ⟨_, total_ok h _⟩
    · exact ⟨_, total_ok h _⟩
  have e1 : levelisedCostOfHeat C = .ok (npDivR ((capex hp ts * 1000 +
      ((c * (8760 / C.timesteps) * 20 : ℚ) : ℝ)) - (i.total : ℝ))
      (((C.results.map (·.heatDemand.heatDemand)).sum * (8760 / C.timesteps) * 20 : ℚ) : ℝ)) := by
    unfold levelisedCostOfHeat sumHd
    rw [hc, capitalCost_eq hn, hi, total_ok h, yearFactor, if_neg h0]
    rfl
  have e2 : levelisedCostOfEnergy C = .ok (npDivR ((capex hp ts * 1000 +
      ((d * 1000 * (8760 / C.timesteps) * 20 : ℚ) : ℝ)) - (i.total : ℝ))
      ((((C.results.map (·.heatDemand.heatDemand)).sum + (C.results.map (·.elecDemand.elecDemand)).sum) *
        (8760 / C.timesteps) * 20 : ℚ) : ℝ)) := by
    unfold levelisedCostOfEnergy sumHd sumEd
    rw [hd', capitalCost_eq hn, hi, total_ok h, total_ok h, yearFactor, if_neg h0]
    rfl
  rw [e1, e2, hd, zero_add]
  unfold npDivR
  refine ⟨by rw [if_pos (by norm_num)], ⟨fun e => ?_, fun e => by rw [if_pos (by rw [e]; norm_num)]⟩⟩
  by_contra hne
  have hq : (C.results.map (·.elecDemand.elecDemand)).sum * (8760 / (C.timesteps : ℚ)) * 20 ≠ 0 := by positivity
  rw [if_neg (by exact_mod_cast hq)] at e
  cases e

/-- An hour with a demand for electricity only. -/
example : ∃ (C : Calcs Unit) (i : RhiIncome), AllHours C ∧ C.name = Para.folderName (12, 1000) ∧ C.timesteps ≠ 0 ∧
    rhiIncome C = .ok i ∧ (C.results.map (·.heatDemand.heatDemand)).sum = 0 ∧
    (C.results.map (·.elecDemand.elecDemand)).sum = 7 :=
  ⟨sampleCalcs [{ elecDemand := { elecDemand := 7 }, hp := { heatTotalOutput := 30 } }] 1, ⟨3, 21⟩,
    rfl, by decide +kernel, by decide, by decide +kernel, by decide +kernel, by decide +kernel⟩

end Verif
