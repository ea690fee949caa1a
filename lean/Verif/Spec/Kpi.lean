import Verif.Model.Kpi
import Verif.Spec.Run

/-!
# Specification vocabulary for the performance indicators
-/

set_option autoImplicit false

namespace Verif.Spec
open FixedOrder Kpi
variable {N : Type}

/-- The results are those of all the hours asked for. -/
def AllHours (C : Calcs N) : Prop := C.results.length = C.timesteps

/-- No series of generated or demanded energy is negative anywhere. -/
structure EnergyNonneg (S : RunIn N) : Prop where
  windUser : ∀ x ∈ S.windUser, 0 ≤ x
  windData : ∀ x ∈ S.windData, 0 ≤ x
  pv : ∀ x ∈ S.pv, 0 ≤ x
  elecDemand : ∀ x ∈ S.elecDemand, 0 ≤ x

/-- Energy generated over the results, kWh. -/
def generated (rs : List (Results N)) : ℚ := (rs.map (·.res.generationTotal)).sum
/-- Energy sold over the results, kWh. -/
def exported (rs : List (Results N)) : ℚ := (rs.map (·.grid.totalExport)).sum
/-- Heat of the heat pump over the results, kWh. -/
def pumpHeat (rs : List (Results N)) : ℚ := (rs.map (·.hp.heatTotalOutput)).sum
/-- Electricity the heat pump reports over the results, kWh. -/
def pumpElec (rs : List (Results N)) : ℚ := (rs.map (·.hp.elecTotalUsage)).sum

/-- Money paid for energy over the results, in pounds: purchases less sales of electricity, and the
fuel unless it is electricity (electric heating is in the purchases). `aux.cost` is a thousandth of a
pound. -/
def runningCost (electric : Bool) (rs : List (Results N)) : ℚ :=
  (rs.map fun r => -r.grid.cashflow).sum +
    if electric then 0 else (rs.map (·.aux.cost)).sum / 1000

/-- A fixed tariff pays the same for each kWh; a tiered one pays `tier1` up to `limit` kWh a year and
`tier2` above, in pence. -/
def tieredPay (tier1 tier2 limit heat : ℚ) : ℚ :=
  (min heat limit * tier1 + max (heat - limit) 0 * tier2) / 100

/-- Amount `f` summed over the results of the hours in which the wind farm yields at least `band`;
result `k` describes hour `first + k`. -/
def overWindyHours (power : List ℚ) (band : ℚ) (first : ℕ) (f : Results N → ℚ)
    (rs : List (Results N)) : ℚ :=
  (rs.mapIdx fun k r => if band ≤ power.getD (first + k) 0 then f r else 0).sum

/-- The results of `k` equal periods one after the other. -/
def repeated (k : ℕ) (C : Calcs N) : Calcs N :=
  { C with results := (List.replicate k C.results).flatten, timesteps := k * C.timesteps }

end Verif.Spec
