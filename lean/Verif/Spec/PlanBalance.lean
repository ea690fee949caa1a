import Verif.Model.Mpc

/-!
# Specification vocabulary for the energy a predictive run passes on (C133)
-/

set_option autoImplicit false

namespace Verif.Spec
open Mpc
variable {N : Type}

/-- A figure added up over some results of a predictive run. -/
def planTally (rs : List (MpcResults N)) (f : MpcResults N → ℚ) : ℚ := (rs.map f).sum

/-- The results from the second to the one numbered `i` (the first is numbered 0). The first is left out: it is not
planned and reports no electricity (C47). -/
def planned (rs : List (MpcResults N)) (i : ℕ) : List (MpcResults N) := (rs.take (i + 1)).drop 1

/-- The heat booked in an hour, from heat pump, heater and store, covers the demand and what the store gets, up to
`slack`. -/
def Covered (slack : ℚ) (r : MpcResults N) : Prop :=
  r.heatDemand.heatDemand + r.ts.chargingTotal ≤
    r.hp.heatTotalOutput + r.aux.demand + r.ts.dischargingTotal + slack

end Verif.Spec
