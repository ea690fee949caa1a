import Verif.Spec.StoreBalance
import Verif.Spec.Run

/-!
# Specification vocabulary for the energy a run passes on (C132)
-/

set_option autoImplicit false

namespace Verif.Spec
open FixedOrder
variable {N : Type}

/-- Both orders buy what electricity is missing, run the boiler for what heat is missing, and sell what is left over. -/
structure FullOrders (S : RunIn N) : Prop where
  buys : 3 ∈ S.orderAbove ∧ 2 ∈ S.orderBelow
  heats : 9 ∈ S.orderAbove ∧ 9 ∈ S.orderBelow
  sells : 13 ∈ S.orderAbove ∧ 15 ∈ S.orderBelow

/-- A figure added up over some results. -/
def tally (rs : List (Results N)) (f : Results N → ℚ) : ℚ := (rs.map f).sum

/-- Electricity that drives the heat pump in an hour: generated, bought, or from the battery. -/
def pumpElectricity (r : Results N) : ℚ := r.hp.elecTotalUsage + r.es.dischargingToHp

/-- Electricity the auxiliary heater turns into heat in an hour: all its heat if it is electric, otherwise what it makes
of surplus generation. -/
def heaterElectricity (a : AuxI) (r : Results N) : ℚ :=
  if a.electric then r.aux.demand else r.aux.resToDemand + r.aux.resToTs

/-- Heat the auxiliary heater makes of fuel in an hour. -/
def fuelHeat (a : AuxI) (r : Results N) : ℚ :=
  if a.electric then 0 else r.aux.demand - r.aux.resToDemand - r.aux.resToTs

/-- Electricity in is electricity out: generation, import and what the battery gives are the demand, what heat pump and
heater use, what the battery gets, and the export. -/
def ElectricityBooks (a : AuxI) (r : Results N) : Prop :=
  r.res.generationTotal + r.grid.totalImport + r.es.dischargingTotal =
    r.elecDemand.elecDemand + pumpElectricity r + heaterElectricity a r + r.es.chargingTotal + r.grid.totalExport

/-- Heat in is heat out: what heat pump, heater and store give is the demand and what the store gets. -/
def HeatBooks (r : Results N) : Prop :=
  r.hp.heatTotalOutput + r.aux.demand + r.ts.dischargingTotal = r.heatDemand.heatDemand + r.ts.chargingTotal

end Verif.Spec
