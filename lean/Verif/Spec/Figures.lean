import Verif.Model.Figures

/-!
# What the figures should show
-/

set_option autoImplicit false

namespace Verif.Spec
open Figures
variable {N : Type}

/-- The result of hour `h` of the year, of a run that began at hour `first`. -/
def resultAt (first : ℕ) (rs : List (Results N)) (h : ℕ) : Option (Results N) :=
  if first ≤ h then rs[h - first]? else none

/-- Every point of a curve of the quantity `f` is the quantity at the hour of the year that the axis gives. -/
def ShowsItsHour (first : ℕ) (rs : List (Results N)) (f : Results N → ℚ) (pts : List (ℕ × ℚ)) : Prop :=
  ∀ h v, (h, v) ∈ pts → ∃ r, resultAt first rs h = some r ∧ v = f r

/-- Hours of the year that the figures of a full year show: all, the week from the second day of the year,
the week from the middle of the year. -/
def shownHours : Period → List ℕ
  | .winter => List.range' 24 168
  | .summer => List.range' 4380 168
  | _ => List.range' 0 8760

/-- kWh in the unit. -/
def kWhPer : String → ℚ
  | "MWh" => 1000
  | _ => 1

/-- The months with the hours of the year they begin and end at. -/
def months : List (String × ℕ × ℕ) :=
  [("jan", 0, 31 * 24), ("feb", 31 * 24, 59 * 24), ("mar", 59 * 24, 90 * 24), ("apr", 90 * 24, 120 * 24),
   ("may", 120 * 24, 151 * 24), ("jun", 151 * 24, 181 * 24), ("jul", 181 * 24, 212 * 24),
   ("aug", 212 * 24, 243 * 24), ("sep", 243 * 24, 273 * 24), ("oct", 273 * 24, 304 * 24),
   ("nov", 304 * 24, 334 * 24), ("dec", 334 * 24, 365 * 24)]

/-- Total of a quantity over the hours `a ≤ h < b` of the year, of a run that began at hour `first`. -/
def totalBetween (first : ℕ) (rs : List (Results N)) (f : Results N → ℚ) (a b : ℕ) : ℚ :=
  ((List.range' a (b - a)).map fun h => ((resultAt first rs h).map f).getD 0).sum

/-- The curves in a panel of a figure. -/
def panel (name : String) (curves : List Curve) : List Curve := curves.filter fun c => c.1.panel = name

/-- Height of a stack of curves over the `k`-th point. -/
def height (curves : List Curve) (k : ℕ) : ℚ := (curves.map fun c => (c.2[k]?.map Prod.snd).getD 0).sum

/-- What the label of a curve promises. Flows out of the battery are counted negative. 'Aux' in 'Heat demand' is the
rest of the demand. -/
def quantity (l : Label) : Option (Results N → ℚ) :=
  match l.figure, l.panel, l.curve with
  | "operation.png", "Operation graphs", "HPt" => some fun r => r.hp.heatTotalOutput
  | "operation.png", "Operation graphs", "aux" => some fun r => r.aux.demand
  | "operation.png", "Operation graphs", "HD" => some fun r => r.heatDemand.heatDemand
  | "operation.png", "Import cost (Pounds per MWh)", "" => some fun r => r.grid.importPrice
  | "operation.png", "Energy (kWh)", "surplus" => some fun r => r.grid.surplus
  | "operation.png", "Energy (kWh)", "export" => some fun r => r.grid.totalExport
  | "electricity_demand_and_generation.png", "Electrical demand", "RES" => some fun r => r.elecDemand.res
  | "electricity_demand_and_generation.png", "Electrical demand", "Import" => some fun r => r.elecDemand.imp
  | "electricity_demand_and_generation.png", "Electrical demand", "ES" => some fun r => r.elecDemand.es
  | "electricity_demand_and_generation.png", "Renewable power generation", "Wind" => some fun r => r.res.wind
  | "electricity_demand_and_generation.png", "Renewable power generation", "PV" => some fun r => r.res.pv
  | "electricity_demand_and_generation.png", "Renewable power usage", "Elec demand" => some fun r => r.res.elecDemand
  | "electricity_demand_and_generation.png", "Renewable power usage", "HP" => some fun r => r.res.hp
  | "electricity_demand_and_generation.png", "Renewable power usage", "Aux" => some fun r => r.res.aux
  | "electricity_demand_and_generation.png", "Renewable power usage", "Export" => some fun r => r.res.exp
  | "heat_demand_and_heat_pump.png", "Heat demand", "HP" => some fun r => r.heatDemand.hp
  | "heat_demand_and_heat_pump.png", "Heat demand", "TS" => some fun r => r.heatDemand.ts
  | "heat_demand_and_heat_pump.png", "Heat demand", "Aux" =>
    some fun r => r.heatDemand.heatDemand - r.heatDemand.hp - r.heatDemand.ts
  | "heat_demand_and_heat_pump.png", "Heat pump thermal output", "Heat demand" => some fun r => r.hp.heatToHeatDemand
  | "heat_demand_and_heat_pump.png", "Heat pump thermal output", "TS" => some fun r => r.hp.heatToTs
  | "heat_demand_and_heat_pump.png", "Heat pump electrical usage", "RES usage" => some fun r => r.hp.elecResUsage
  | "heat_demand_and_heat_pump.png", "Heat pump electrical usage", "Import" => some fun r => r.hp.elecImportUsage
  | "heat_demand_and_heat_pump.png", "Heat pump electrical usage", "ES" => some fun r => r.hp.elecFromEsToDemand
  | "heatpump_cop_and_duty.png", "COP", "" => some fun r => r.hp.cop
  | "heatpump_cop_and_duty.png", "Duty (kW)", "" => some fun r => r.hp.duty
  | "thermal_storage.png", "Thermal storage", "Charging" => some fun r => r.ts.chargingTotal
  | "thermal_storage.png", "Energy (kWh)", "Discharging" => some fun r => r.ts.dischargingTotal
  | "electrical_storage.png", "Electrical Storage", "ES_to_demand" => some fun r => -r.es.dischargingToDemand
  | "electrical_storage.png", "Electrical Storage", "ES_to_HP_to_demand" => some fun r => -r.es.dischargingToHp
  | "electrical_storage.png", "Electrical Storage", "RES_to_ES" => some fun r => r.es.chargingFromRes
  | "electrical_storage.png", "Electrical Storage", "import_for_ES" => some fun r => r.es.chargingFromImport
  | "electrical_storage.png", "SOC", "SOC" => some fun r => r.es.finalSoc
  | "electrical_storage.png", "Import cost", "" => some fun r => r.grid.importPrice
  | "electrical_storage.png", "Surplus, and export", "surplus" => some fun r => r.grid.surplus
  | "electrical_storage.png", "Surplus, and export", "export" => some fun r => r.grid.totalExport
  | "grid.png", "Grid interaction", "Import" => some fun r => r.grid.totalImport
  | "grid.png", "Grid interaction", "Export" => some fun r => r.grid.totalExport
  | "grid.png", "import price (Pounds/MWh)", "" => some fun r => r.grid.importPrice
  | "grid.png", "Cashflow (Pounds/MWh)", "" => some fun r => r.grid.cashflow
  | _, _, _ => none

/-- Number of curves in each figure that has the hours of the period. -/
def curvesIn : List (String × ℕ) :=
  [("electricity_demand_and_generation.png", 9), ("heat_demand_and_heat_pump.png", 8), ("heatpump_cop_and_duty.png", 2),
   ("thermal_storage.png", 2), ("electrical_storage.png", 8), ("grid.png", 4)]

end Verif.Spec
