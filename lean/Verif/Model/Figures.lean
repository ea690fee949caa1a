import Verif.Model.Kpi
import Verif.Model.Checks

/-!
# Figures of one combination (`run_plots` and `Plot`, `/repo/pylesa/io/outputs.py` L58-88 and L110-677)

A figure is given by its curves: the points (hour on the axis, value) that are handed to matplotlib.
The axis is labelled 'Hour of the year' in every figure. The curves of the temperatures of the tank are
treated like the others by `curve`; they are left out of the lists below, because their values are lists.
Colours and layout are not modelled.
-/

set_option autoImplicit false

namespace Verif
namespace Figures
variable {N : Type}

/-- `period`, L118. -/
inductive Period where
  | summer | winter | year | user | other
  deriving DecidableEq, Repr

/-- `Plot.__init__`, L112-129: results, `total_timesteps`, `first_hour`, period. -/
structure Plot (N : Type) where
  results : List (Results N)
  timesteps : ℕ
  firstHour : ℕ
  period : Period

/-- `period_timesteps`, L138-165: first hour and number of timesteps. -/
def periodTimesteps (P : Plot N) : Except PyErr (ℕ × ℕ) :=
  if P.timesteps = 8760 then
    match P.period with
    | .summer => .ok (4380, 168)
    | .winter => .ok (24, 168)
    | .year => .ok (0, 8760)
    | .user => .ok (P.firstHour, P.timesteps)
    | .other => .error .valueError
  else .ok (0, P.timesteps)

/-- The loops `for i in range(timesteps): xs.append(results[i]…)`, e.g. L183-190. -/
def column {α : Type} (P : Plot N) (f : Results N → α) : Except PyErr (List α) :=
  (List.range P.timesteps).mapM fun i =>
    match P.results[i]? with
    | some r => .ok (f r)
    | none => .error .indexError

/-- `plt.plot(time, xs[first_hour:final_hour])` and one part of `plt.stackplot`; matplotlib raises
`ValueError` if the two differ in length. `start` is where `time` begins. -/
def points {α : Type} (start n : ℕ) (xs : List α) : Except PyErr (List (ℕ × α)) :=
  if xs.length = n then .ok ((List.range n).map (start + ·) |>.zip xs) else .error .valueError

/-- A curve of all figures but one: `time = range(first_hour, final_hour)`, e.g. L270-279. -/
def curve {α : Type} (P : Plot N) (f : Results N → α) : Except PyErr (List (ℕ × α)) := do
  let xs ← column P f
  let pt ← periodTimesteps P
  points pt.1 pt.2 (Tools.slice xs pt.1 (pt.1 + pt.2))

/-- A curve of 'operation': `time = range(timesteps)`, L198. -/
def curveFromZero {α : Type} (P : Plot N) (f : Results N → α) : Except PyErr (List (ℕ × α)) := do
  let xs ← column P f
  let pt ← periodTimesteps P
  points 0 pt.2 (Tools.slice xs pt.1 (pt.1 + pt.2))

/-- How a curve is marked: file of the figure, panel (its title, or the label of its axis if it has none), and the
entry in the legend (empty if there is none). -/
structure Label where
  figure : String
  panel : String
  curve : String
  deriving DecidableEq, Repr

/-- The curves of `operation`, L176-221, without the temperatures. -/
def operation : List (Label × (Results N → ℚ)) :=
  [(⟨"operation.png", "Operation graphs", "HPt"⟩, (·.hp.heatTotalOutput)),
   (⟨"operation.png", "Operation graphs", "aux"⟩, (·.aux.demand)),
   (⟨"operation.png", "Operation graphs", "HD"⟩, (·.heatDemand.heatDemand)),
   (⟨"operation.png", "Import cost (Pounds per MWh)", ""⟩, (·.grid.importPrice)),
   (⟨"operation.png", "Energy (kWh)", "surplus"⟩, (·.grid.surplus)),
   (⟨"operation.png", "Energy (kWh)", "export"⟩, (·.grid.totalExport))]

/-- The first stack of `elec_demand_and_RES`, L273-281. -/
def elecDemandStack : List (Label × (Results N → ℚ)) :=
  [(⟨"electricity_demand_and_generation.png", "Electrical demand", "RES"⟩, (·.elecDemand.res)),
   (⟨"electricity_demand_and_generation.png", "Electrical demand", "Import"⟩, (·.elecDemand.imp)),
   (⟨"electricity_demand_and_generation.png", "Electrical demand", "ES"⟩, (·.elecDemand.es))]

/-- Its second stack, L284-290. -/
def generationStack : List (Label × (Results N → ℚ)) :=
  [(⟨"electricity_demand_and_generation.png", "Renewable power generation", "Wind"⟩, (·.res.wind)),
   (⟨"electricity_demand_and_generation.png", "Renewable power generation", "PV"⟩, (·.res.pv))]

/-- Its third stack, L294-303. -/
def usageStack : List (Label × (Results N → ℚ)) :=
  [(⟨"electricity_demand_and_generation.png", "Renewable power usage", "Elec demand"⟩, (·.res.elecDemand)),
   (⟨"electricity_demand_and_generation.png", "Renewable power usage", "HP"⟩, (·.res.hp)),
   (⟨"electricity_demand_and_generation.png", "Renewable power usage", "Aux"⟩, (·.res.aux)),
   (⟨"electricity_demand_and_generation.png", "Renewable power usage", "Export"⟩, (·.res.exp))]

/-- The first stack of `HP_and_heat_demand`, L339-344 and L374-381: the auxiliary part is what is left of the
demand. -/
def heatStack : List (Label × (Results N → ℚ)) :=
  [(⟨"heat_demand_and_heat_pump.png", "Heat demand", "HP"⟩, (·.heatDemand.hp)),
   (⟨"heat_demand_and_heat_pump.png", "Heat demand", "TS"⟩, (·.heatDemand.ts)),
   (⟨"heat_demand_and_heat_pump.png", "Heat demand", "Aux"⟩,
    fun r => r.heatDemand.heatDemand - r.heatDemand.hp - r.heatDemand.ts)]

/-- Its second stack, L384-390. -/
def pumpHeatStack : List (Label × (Results N → ℚ)) :=
  [(⟨"heat_demand_and_heat_pump.png", "Heat pump thermal output", "Heat demand"⟩, (·.hp.heatToHeatDemand)),
   (⟨"heat_demand_and_heat_pump.png", "Heat pump thermal output", "TS"⟩, (·.hp.heatToTs))]

/-- Its third stack, L394-401. -/
def pumpElecStack : List (Label × (Results N → ℚ)) :=
  [(⟨"heat_demand_and_heat_pump.png", "Heat pump electrical usage", "RES usage"⟩, (·.hp.elecResUsage)),
   (⟨"heat_demand_and_heat_pump.png", "Heat pump electrical usage", "Import"⟩, (·.hp.elecImportUsage)),
   (⟨"heat_demand_and_heat_pump.png", "Heat pump electrical usage", "ES"⟩, (·.hp.elecFromEsToDemand))]

/-- The curves of 'heatpump_cop_and_duty', L409-419. -/
def performance : List (Label × (Results N → ℚ)) :=
  [(⟨"heatpump_cop_and_duty.png", "COP", ""⟩, (·.hp.cop)),
   (⟨"heatpump_cop_and_duty.png", "Duty (kW)", ""⟩, (·.hp.duty))]

/-- The curves of `TS`, L442-472, without the temperatures. -/
def tank : List (Label × (Results N → ℚ)) :=
  [(⟨"thermal_storage.png", "Thermal storage", "Charging"⟩, (·.ts.chargingTotal)),
   (⟨"thermal_storage.png", "Energy (kWh)", "Discharging"⟩, (·.ts.dischargingTotal))]

/-- The curves of `ES`, L510-552. -/
def battery : List (Label × (Results N → ℚ)) :=
  [(⟨"electrical_storage.png", "Electrical Storage", "ES_to_demand"⟩, fun r => -1 * r.es.dischargingToDemand),
   (⟨"electrical_storage.png", "Electrical Storage", "ES_to_HP_to_demand"⟩, fun r => -1 * r.es.dischargingToHp),
   (⟨"electrical_storage.png", "Electrical Storage", "RES_to_ES"⟩, (·.es.chargingFromRes)),
   (⟨"electrical_storage.png", "Electrical Storage", "import_for_ES"⟩, (·.es.chargingFromImport)),
   (⟨"electrical_storage.png", "SOC", "SOC"⟩, (·.es.finalSoc)),
   (⟨"electrical_storage.png", "Import cost", ""⟩, (·.grid.importPrice)),
   (⟨"electrical_storage.png", "Surplus, and export", "surplus"⟩, (·.grid.surplus)),
   (⟨"electrical_storage.png", "Surplus, and export", "export"⟩, (·.grid.totalExport))]

/-- The curves of `grid`, L575-605. -/
def grid : List (Label × (Results N → ℚ)) :=
  [(⟨"grid.png", "Grid interaction", "Import"⟩, (·.grid.totalImport)),
   (⟨"grid.png", "Grid interaction", "Export"⟩, (·.grid.totalExport)),
   (⟨"grid.png", "import price (Pounds/MWh)", ""⟩, (·.grid.importPrice)),
   (⟨"grid.png", "Cashflow (Pounds/MWh)", ""⟩, (·.grid.cashflow))]

/-- All curves drawn with the hours of the period, in the order of the calls of `run_plots`. -/
def ordinary : List (Label × (Results N → ℚ)) :=
  elecDemandStack ++ generationStack ++ usageStack ++ heatStack ++ pumpHeatStack ++ pumpElecStack ++
    performance ++ tank ++ battery ++ grid

/-- A curve with its label. -/
abbrev Curve := Label × List (ℕ × ℚ)

/-- `final_nodes_temp[first_hour]` for the legend of `TS`, L481: the hour must be among the results. -/
def legend (P : Plot N) : Except PyErr (Option N) := do
  let nodes ← column P (·.ts.finalNodesTemp)
  let pt ← periodTimesteps P
  match nodes[pt.1]? with
  | some x => .ok x
  | none => .error .indexError

/-- What one `Plot` draws except the bar charts, L69-74 and L80-85. -/
def draw (P : Plot N) : Except PyErr (List Curve × List Curve) := do
  let a ← operation.mapM fun q => (q.1, ·) <$> curveFromZero P q.2
  let b ← ordinary.mapM fun q => (q.1, ·) <$> curve P q.2
  let _ ← legend P
  return (a, b)

/-- A bar chart: bars, unit of the axis, total in the title, unit of the total. -/
structure BarChart where
  bars : List (String × ℚ)
  axisUnit : String
  total : ℚ
  totalUnit : String

/-- One bar chart of `RES_bar`, L628-655: the monthly values, and the total in the title. The axis is labelled
'Energy (kWh)' (L652), the title 'Total … Production (MWh)' (L653). -/
def bars (P : Plot N) (f : Results N → ℚ) : Except PyErr BarChart := do
  let xs ← column P f
  return ⟨Tools.sumMonthly xs, "kWh", pyRound (xs.sum / 1000) 2, "MWh"⟩

/-- The three bar charts of `RES_bar`, L612-677: wind, PV, both. -/
def resBar (P : Plot N) : Except PyErr (List BarChart) := do
  let w ← bars P (·.res.wind)
  let p ← bars P (·.res.pv)
  let r ← bars P (·.res.generationTotal)
  return [w, p, r]

/-- The periods `run_plots` draws, L66-86, and whether it draws the bar charts with them. -/
def periods (timesteps : ℕ) : List (Period × Bool) :=
  if timesteps = 8760 then [(.year, true), (.winter, false), (.summer, false)] else [(.user, true)]

/-- The figures of one period: curves of `operation`, other curves, bar charts. -/
structure Drawn where
  period : Period
  operation : List Curve
  ordinary : List Curve
  bars : Option (List BarChart)

/-- The body of the loop of `run_plots`, L68-76 and L79-86. -/
def drawPeriod (results : List (Results N)) (timesteps firstHour : ℕ) (pb : Period × Bool) :
    Except PyErr Drawn := do
  let d ← draw ⟨results, timesteps, firstHour, pb.1⟩
  let b ← if pb.2 then some <$> resBar ⟨results, timesteps, firstHour, pb.1⟩ else pure none
  return ⟨pb.1, d.1, d.2, b⟩

/-- `run_plots`, L58-88: what is drawn for each period. -/
def runPlots (results : List (Results N)) (timesteps firstHour : ℕ) : Except PyErr (List Drawn) :=
  (periods timesteps).mapM (drawPeriod results timesteps firstHour)

end Figures
end Verif
