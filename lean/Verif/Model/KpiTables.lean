import Verif.Model.Kpi
import Verif.Model.Para

/-!
# The KPI stage (`run_KPIs`, `ThreeDPlots`, `/repo/pylesa/io/outputs.py` L90-107 and L1587-2077)

The tables and the files written. A cell is `none` where the program has nan or infinity.
-/

set_option autoImplicit false

namespace Verif
namespace KpiTables
open Kpi
variable {N : Type}

/-- One pass of the loop of `KPIs_to_csv`, L1982-2008. -/
structure Indicators where
  opex : Option ℝ
  resUsed : Option ℝ
  totalResSelfConsumption : Option ℝ
  gridResUsed : Option ℝ
  totalResUsed : Option ℝ
  hpSizeRatio : Option ℝ
  hpUtilisation : Option ℝ
  capitalCost : Option ℝ
  costOfHeat : Option ℝ
  levelisedCostOfHeat : Option ℝ
  levelisedCostOfEnergy : Option ℝ
  costElec : Option ℝ
  lifetimeCost : Option ℝ
  sumHpOutput : Option ℝ
  sumHpUsage : Option ℝ
  scop : Option ℝ
  sumAuxOutput : Option ℝ
  sumEdImport : Option ℝ
  sumRes : Option ℝ
  sumImport : Option ℝ
  sumExport : Option ℝ
  demandMetRes : Option ℝ
  hpMetRes : Option ℝ
  daysStorageContent : Option ℝ
  heatMetRes : Option ℝ

/-- A rational number as an entry of an array. -/
def num (q : ℚ) : Option ℝ := some (q : ℝ)

/-- A rational number or nan as an entry of an array. -/
def numOrNan (q : Option ℚ) : Option ℝ := q.map fun x : ℚ => (x : ℝ)

/-- L1984-2008, in the order of the calls. -/
noncomputable def indicators (C : Calcs N) : Except PyErr Indicators := do
  let opex ← operatingCost C
  let resUsed ← Kpi.resSelfConsumption C
  let totalResSelfConsumption ← Kpi.totalResSelfConsumption C
  let gridResUsed ← Kpi.gridResUsed C
  let totalResUsed ← Kpi.totalResUsed C
  let hpSizeRatio ← Kpi.hpSizeRatio C
  let hpUtilisation ← Kpi.hpUtilisation C
  let capitalCost ← Kpi.capitalCost C
  let costOfHeat ← Kpi.costOfHeat C
  let levelisedCostOfHeat ← Kpi.levelisedCostOfHeat C
  let levelisedCostOfEnergy ← Kpi.levelisedCostOfEnergy C
  let costElec ← Kpi.costElec C
  let lifetimeCost ← Kpi.lifetimeCost C
  let sumHpOutput ← Kpi.sumHpOutput C
  let sumHpUsage ← Kpi.sumHpUsage C
  let scop ← calcScop C
  let sumAuxOutput ← Kpi.sumAuxOutput C
  let sumEdImport ← Kpi.sumEdImport C
  let sumRes ← Kpi.sumRes C
  let sumImport ← Kpi.sumImport C
  let sumExport ← Kpi.sumExport C
  let demandMetRes ← Kpi.demandMetRes C
  let hpMetRes ← Kpi.hpMetRes C
  let daysStorageContent ← Kpi.daysStorageContent C
  let heatMetRes ← Kpi.heatMetRes C
  return {
    opex := num opex
    resUsed := num resUsed
    totalResSelfConsumption := num totalResSelfConsumption
    gridResUsed := num gridResUsed
    totalResUsed := num totalResUsed
    hpSizeRatio := numOrNan hpSizeRatio
    hpUtilisation := numOrNan hpUtilisation
    capitalCost := some capitalCost
    costOfHeat := numOrNan costOfHeat
    levelisedCostOfHeat := levelisedCostOfHeat
    levelisedCostOfEnergy := levelisedCostOfEnergy
    costElec := num costElec
    lifetimeCost := some lifetimeCost
    sumHpOutput := num sumHpOutput
    sumHpUsage := num sumHpUsage
    scop := numOrNan scop
    sumAuxOutput := num sumAuxOutput
    sumEdImport := num sumEdImport
    sumRes := num sumRes
    sumImport := num sumImport
    sumExport := num sumExport
    demandMetRes := numOrNan demandMetRes
    hpMetRes := numOrNan hpMetRes
    daysStorageContent := numOrNan daysStorageContent
    heatMetRes := numOrNan heatMetRes }

/-- A table: names of the columns, and the rows. -/
structure Table where
  columns : List String
  rows : List (List (Option ℝ))

/-- `heat_pump_sizes_x`, L1641-1646, entry of one combination. -/
def hpSize (c : ℤ × ℤ) : Option ℝ := num c.1

/-- `thermal_store_sizes_y`, L1648-1653, entry of one combination: litres to cubic metres. -/
def tsSize (c : ℤ × ℤ) : Option ℝ := num (c.2 / 1000)

/-- KPI_economic, L2010-2029. The array is transposed (L2018): row `i` has the `i`-th entry of each list. -/
def economic (cs : List (ℤ × ℤ)) (is : List Indicators) : Table where
  columns := ["hp_sizes", "ts_sizes", "capital_cost", "opex", "cost_of_heat", "cost_elec", "lifetime_cost",
    "levelised_cost_of_heat", "levelised_cost_of_energy"]
  rows := List.zipWith (fun c i => [hpSize c, tsSize c, i.capitalCost, i.opex, i.costOfHeat, i.costElec,
    i.lifetimeCost, i.levelisedCostOfHeat, i.levelisedCostOfEnergy]) cs is

/-- KPI_technical, L2031-2056. -/
def technical (cs : List (ℤ × ℤ)) (is : List Indicators) : Table where
  columns := ["hp_sizes", "ts_sizes", "local_RES_used", "total_RES_self_consumption", "grid_RES_used",
    "total_RES_used", "heat_met_RES", "demand_met_RES", "HP_met_RES", "HP_size_ratio", "HP_utilisation",
    "days_storage_content"]
  rows := List.zipWith (fun c i => [hpSize c, tsSize c, i.resUsed, i.totalResSelfConsumption, i.gridResUsed,
    i.totalResUsed, i.heatMetRes, i.demandMetRes, i.hpMetRes, i.hpSizeRatio, i.hpUtilisation,
    i.daysStorageContent]) cs is

/-- output, L2058-2077. -/
def output (cs : List (ℤ × ℤ)) (is : List Indicators) : Table where
  columns := ["hp_sizes", "ts_sizes", "sum_hp_output", "sum_hp_usage", "scop", "sum_aux_output", "sum_ed_import",
    "sum_RES", "sum_import", "sum_export"]
  rows := List.zipWith (fun c i => [hpSize c, tsSize c, i.sumHpOutput, i.sumHpUsage, i.scop, i.sumAuxOutput,
    i.sumEdImport, i.sumRes, i.sumImport, i.sumExport]) cs is

/-- What `ThreeDPlots` holds: the sizes, and for each its `Calcs`, built from its name, its results and its
inputs (L682-695). -/
structure Study (N : Type) where
  combos : List (ℤ × ℤ)
  calcs : List (Calcs N)

/-- `ThreeDPlots.__init__`, L1603-1639. `inputs` gives what `Calcs.__init__` reads from the input pickle of a
combination (everything but name and results). The results are a dictionary by name; names of different sizes
differ (`C40_folders_distinct`), so each combination finds its own. -/
def load (pa : Para.Ranges) (outputs : Para.Dir (List (Results N))) (inputs : List Char → Calcs N) :
    Except PyErr (Study N) :=
  match Para.kpiCombos pa with
  | .error e => .error e
  | .ok cs => match Para.readResults outputs cs with
    | .error e => .error e
    | .ok rs => .ok ⟨cs, rs.map fun nr => { inputs nr.1 with name := nr.1, results := nr.2 }⟩

/-- `ax.plot_trisurf(x, y, z)`: the points in the plane must contain a triangle (a list of fewer than three
points, or of points on one line, cannot be triangulated and raises). -/
noncomputable def triangulate (pts : List (ℝ × ℝ)) : Except PyErr Unit :=
  open Classical in
  if ∃ a ∈ pts, ∃ b ∈ pts, ∃ c ∈ pts, (b.1 - a.1) * (c.2 - a.2) ≠ (c.1 - a.1) * (b.2 - a.2) then .ok ()
  else .error .other

/-- A surface chart: labels of the axes, and the points `(x, y, z)` handed to `plot_trisurf`. -/
structure Surface where
  xLabel : String
  yLabel : String
  zLabel : String
  points : List ((ℝ × ℝ) × Option ℝ)

/-- The contents of a file the stage writes. -/
inductive Content where
  | table (t : Table)
  | surface (s : Surface)

/-- `ax.set_xlabel`, `ax.set_ylabel`, e.g. L1677-1678. -/
def storeLabel : String := "Thermal storage capacity (m3)"
/-- As above. -/
def pumpLabel : String := "Heat pump sizes (kW)"

/-- One chart of L1655-1945: the indicator of each combination, the surface, the file. `storeFirst`: the store sizes
are on the x axis (all charts but two). The axes of some charts are inverted, which is not modelled. -/
noncomputable def chart (S : Study N) (storeFirst : Bool) (f : Calcs N → Except PyErr (Option ℝ))
    (zLabel : String) (file : String) : Except PyErr (List (String × Content)) := do
  let z ← S.calcs.mapM f
  let hp : List ℝ := S.combos.map fun c : ℤ × ℤ => (c.1 : ℝ)
  let ts : List ℝ := S.combos.map fun c : ℤ × ℤ => (c.2 : ℝ) / 1000
  let xy := if storeFirst then ts.zip hp else hp.zip ts
  triangulate xy
  return [(file, .surface
    { xLabel := if storeFirst then storeLabel else pumpLabel
      yLabel := if storeFirst then pumpLabel else storeLabel
      zLabel := zLabel, points := xy.zip z })]

/-- `plot_opex`, L1655-1690. -/
noncomputable def plotOpex (S : Study N) :=
  chart S true (fun C => num <$> operatingCost C) "Operational cost (k£)" "operating_cost.png"
/-- `plot_RES`, L1692-1726. -/
noncomputable def plotRes (S : Study N) :=
  chart S false (fun C => num <$> Kpi.resSelfConsumption C) "RES self-consumption (%)" "RES_self_consumption.png"
/-- `plot_heat_from_RES`, L1728-1762. -/
noncomputable def plotHeatFromRes (S : Study N) :=
  chart S false (fun C => numOrNan <$> Kpi.heatMetRes C) "Heat demand from RES (%)" "heat_from_RES.png"
/-- `plot_HP_size_ratio`, L1764-1798. -/
noncomputable def plotHpSizeRatio (S : Study N) :=
  chart S true (fun C => numOrNan <$> Kpi.hpSizeRatio C) "HP size ratio" "HP_size_ratio.png"
/-- `plot_HP_utilisation`, L1800-1835. -/
noncomputable def plotHpUtilisation (S : Study N) :=
  chart S true (fun C => numOrNan <$> Kpi.hpUtilisation C) "HP utilisation (%)" "HP_utilisation.png"
/-- `plot_capital_cost`, L1837-1871. -/
noncomputable def plotCapitalCost (S : Study N) :=
  chart S true (fun C => some <$> Kpi.capitalCost C) "Capital cost (k£)" "capital_cost.png"
/-- `plot_COH`, L1873-1908. -/
noncomputable def plotCoh (S : Study N) :=
  chart S true (fun C => numOrNan <$> Kpi.costOfHeat C) "Cost of heat (£/kWh)" "cost_of_heat.png"
/-- `plot_LCOH`, L1910-1945. -/
noncomputable def plotLcoh (S : Study N) :=
  chart S true Kpi.levelisedCostOfHeat "Levelised cost of heat (£/kWh)" "levelised_cost_of_heat.png"

/-- Writing the tables, L2021-2029, L2048-2056, L2069-2077. -/
noncomputable def kpisToCsv (S : Study N) (root : String) : Except PyErr (List (String × Content)) := do
  let is ← S.calcs.mapM indicators
  let e := Content.table (economic S.combos is)
  let t := Content.table (technical S.combos is)
  let o := Content.table (output S.combos is)
  return [("KPI_economic_" ++ root ++ ".pkl", e), ("KPI_economic_" ++ root ++ ".csv", e),
    ("KPI_technical_" ++ root ++ ".pkl", t), ("KPI_technical_" ++ root ++ ".csv", t),
    ("output_" ++ root ++ ".pkl", o), ("output_" ++ root ++ ".csv", o)]

/-- The jobs of `run_KPIs`, L95-104: the files each writes. `root` is the name of the study's folder. -/
noncomputable def jobs (S : Study N) (root : String) : List (Except PyErr (List (String × Content))) :=
  [kpisToCsv S root, plotOpex S, plotRes S, plotHeatFromRes S, plotHpSizeRatio S, plotHpUtilisation S,
   plotCapitalCost S, plotLcoh S, plotCoh S]

/-- `for job in jobs: job()`, L106-107: files written, and the exception if one is raised. -/
def runJobs : List (Except PyErr (List (String × Content))) → List (String × Content) × Option PyErr
  | [] => ([], none)
  | .error e :: _ => ([], some e)
  | .ok fs :: js => (fs ++ (runJobs js).1, (runJobs js).2)

/-- `run_KPIs`, L90-107. -/
noncomputable def runKpis (pa : Para.Ranges) (outputs : Para.Dir (List (Results N))) (inputs : List Char → Calcs N)
    (root : String) : List (String × Content) × Option PyErr :=
  match load pa outputs inputs with
  | .error e => ([], some e)
  | .ok S => runJobs (jobs S root)

end KpiTables
end Verif
