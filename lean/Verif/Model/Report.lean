import Verif.Model.Programme
import Verif.Model.KpiTables
import Verif.Model.Figures

/-!
# The programme with its own figures and tables

`run_plots` and `run_KPIs` (`/repo/pylesa/io/outputs.py`) on the files of a study: what `Calcs.__init__` and
its methods read from the pickle of a combination, and `main` (`/repo/pylesa/main.py` L77-140) with both.

`Calcs` reads its inputs when a method needs them; here they are read first. `KPIs_to_csv` calls every method
before it writes the first file, so this changes which exception is raised, not whether one is. A figure that
fails leaves the figures drawn before it; here it leaves none.
-/

set_option autoImplicit false

namespace Verif
namespace Report
open Pandas Workbook InputReader Simulation Para Programme

/-- A cell compared with a name: a number, or nothing, is none of the names. -/
def label : Value → String
  | some (.text s) => s
  | _ => ""

/-- A rate of the heat incentive, looked at only if its tariff is chosen, outputs.py L1356-1366. -/
def rateOf (d : Dict) (key : String) (chosen : Prop) [Decidable chosen] : Except PyErr ℚ :=
  if chosen then do numOf (← Dict.get d key) else .ok 0

/-- `RHI`, inputs.py L159-175, as `RHI_income` uses it (outputs.py L1356-1374): each rate is only looked at
for the tariff it belongs to. (The second tier is only looked at above the first; here with the first.) -/
def rhiOf (c : Container) : Except PyErr Kpi.Rhi := do
  let d ← InputReader.rhi c
  let rhiType ← Dict.get d "RHI_type"
  let tariffType ← Dict.get d "tariff_type"
  let fixedRate ← rateOf d "fixed_rate" (label tariffType = "Fixed")
  let tier1 ← rateOf d "tier_1" (label tariffType = "Tiered")
  let tier2 ← rateOf d "tier_2" (label tariffType = "Tiered")
  return { tariffType := label tariffType, rhiType := label rhiType, fixedRate, tier1, tier2 }

/-- The tariffs with a wind farm, outputs.py L939-975. -/
def farmTariffs : List String :=
  ["Time of use - PPA + FR", "Time of use - PPA + WM", "Time of use - PPA + VP"]

/-- The wind farm of `grid_RES_used`, outputs.py L919-980: lower and higher percentage, power. -/
def farmOf (L : Libs) (c : Container) : Except PyErr (ℚ × ℚ × List ℚ) :=
  if label c.grid.tariffChoice ∈ farmTariffs then do
    let (lower, higher, _, _) ← ppaTerms c.grid
    let power ← farmSeries L c
    return (lower, higher, power)
  else .ok (0, 0, [])

/-- `Calcs.__init__`, outputs.py L682-694, and what its methods read from the pickle of the combination. The
name and the results are filled in by `KpiTables.load`. -/
def calcsOf (L : Libs) (c : Container) : Except PyErr (Kpi.Calcs (List ℚ)) := do
  let timesteps ← natOf (← Dict.get c.controller.info "total_timesteps")
  let rhi ← rhiOf c
  let (lowerPercent, higherPercent, farmPower) ← farmOf L c
  return { results := [], timesteps, name := [], electric := decide (c.auxFuel = .electric), rhi,
           tariff := label c.grid.tariffChoice, lowerPercent, higherPercent, farmPower }

/-- The list of dictionaries in `outputs.pkl`: both controllers write the keys that are read here. -/
def rows : Programme.Outcome → List (Results (List ℚ))
  | .fixed rs => rs
  | .predictive rs => rs.map (·.toResults)

/-- The input directory as `Para` leaves it, main.py L77-84: `inputs.pkl` and the pickles of the
combinations. -/
def inputDir (wb : Pandas.Workbook) : Except PyErr (Container × Dir Container) := do
  let base ← readInputs wb
  let pa ← rangesOf base.parametric
  let sizes ← combos pa
  let dir ← createPickles base sizes (fun n => if n = baseFile then some base else none)
  return (base, dir)

/-- `run_plots`, outputs.py L58-88. -/
def plots (dir : Dir Container) (name : List Char) (o : Programme.Outcome) :
    List Figures.Drawn × Option PyErr :=
  let drawn : Except PyErr (List Figures.Drawn) := match dir (name ++ ".pkl".toList) with
    | none => .error .fileNotFoundError
    | some c => do
      let n ← natOf (← Dict.get c.controller.info "total_timesteps")
      let first ← natOf (← Dict.get c.controller.info "first_hour")
      Figures.runPlots (rows o) n first
  match drawn with
  | .ok ds => (ds, none)
  | .error e => ([], some e)

/-- The inputs of `Calcs` for the combination with this name. -/
def calcsAt (L : Libs) (dir : Dir Container) (name : List Char) : Except PyErr (Kpi.Calcs (List ℚ)) :=
  match dir (name ++ ".pkl".toList) with
  | none => .error .fileNotFoundError
  | some c => calcsOf L c

/-- No combination has this; see `tables`. -/
def noCalcs : Kpi.Calcs (List ℚ) :=
  { results := [], timesteps := 0, name := [], electric := false, rhi := ⟨"", "", 0, 0, 0⟩, tariff := "",
    lowerPercent := 0, higherPercent := 0, farmPower := [] }

/-- `run_KPIs`, outputs.py L90-107, with the ranges of `inputs.pkl` (L1603-1605): the files written in the
folder `KPIs`, and the exception if one is raised. -/
noncomputable def tables (L : Libs) (base : Container) (dir : Dir Container) (root : String)
    (results : List Char → Option Programme.Outcome) :
    List (String × KpiTables.Content) × Option PyErr :=
  match rangesOf base.parametric with
  | .error e => ([], some e)
  | .ok pa => match kpiCombos pa with
    | .error e => ([], some e)
    | .ok sizes => match sizes.mapM (fun size => calcsAt L dir (folderName size)) with
      | .error e => ([], some e)
      | .ok _ => KpiTables.runKpis pa (fun name => (results name).map rows)
          (fun name => match calcsAt L dir name with | .ok C => C | .error _ => noCalcs) root

/-- The files in the folder `KPIs`, and the exception of `run_KPIs` if one is raised. -/
abbrev Stage := List (String × KpiTables.Content) × Option PyErr

/-- The figures and tables of a study. -/
noncomputable def outputsOf (L : Libs) (base : Container) (dir : Dir Container) (root : String) :
    Outputs Figures.Drawn Stage where
  plot := plots dir
  kpis := fun results => .ok (tables L base dir root results)

/-- `main` with this workbook ends with this answer and these output folders, on one core or on two; `root` is
the name of the folder of the study. The answer is the exception raised before `run_KPIs` is called, or what
`run_KPIs` writes and raises. -/
def Ends (L : Libs) (gekko : Gekko) (wb : Pandas.Workbook) (root : String)
    (answer : Except PyErr Stage × Main.Store (List Char) Programme.Outcome Figures.Drawn) : Prop :=
  match inputDir wb with
  | .error e => answer = (.error e, .empty)
  | .ok (base, dir) => Programme.Ends L gekko wb (outputsOf L base dir root) answer

end Report
end Verif
