import Verif.Model.Simulation
import Verif.Model.Main
import Verif.Model.Mpc

/-!
# The whole programme: `/repo/pylesa/main.py` L77-140

From the workbook to the results of every combination: reading the workbook, the sizes of the parametric
study, their pickles, the choice of the controller and the loop over the combinations. Plots and KPIs are
parameters (`Main.Parts`), GEKKO is a parameter of the predictive controller (`Mpc`).

Sizes are whole numbers, as `range` needs them; a study of one fractional size (minimum equal to maximum)
is outside the model.
-/

set_option autoImplicit false

namespace Verif
namespace Programme
open Pandas DataFrame Workbook InputReader Simulation Para

/-- The ranges of the study, parametric_analysis.py L26-44. A step is only looked at where the sizes
differ (L31, L40); the step of the heat pump also for the store (L43). -/
def rangesOf (d : Dict) : Except PyErr Ranges := do
  let hpMin ← intOf (← Dict.get d "hp_min")
  let hpMax ← intOf (← Dict.get d "hp_max")
  let tsMin ← intOf (← Dict.get d "ts_min")
  let tsMax ← intOf (← Dict.get d "ts_max")
  let hpStep ← if hpMin = hpMax ∧ tsMin = tsMax then .ok 0 else do intOf (← Dict.get d "hp_step")
  let tsStep ← if tsMin = tsMax then .ok 0 else do intOf (← Dict.get d "ts_step")
  return { hpMin, hpMax, hpStep, tsMin, tsMax, tsStep }

/-- The pickles of the combinations, parametric_analysis.py L69-128 (`Para.createPickles` on the
container itself). -/
def createPickles (base : Container) : List (ℤ × ℤ) → Dir Container → Except PyErr (Dir Container)
  | [], d => .ok d
  | s :: ss, d => do
    let c ← resizeContainer s base
    createPickles base ss (d.put (pickleName s) c)

/-- The controller named in the sheet, main.py L20-35. -/
def controllerOf : Value → Main.Controller
  | some (.text "Fixed order control") => .fixedOrder
  | some (.text "Model predictive control") => .predictive
  | _ => .other

/-- What the predictive controller starts from (mpc.py L22-51 and `pre_calculation`, L53-117), and the
maximum capacities it posts. The check of the lengths is that of `electrical_surplus_deficit` (L97, tools.py). -/
def mpcIn (L : Libs) (c : Container) (first n : ℕ) : Except PyErr (MpcIn (List ℚ) × List ℚ) := do
  let o ← init L c
  let horizon ← natOf c.controller.horizon
  let (static, series) ← InputReader.demands c
  let source ← numbers (← series.get "source_temp")
  let flow ← numbers (← series.get "flow_temp_DH")
  let elec ← numbers (← series.get "elec_demand")
  let heat ← numbers (← series.get "heat_demand")
  let ret ← numOf (← Dict.get static "return_temp_DH")
  let delta ← numOf (← Dict.get static "source_delta_t")
  let importPrice ← importPrices L c o.grid
  let exportPrice ← numOf c.grid.exportPrice
  let windUser ← userSeries L o.windUser
  let windData ← databaseSeries L o.windDatabase
  let pv ← pvSeries L o.pv
  let perf ← HpConfig.performance L.kernels o.heatPump
  let net : ℕ → NetTemps := fun t => ⟨source.getD t 0, delta, flow.getD t 0, ret⟩
  let maxCap ← Mpc.maxCapacity
    (fun t => o.tank.maxEnergy t .charging (net t) (List.replicate o.tank.number ret)) first n horizon
  let wind := List.zipWith (· + ·) windUser windData
  let generation := List.zipWith (· + ·) wind pv
  let _ ← Tools.surplusDeficit generation elec
  return ({
    hp := ⟨o.heatPump.capacity, o.minimumRuntime, o.minimumOutput⟩
    es := o.battery
    aux := o.aux
    tank := Mpc.ofTank o.tank net ret
    exportPrice
    horizon
    generation := fun t => generation.getD t 0
    wind := fun t => wind.getD t 0
    pv := fun t => pv.getD t 0
    elecDemand := fun t => elec.getD t 0
    heatDemand := fun t => heat.getD t 0
    importCost := fun t => importPrice.getD t 0
    perf := fun t => perf.getD t ⟨0, 0⟩
    peakHeatDemand := FixedOrder.listMax heat }, maxCap)

/-- The optimiser, for the maximum capacities posted, the hour and the attempt. -/
abbrev Gekko := MpcIn (List ℚ) → List ℚ → ℕ → ℕ → Except PyErr Point

/-- What the predictive controller starts from for one combination. -/
def mpcInputs (L : Libs) (wb : Workbook) (size : ℤ × ℤ) (first n : ℕ) :
    Except PyErr (MpcIn (List ℚ) × List ℚ) := do
  mpcIn L (← containerOf wb size) first n

/-- Reading the workbook, writing the pickle of one combination and running it with the predictive
controller. -/
def predict (L : Libs) (gekko : Gekko) (wb : Workbook) (size : ℤ × ℤ) :
    Except PyErr (List (Mpc.MpcResults (List ℚ))) := do
  let c ← containerOf wb size
  let n ← natOf (← Dict.get c.controller.info "total_timesteps")
  let first ← natOf (← Dict.get c.controller.info "first_hour")
  let (S, maxCap) ← mpcIn L c first n
  Mpc.movingHorizon S (gekko S maxCap) first n

/-- The results of a combination. -/
inductive Outcome where
  | fixed (rs : List (Results (List ℚ)))
  | predictive (rs : List (Mpc.MpcResults (List ℚ)))

/-- `run_solver` on the pickle of a combination, main.py L18-38. -/
def solvePickle (L : Libs) (gekko : Gekko) (controller : Main.Controller) (first n : ℕ) (c : Container) :
    Except PyErr Outcome :=
  Main.runSolver
    (fun c => do
      let S ← fixedOrderIn L c
      let rs ← FixedOrder.runTimesteps S first n
      return .fixed rs)
    (fun c => do
      let (S, maxCap) ← mpcIn L c first n
      let rs ← Mpc.movingHorizon S (gekko S maxCap) first n
      return .predictive rs)
    controller c

/-- What the loops of `main` are given: the names of the combinations and how to solve one of them from
the input directory, main.py L77-100. -/
structure Setup where
  names : List (List Char)
  solve : List Char → Except PyErr Outcome

/-- `main` up to the loop, L77-100. Without combinations `folder_name[0]` fails (L93). -/
def setup (L : Libs) (gekko : Gekko) (wb : Workbook) : Except PyErr Setup := do
  let base ← readInputs wb
  let pa ← rangesOf base.parametric
  let sizes ← combos pa
  let dir ← createPickles base sizes (fun n => if n = baseFile then some base else none)
  match sizes with
  | [] => .error .indexError
  | s :: _ => match dir (pickleName s) with
    | none => .error .fileNotFoundError
    | some c => do
      let controller ← Dict.get c.controller.info "controller"
      let n ← natOf (← Dict.get c.controller.info "total_timesteps")
      let first ← natOf (← Dict.get c.controller.info "first_hour")
      return {
        names := sizes.map folderName
        solve := fun name => match dir (name ++ ".pkl".toList) with
          | none => .error .fileNotFoundError
          | some c => solvePickle L gekko (controllerOf controller) first n c }

variable {F K : Type}

/-- What plots a combination and what makes the tables. -/
structure Outputs (F K : Type) where
  plot : List Char → Outcome → List F × Option PyErr
  kpis : (List Char → Option Outcome) → Except PyErr K

/-- The parts of the run. -/
def Setup.parts (s : Setup) (out : Outputs F K) : Main.Parts (List Char) Outcome F K :=
  ⟨s.solve, out.plot, out.kpis⟩

/-- `main` with this workbook ends with this answer and these output folders, on one core or on two. -/
def Ends (L : Libs) (gekko : Gekko) (wb : Workbook) (out : Outputs F K)
    (answer : Except PyErr K × Main.Store (List Char) Outcome F) : Prop :=
  match setup L gekko wb with
  | .error e => answer = (.error e, .empty)
  | .ok s => answer = Main.single (s.parts out) s.names ∨
      ∃ es, Main.TwoCore (s.parts out) s.names es answer

end Programme
end Verif
