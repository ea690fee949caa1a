import Verif.Model.FixedOrder
import Verif.Model.Checks

/-!
# Fixed order controller, whole run (`run_timesteps`, fixed_order.py L59-164)
-/

set_option autoImplicit false

namespace Verif

/-- What `FixedOrder.__init__` (fixed_order.py L27-57) and the first lines of `run_timesteps`
(L70-92) read. `windUser`, `windData`, `pv` are the results of the renewables module, `perf` of
`HeatPump.performance`. The tank's source, flow and return temperatures depend on the hour only
and are inside `tank`. -/
structure RunIn (N : Type) where
  hp : HeatPump
  es : Battery
  aux : AuxI
  tank : TankI N
  exportPrice : ℚ
  windUser : List ℚ
  windData : List ℚ
  pv : List ℚ
  elecDemand : List ℚ
  heatDemand : List ℚ
  importPrice : List ℚ
  perf : List Perf
  setpoint : ℚ
  orderAbove : List ℤ
  orderBelow : List ℤ

namespace FixedOrder
variable {N : Type}

/-- `np.amax`, fixed_order.py L189, L462. (An empty series never gets this far.) -/
def listMax (l : List ℚ) : ℚ :=
  match l with
  | [] => 0
  | x :: xs => xs.foldl max x

/-- `wind = wind_user + wind_data`, L74. The three generation series are assumed to have the
same length (pandas would align unequal ones with NaN). -/
def wind (S : RunIn N) : List ℚ := List.zipWith (· + ·) S.windUser S.windData

/-- `renewable_generation = wind_user + wind_data + PV`, L77. -/
def generation (S : RunIn N) : List ℚ := List.zipWith (· + ·) (wind S) S.pv

/-- The plant of the run. -/
def plant (S : RunIn N) : Plant N :=
  { hp := S.hp, es := S.es, aux := S.aux, tank := S.tank, exportPrice := S.exportPrice,
    peakHeatDemand := listMax S.heatDemand }

/-- Series lookup `s[t]`; a missing label is `KeyError`. -/
def lookup {α : Type} (l : List α) (t : ℕ) : Except PyErr α :=
  match l[t]? with
  | some x => .ok x
  | none => .error .keyError

/-- `hp_performance[t]`: `PerformanceArray.__getitem__` (heat/models/performance.py L28-31) indexes
numpy arrays, a missing entry is `IndexError`. -/
def lookupPerf (l : List Perf) (t : ℕ) : Except PyErr Perf :=
  match l[t]? with
  | some x => .ok x
  | none => .error .indexError

/-- Completion of the results, L139-151. -/
def complete (row : Tools.Row) (gen wnd pv elec heat : ℚ)
    (r : Results N) : Results N :=
  { r with
    res := { r.res with
      elecDemand := row.resUsed
      generationTotal := gen
      wind := wnd
      pv := pv
      hp := r.hp.elecResUsage
      aux := r.aux.resToDemand + r.aux.resToTs }
    elecDemand := { r.elecDemand with res := row.resUsed, elecDemand := elec }
    heatDemand := { r.heatDemand with heatDemand := heat } }

/-- One pass of the loop body, L107-154, from storage state `nodes`, `soc`. -/
def hourStep (S : RunIn N) (rows : List Tools.Row) (t : ℕ) (nodes : N) (soc : ℚ) :
    Except PyErr (Results N) := do
  let heat ← lookup S.heatDemand t
  let price ← lookup S.importPrice t
  let row ← lookup rows t
  let perf ← lookupPerf S.perf t
  let i : StepIn N :=
    { hour := t, surplus := row.surplus, deficit := row.deficit, heatDemand := heat,
      importPrice := price, nodes := nodes, soc := soc, perf := perf }
  let r ← if price > S.setpoint then step (plant S) i false S.orderAbove
    else step (plant S) i true S.orderBelow
  let gen ← lookup (generation S) t
  let wnd ← lookup (wind S) t
  let pv ← lookup S.pv t
  let elec ← lookup S.elecDemand t
  return complete row gen wnd pv elec heat r

/-- The loop of `run_timesteps`, L102-158: `n` hours from hour `t`. `final_nodes_temp` and
`final_soc` of each result start the next hour. -/
def runFrom (S : RunIn N) (rows : List Tools.Row) :
    ℕ → ℕ → N → ℚ → Except PyErr (List (Results N))
  | _, 0, _, _ => .ok []
  | t, n + 1, nodes, soc => do
      let r ← hourStep S rows t nodes soc
      let rest ← runFrom S rows (t + 1) n (r.ts.finalNodesTemp.getD nodes) r.es.finalSoc
      return r :: rest

/-- `run_timesteps`, L59-164: the list of results written to `outputs.pkl` (L160-164). -/
def runTimesteps (S : RunIn N) (first n : ℕ) : Except PyErr (List (Results N)) := do
  let rows ← Tools.surplusDeficitFixed (generation S) S.elecDemand
  if first + n > 8760 then .error .valueError
  else runFrom S rows first n S.tank.initTemps S.es.initState

end FixedOrder
end Verif
