import Verif.Model.Run
import Verif.Model.Checks
import Verif.Model.Tank

/-!
# The predictive controller (`/repo/pylesa/controllers/mpc.py`)

GEKKO, the optimiser, is a parameter: for the hour and the attempt it either raises or returns a value
of every variable at the second point of the horizon (`h = 1`), the only point the code reads. Each
hour is attempted at most twice, so a function of hour and attempt covers every behaviour of the
optimiser, whatever it depends on. The equations posted to it are written down in `Posted`; theorems
that rely on the optimiser respecting them say so.

The two differential equations (L270, L275, L288, L293) are left out of `Posted`: how they are
discretised is GEKKO's business. They and the objective (L316-320) are in `Model/MpcPlan.lean`.

Year-long series are functions of the hour; every index the code uses is below 8760 (`solve` is called
for hours up to 8758, and reads the next one). The tank enters through `TankM`, and `ofTank` provides
the real one.
-/

set_option autoImplicit false

namespace Verif

/-- The tank as the predictive controller calls it. The hour whose network temperatures are passed
(`st[h]`, `ft[h]`) and the hour passed as `timestep` can differ: first argument and second argument. -/
structure TankM (N : Type) where
  capacity : ℚ
  initTemps : N
  maxInOut : ℕ → ℕ → TankState → N → Except PyErr ℚ
  newNodes : ℕ → ℕ → TankState → N → ℚ → ℚ → Except PyErr N

/-- What `Scheduler.__init__` (L22-51) reads, and what `pre_calculation` (L53-117) computes from the
renewables and heat pump modules. -/
structure MpcIn (N : Type) where
  hp : HeatPump
  es : Battery
  aux : AuxI
  tank : TankM N
  exportPrice : ℚ
  horizon : ℕ
  generation : ℕ → ℚ
  wind : ℕ → ℚ
  pv : ℕ → ℚ
  elecDemand : ℕ → ℚ
  heatDemand : ℕ → ℚ
  importCost : ℕ → ℚ
  perf : ℕ → Perf
  peakHeatDemand : ℚ

/-- The optimiser's variables (L155-256) at the second point of the horizon. -/
structure Point where
  resEd : ℚ
  exp : ℚ
  impEd : ℚ
  hptrd : ℚ
  hptrs : ℚ
  hptid : ℚ
  hptis : ℚ
  hptesd : ℚ
  hpStatus : ℚ
  hptVar : ℚ
  tsc : ℚ
  tsd : ℚ
  soc : ℚ
  esc : ℚ
  escRes : ℚ
  escImp : ℚ
  esd : ℚ
  esdHp : ℚ
  esdAux : ℚ
  esdEd : ℚ
  socEs : ℚ
  auxRd : ℚ
  auxRs : ℚ
  auxD : ℚ
  auxS : ℚ
  aux : ℚ

/-- `HPt`, the intermediate of L202. -/
def Point.hpt (p : Point) : ℚ := p.hpStatus * p.hptVar

namespace Mpc
variable {N : Type}

/-- The real tank. -/
def ofTank (tk : Tank) (net : ℕ → NetTemps) (ret : ℚ) : TankM (List ℚ) where
  capacity := tk.capacity
  initTemps := tk.initTemps ret
  maxInOut i hour state nodes := tk.maxEnergy hour state (net i) nodes
  newNodes i hour state nodes thermal demand :=
    match tk.newNodesTemp hour state (net i) nodes thermal demand with
    | .error e => .error e
    | .ok out => Tank.lastProfile out

/-- `HP_min`, L188-192. -/
def hpMin (S : MpcIn N) (t : ℕ) : ℚ :=
  (S.perf t).duty * S.hp.minimumOutput * S.hp.minimumRuntime / 60 / 100

/-- Lower bounds of the variables, L155-256 (`lb=0`; `HP_status` also has `ub=1`). -/
structure Bounds (p : Point) : Prop where
  resEd : 0 ≤ p.resEd
  exp : 0 ≤ p.exp
  impEd : 0 ≤ p.impEd
  hptrd : 0 ≤ p.hptrd
  hptrs : 0 ≤ p.hptrs
  hptid : 0 ≤ p.hptid
  hptis : 0 ≤ p.hptis
  hptesd : 0 ≤ p.hptesd
  hpStatus : 0 ≤ p.hpStatus
  hpStatus_le : p.hpStatus ≤ 1
  hptVar : 0 ≤ p.hptVar
  tsc : 0 ≤ p.tsc
  tsd : 0 ≤ p.tsd
  soc : 0 ≤ p.soc
  esc : 0 ≤ p.esc
  escRes : 0 ≤ p.escRes
  escImp : 0 ≤ p.escImp
  esd : 0 ≤ p.esd
  esdHp : 0 ≤ p.esdHp
  esdAux : 0 ≤ p.esdAux
  esdEd : 0 ≤ p.esdEd
  socEs : 0 ≤ p.socEs
  auxRd : 0 ≤ p.auxRd
  auxRs : 0 ≤ p.auxRs
  auxD : 0 ≤ p.auxD
  auxS : 0 ≤ p.auxS
  aux : 0 ≤ p.aux

/-- The equalities posted with an electric heater, L269-281, for hour `t`. -/
structure ElectricEqs (S : MpcIn N) (t : ℕ) (p : Point) : Prop where
  esd : p.esd = p.esdEd + p.esdHp + p.esdAux
  esc : p.esc = p.escRes + p.escImp
  ed : S.elecDemand t = p.resEd + p.impEd + p.esdEd * S.es.dischargeEff
  hd : S.heatDemand t = p.hptrd + p.hptid + p.hptesd + p.auxD + p.auxRd + p.esdAux * S.es.dischargeEff + p.tsd
  hptesd : p.hptesd = p.esdHp * (S.perf t).cop * S.es.dischargeEff
  hpt : p.hpStatus * p.hptVar = p.hptrs + p.hptrd + p.hptid + p.hptis + p.hptesd
  aux : p.aux = p.auxD + p.auxS + p.auxRd + p.auxRs + p.esdAux
  tsc : p.tsc = p.hptrs + p.hptis + p.auxRs + p.auxS
  res : S.generation t = p.resEd + (p.hptrs + p.hptrd) / (S.perf t).cop + p.escRes + p.auxRd + p.auxRs + p.exp

/-- The equalities posted with another fuel, L285-298. -/
structure FuelEqs (S : MpcIn N) (t : ℕ) (p : Point) : Prop where
  esd : p.esd = p.esdEd
  esc : p.esc = p.escRes + p.escImp
  ed : S.elecDemand t = p.resEd + p.impEd + p.esdEd * S.es.dischargeEff
  hd : S.heatDemand t = p.hptrd + p.hptid + p.auxD + p.tsd
  hpt : p.hpStatus * p.hptVar = p.hptrs + p.hptrd + p.hptid + p.hptis
  aux : p.aux = p.auxD + p.auxS
  tsc : p.tsc = p.hptrs + p.hptis + p.auxS
  res : S.generation t = p.resEd + (p.hptrs + p.hptrd) / (S.perf t).cop + p.escRes + p.exp

/-- The inequalities, L301-311. `maxCap` is the entry of `max_capacity`. -/
structure Ineqs (S : MpcIn N) (t : ℕ) (maxCap : ℚ) (p : Point) : Prop where
  duty : p.hptVar ≤ (S.perf t).duty
  hpMin : hpMin S t ≤ p.hptVar
  soc : p.soc ≤ maxCap
  tsc : p.tsc ≤ maxCap - p.soc
  tsd : p.tsd ≤ p.soc
  socEs : p.socEs ≤ S.es.capacity
  esc : p.esc ≤ S.es.chargeMax * S.es.chargeEff
  esd : p.esd ≤ S.es.dischargeMax
  esd_soc : p.esd ≤ p.socEs
  aux : p.aux ≤ S.peakHeatDemand

/-- Everything posted for hour `t` except the two differential equations. -/
structure Posted (S : MpcIn N) (t : ℕ) (maxCap : ℚ) (p : Point) : Prop where
  bounds : Bounds p
  electric : S.aux.electric = true → ElectricEqs S t p
  fuel : S.aux.electric = false → FuelEqs S t p
  ineqs : Ineqs S t maxCap p

/-- `next_results` (L528-542) and `prev_result`: what one hour hands to the next. The code only reads
`final_nodes_temp` outside the call of the optimiser, where the other entries are starting values. -/
structure Carry (N : Type) where
  nodes : N

/-- The results of an hour: the keys of `set_of_results` (L677-778), those of the other controller and
`ES.discharging_to_aux`. -/
structure MpcResults (N : Type) extends Results N where
  dischargingToAux : ℚ := 0

/-- What the code does to the tank's flows, L344-372. `maxC` and `maxD` are the two calls of
`max_energy_in_out`. Result: charge, discharge, state. -/
def tankFlows (maxC maxD : Except PyErr ℚ) (p : Point) : Except PyErr (ℚ × ℚ × TankState) :=
  let c := pyRound (p.tsc - p.tsd) 2
  let d := pyRound (p.tsd - p.tsc) 2
  if c > d then
    match maxC with
    | .error e => .error e
    | .ok m => .ok (min m c, 0, if min m c = 0 then .standby else .charging)
  else if d > c then
    match maxD with
    | .error e => .error e
    | .ok m => .ok (0, min m d, if min m d = 0 then .standby else .discharging)
  else .ok (p.tsc, p.tsd, .standby)

/-- The node temperatures at the end of the hour, L378-386. With a fuel that is not electricity and a
tank of non-zero capacity `final_nodes_temp` is never assigned: `UnboundLocalError` at L456. -/
def finalNodes (S : MpcIn N) (hour : ℕ) (prev : Carry N) (f : ℚ × ℚ × TankState) : Except PyErr N :=
  if S.tank.capacity = 0 then .ok prev.nodes
  else if S.aux.electric then S.tank.newNodes 1 (hour + 1) f.2.2 prev.nodes f.1 f.2.1
  else .error .unboundLocalError

/-- `results['HP']`, L414-436. -/
def hpReport (S : MpcIn N) (t : ℕ) (p : Point) : HpR :=
  let cop := (S.perf t).cop
  { cop := cop, duty := (S.perf t).duty, heatTotalOutput := p.hpt, heatFromEsToDemand := p.hptesd,
    heatToHeatDemand := min p.hpt (S.heatDemand t),
    heatToTs := p.hpt - min p.hpt (S.heatDemand t),
    elecTotalUsage := p.hpt / cop, elecResUsage := (p.hptrd + p.hptrs) / cop,
    elecFromEsToDemand := p.hptesd / cop,
    elecImportUsage := p.hpt / cop - (p.hptrd + p.hptrs) / cop - p.hptesd / cop }

/-- `results['RES']`, L402-411. -/
def resReport (S : MpcIn N) (t : ℕ) (p : Point) : ResR :=
  { generationTotal := S.generation t, wind := S.wind t, pv := S.pv t, elecDemand := p.resEd,
    hp := (p.hptrd + p.hptrs) / (S.perf t).cop,
    aux := if S.aux.electric then p.auxRd + p.auxRs else 0, exp := p.exp }

/-- `results['aux']`, L478-488. The price of electricity is read from `results['grid']`, where it is
still 0 (it is set at L511). -/
def auxReport (S : MpcIn N) (p : Point) : AuxR :=
  let usage := S.aux.fuelUsage p.aux
  if S.aux.electric then { demand := p.aux, usage := usage, cost := 0 / 1000 * p.aux, mass := 0 * usage }
  else { demand := p.aux, usage := usage, cost := S.aux.cost / 1000 * p.aux, mass := S.aux.energyDensity * usage }

/-- `results['grid']`, L491-526. -/
def gridReport (S : MpcIn N) (t : ℕ) (p : Point) : GridR :=
  let hp := (hpReport S t p).elecImportUsage
  let total :=
    if S.aux.electric then p.impEd + hp + p.escImp + p.aux - (resReport S t p).aux
    else p.impEd + hp + p.escImp
  let price := S.importCost t
  let row := Tools.splitHour (S.generation t) (S.elecDemand t)
  { importForElecDemand := p.impEd, importForHeatPumpTotal := hp, importForEs := p.escImp,
    totalExport := p.exp, totalImport := total, importPrice := price,
    importCosts := total * price / 1000, exportIncome := p.exp * S.exportPrice / 1000,
    cashflow := p.exp * S.exportPrice / 1000 - total * price / 1000,
    surplus := row.surplus, deficit := row.deficit, netMatch := row.mtch }

/-- The results of L390-526 for hour `t`, given the tank's flows and final temperatures. -/
def report (S : MpcIn N) (t : ℕ) (p : Point) (f : ℚ × ℚ × TankState) (nodes : N) : MpcResults N where
  elecDemand := { elecDemand := S.elecDemand t, res := p.resEd, imp := p.impEd, es := p.esdEd * S.es.dischargeEff }
  res := resReport S t p
  hp := hpReport S t p
  heatDemand := { ts := f.2.1, heatDemand := S.heatDemand t, hp := (hpReport S t p).heatToHeatDemand, aux := p.aux }
  ts := { chargingTotal := f.1, dischargingTotal := f.2.1, hpToTs := (hpReport S t p).heatToTs, hpFromResToTs := 0, hpFromImportToTs := 0, auxToTs := f.1 - (hpReport S t p).heatToTs, finalNodesTemp := some nodes }
  es := { chargingFromRes := p.escRes, chargingFromImport := p.escImp, chargingTotal := p.escRes + p.escImp, dischargingToDemand := p.esdEd * S.es.dischargeEff, dischargingToHp := p.esdHp, dischargingTotal := p.esdEd * S.es.dischargeEff + p.esdHp + p.esdAux, finalSoc := p.socEs }
  dischargingToAux := p.esdAux
  aux := auxReport S p
  grid := gridReport S t p

/-- `solve`, L119-544, for the horizon `hour` to `final` (exclusive). The starting state of charge of the
tank is computed first (L208); a horizon of one hour has no second point, so L346 raises. -/
def solve (S : MpcIn N) (gekko : ℕ → ℕ → Except PyErr Point) (hour attempt final : ℕ) (prev : Carry N) :
    Except PyErr (MpcResults N × Carry N) :=
  match S.tank.maxInOut hour hour .discharging prev.nodes with
  | .error e => .error e
  | .ok _ =>
    match gekko hour attempt with
    | .error e => .error e
    | .ok p =>
      if final < hour + 2 then .error .indexError
      else
        match tankFlows (S.tank.maxInOut 1 1 .charging prev.nodes) (S.tank.maxInOut 1 1 .discharging prev.nodes) p with
        | .error e => .error e
        | .ok f =>
          match finalNodes S hour prev f with
          | .error e => .error e
          | .ok nodes => .ok (report S (hour + 1) p f nodes, ⟨nodes⟩)

/-- The state every retry and the first hour start from, L595-610 and L647-662. -/
def fresh (S : MpcIn N) : Carry N := ⟨S.tank.initTemps⟩

/-- The result appended without solving, L570-620: heat pump and auxiliary heat of the *first* hour. -/
def opening (S : MpcIn N) (first : ℕ) : MpcResults N :=
  let hd := S.heatDemand first
  let duty := (S.perf first).duty
  { ts := { finalNodesTemp := some S.tank.initTemps },
    es := { finalSoc := S.es.initState },
    hp := { heatTotalOutput := if duty ≥ hd then hd else duty, cop := (S.perf first).cop, duty := duty },
    aux := { demand := if duty ≥ hd then 0 else hd - duty },
    grid := { importPrice := S.importCost first },
    heatDemand := { heatDemand := hd } }

/-- The lists `results` and `next_results` of L556-557. -/
structure Lists (N : Type) where
  results : List (MpcResults N)
  next : List (Carry N)

/-- `hour + horizon`, at most 8759, L563-565. -/
def horizonEnd (S : MpcIn N) (hour : ℕ) : ℕ := if hour + S.horizon > 8759 then 8759 else hour + S.horizon

/-- The body of the loop, L563-667. The bare `except` covers the look-up in `next_results`, the
first attempt and the two `append`s (which cannot fail). -/
def hourStep (S : MpcIn N) (gekko : ℕ → ℕ → Except PyErr Point) (first hour : ℕ) (L : Lists N) :
    Except PyErr (Lists N) :=
  if hour = first ∨ hour = 8758 then
    let L1 : Lists N := ⟨L.results ++ [opening S first], L.next ++ [fresh S]⟩
    if hour = first then
      match solve S gekko hour 0 (horizonEnd S hour) (fresh S) with
      | .error e => .error e
      | .ok (r, n) => .ok ⟨L1.results ++ [r], L1.next ++ [n]⟩
    else .ok L1
  else
    let attempt : Except PyErr (MpcResults N × Carry N) :=
      match L.next[hour - first]? with
      | none => .error .indexError
      | some prev => solve S gekko hour 0 (horizonEnd S hour) prev
    match attempt with
    | .ok (r, n) => .ok ⟨L.results ++ [r], L.next ++ [n]⟩
    | .error _ =>
      match solve S gekko hour 1 (horizonEnd S hour) (fresh S) with
      | .error e => .error e
      | .ok (r, n) => .ok ⟨L.results ++ [r], L.next ++ [n]⟩

/-- The loop over the hours `hour`, `hour + 1`, … (`k` of them), L558-667. -/
def hours (S : MpcIn N) (gekko : ℕ → ℕ → Except PyErr Point) (first : ℕ) : ℕ → ℕ → Lists N → Except PyErr (Lists N)
  | 0, _, L => .ok L
  | k + 1, hour, L =>
    match hourStep S gekko first hour L with
    | .error e => .error e
    | .ok L' => hours S gekko first k (hour + 1) L'

/-- `moving_horizon`, L546-675: the list it pickles and returns. -/
def movingHorizon (S : MpcIn N) (gekko : ℕ → ℕ → Except PyErr Point) (first timesteps : ℕ) :
    Except PyErr (List (MpcResults N)) :=
  if first + timesteps > 8760 then .error .valueError
  else
    match hours S gekko first (timesteps - 1) first ⟨[], []⟩ with
    | .error e => .error e
    | .ok L => .ok L.results

/-- Writing `max_capacity[t]`. -/
def store (xs : List ℚ) (t : ℕ) (v : ℚ) : Except PyErr (List ℚ) :=
  if t < xs.length then .ok (xs.set t v) else .error .indexError

/-- The loop L83-91, over `k` hours from `timestep`. `cap` is `max_energy_in_out('charging', …)` of a
tank at return temperature; the year's temperature series have 8760 entries (L91). -/
def fill (cap : ℕ → Except PyErr ℚ) (first : ℕ) : ℕ → ℕ → List ℚ → Except PyErr (List ℚ)
  | 0, _, xs => .ok xs
  | k + 1, timestep, xs =>
    if timestep < 8760 then
      match cap timestep with
      | .error e => .error e
      | .ok v =>
        match store xs (timestep - first) v with
        | .error e => .error e
        | .ok xs' => fill cap first k (timestep + 1) xs'
    else .error .indexError

/-- The end of that loop, L79-81. `8759 - horizon` is negative in Python for a very long horizon, and
zero here; the comparison comes out the same. -/
def fillEnd (first timesteps horizon : ℕ) : ℕ :=
  let final := first + (timesteps + horizon)
  if final ≥ 8759 - horizon then 8759 else final

/-- `max_capacity` of `pre_calculation`, L71-91. -/
def maxCapacity (cap : ℕ → Except PyErr ℚ) (first timesteps horizon : ℕ) : Except PyErr (List ℚ) :=
  fill cap first (fillEnd first timesteps horizon - first) first (List.replicate (timesteps + horizon) 0)

end Mpc
end Verif
