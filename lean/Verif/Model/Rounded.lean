import Verif.Model.Rounding
import Verif.Model.Run

/-!
# The fixed order controller with rounding

The functions of `Model/Battery.lean`, `Model/HeatPump.lean`, `Model/FixedOrder.lean`, `Model/Checks.lean` and
`Model/Run.lean` once more, with every arithmetic operation rounded, in the order Python performs them. With exact
arithmetic they are the functions there (`Props/Rounded.lean`). The tank remains a parameter.
-/

set_option autoImplicit false

namespace Verif.Rounded
open FixedOrder
variable {N : Type} (R : Rounding)

/-- `init_state`, electrical_storage.py L37-39. -/
def initState (b : Battery) : ℚ := R.mul b.initialState b.capacity

/-- `max_charging`, electrical_storage.py L41-68. -/
def maxCharging (b : Battery) (m soc : ℚ) : ℚ :=
  let maxChangeSoc := R.sub b.capacity soc
  let maxCharge :=
    if m ≥ 0 ∧ m ≤ b.chargeMax then m
    else if m ≥ 0 ∧ m ≥ b.chargeMax then b.chargeMax
    else 0
  min maxCharge maxChangeSoc

/-- `max_discharging`, electrical_storage.py L70-93. -/
def maxDischarging (b : Battery) (m soc : ℚ) : ℚ :=
  let p := R.mul m b.dischargeEff
  let discharge :=
    if p < 0 ∧ p ≥ -1 * b.dischargeMax then p
    else if p ≤ -1 * b.dischargeMax then -1 * b.dischargeMax
    else 0
  min discharge soc

/-- `self_loss`, electrical_storage.py L95-107. -/
def selfLoss (b : Battery) (soc : ℚ) : ℚ := R.mul soc b.selfDischarge

/-- `new_soc`, electrical_storage.py L109-138. -/
def newSoc (b : Battery) (m soc : ℚ) : ℚ :=
  let x := R.sub (R.add (R.add soc (maxCharging R b m soc)) (maxDischarging R b m soc)) (selfLoss R b soc)
  if x ≥ b.capacity then b.capacity
  else if x ≤ 0 then 0
  else x

/-- `charge_to_capacity`, electrical_storage.py L177-190. -/
def chargeToCapacity (b : Battery) (soc : ℚ) : ℚ :=
  let c := R.sub b.capacity soc
  let losses := R.add (selfLoss R b soc) (R.mul c b.chargeEff)
  min (R.add c losses) b.chargeMax

/-- `elec_usage`, heatpump.py L297-313. -/
def elecUsage (hp : HeatPump) (demand : ℚ) (p : Perf) : ℚ :=
  if hp.capacity = 0 then 0
  else
    let maxElecUsage := R.div demand p.cop
    let maxElecCap := R.div p.duty p.cop
    min maxElecUsage maxElecCap

/-- `thermal_output`, heatpump.py L315-339. -/
def thermalOutput (hp : HeatPump) (elecSupply : ℚ) (p : Perf) (heatDemand : ℚ) : HpDemand :=
  if hp.capacity = 0 then ⟨0, 0⟩
  else
    let maxThermalOutput := R.mul elecSupply p.cop
    let hpDemand := min (min maxThermalOutput heatDemand) p.duty
    let hpElec := R.div hpDemand p.cop
    ⟨hpDemand, hpElec⟩

/-- `fuel_usage`, heat/auxiliary.py L54-63. -/
def fuelUsage (a : AuxI) (demand : ℚ) : ℚ := R.div demand a.efficiency

/-- `HP_RES_to_demand`, fixed_order.py L1045-1062. -/
def hpResToDemand (hp : HeatPump) (hpUsage resLeft : ℚ) (p : Perf) (heatUnmet : ℚ) : Amt :=
  let spare := R.sub p.duty hpUsage
  let hpr := thermalOutput R hp resLeft p heatUnmet
  let h := min hpr.demand spare
  ⟨h, elecUsage R hp h p⟩

/-- `HP_import_to_demand`, fixed_order.py L1077-1102. -/
def hpImportToDemand (hp : HeatPump) (hpUsage heatUnmet : ℚ) (p : Perf) : Amt :=
  let spare := R.sub p.duty hpUsage
  let h := if hp.capacity = 0 then 0 else min heatUnmet spare
  ⟨h, elecUsage R hp h p⟩

/-- `TS_to_demand`, fixed_order.py L1104-1119. -/
def tsToDemand (maxE heatUnmet tsDischarge tsCharge : ℚ) : ℚ :=
  let maxDis := R.add (R.sub maxE tsDischarge) tsCharge
  min heatUnmet maxDis

/-- `ES_to_HP_to_demand`, fixed_order.py L1121-1141. -/
def esToHpToDemand (hp : HeatPump) (soc : ℚ) (p : Perf) (heatUnmet hpUsage : ℚ) : Amt :=
  let maxHpEs := thermalOutput R hp soc p heatUnmet
  let spare := R.sub p.duty hpUsage
  let h := min maxHpEs.demand spare
  ⟨h, elecUsage R hp h p⟩

/-- `tank_charge_left`, fixed_order.py L1163-1166, L1185-1188, L1206-1209. -/
def chargeLeft (maxE tsDischarge tsCharge : ℚ) : ℚ := R.sub (R.add maxE tsDischarge) tsCharge

/-- `HP_RES_to_TS`, fixed_order.py L1149-1174. -/
def hpResToTs (hp : HeatPump) (maxE resLeft : ℚ) (p : Perf) (hpUsage tsDischarge tsCharge : ℚ) :
    Amt :=
  let hpCapLeft := R.sub p.duty hpUsage
  let hpMaxRes := R.mul resLeft p.cop
  let hpLeft := min hpCapLeft hpMaxRes
  let h := min hpLeft (chargeLeft R maxE tsDischarge tsCharge)
  ⟨h, elecUsage R hp h p⟩

/-- `HP_import_to_TS`, fixed_order.py L1195-1222. -/
def hpImportToTs (hp : HeatPump) (maxE : ℚ) (p : Perf) (hpUsage tsDischarge tsCharge : ℚ) : Amt :=
  let spare := R.sub p.duty hpUsage
  let h := if hp.capacity = 0 then 0
    else R.round (min spare (chargeLeft R maxE tsDischarge tsCharge)) 2
  ⟨h, elecUsage R hp h p⟩

/-- First half of `run_process`, fixed_order.py L731-835. -/
def amount (P : Plant N) (i : StepIn N) (c : Checks) : Process → Except PyErr Amt
  | .resToDemand => .ok ⟨0, 0⟩
  | .esToDemand => .ok (Amt.scalar (esToDemand c.elecUnmet c.soc))
  | .importToDemand => .ok (Amt.scalar c.elecUnmet)
  | .hpResToDemand => .ok (hpResToDemand R P.hp c.hpUsage c.resLeft i.perf c.heatUnmet)
  | .eauxResToDemand => .ok (Amt.scalar (eauxResToDemand P.aux c.auxLeft c.resLeft c.heatUnmet))
  | .hpImportToDemand => .ok (hpImportToDemand R P.hp c.hpUsage c.heatUnmet i.perf)
  | .tsToDemand => do
      let m ← P.tank.maxInOut i.hour .discharging i.nodes
      return Amt.scalar (tsToDemand R m c.heatUnmet c.tsDischarge c.tsCharge)
  | .esToHpToDemand => .ok (esToHpToDemand R P.hp c.soc i.perf c.heatUnmet c.hpUsage)
  | .auxToDemand => .ok (Amt.scalar c.heatUnmet)
  | .hpResToTs => do
      let m ← P.tank.maxInOut i.hour .charging i.nodes
      return hpResToTs R P.hp m c.resLeft i.perf c.hpUsage c.tsDischarge c.tsCharge
  | .eauxResToTs =>
      if P.aux.electric then do
        let m ← P.tank.maxInOut i.hour .charging i.nodes
        return Amt.scalar (min (min c.auxLeft c.resLeft) (chargeLeft R m c.tsDischarge c.tsCharge))
      else .ok (Amt.scalar 0)
  | .hpImportToTs => do
      let m ← P.tank.maxInOut i.hour .charging i.nodes
      return hpImportToTs R P.hp m i.perf c.hpUsage c.tsDischarge c.tsCharge
  | .resToEs => .ok (Amt.scalar (maxCharging R P.es c.resLeft c.soc))
  | .importToEs => .ok (Amt.scalar (chargeToCapacity R P.es c.soc))
  | .resToExport => .ok (Amt.scalar c.resLeft)

/-- The updates of `checks` in `run_process`, fixed_order.py L837-885. -/
def update (p : Process) (a : Amt) (c : Checks) : Checks :=
  match p with
  | .resToDemand => c
  | .esToDemand => { c with elecUnmet := R.sub c.elecUnmet a.e, soc := R.add c.soc (-a.e) }
  | .importToDemand => { c with elecUnmet := R.sub c.elecUnmet a.e }
  | .hpResToDemand => { c with
      heatUnmet := R.sub c.heatUnmet a.h, resLeft := R.sub c.resLeft a.e, hpUsage := R.add c.hpUsage a.h }
  | .eauxResToDemand => { c with
      heatUnmet := R.sub c.heatUnmet a.h, resLeft := R.sub c.resLeft a.e, auxLeft := R.sub c.auxLeft a.e }
  | .hpImportToDemand => { c with
      heatUnmet := R.sub c.heatUnmet a.h, hpUsage := R.add c.hpUsage a.h }
  | .tsToDemand => { c with
      heatUnmet := R.sub c.heatUnmet a.h, tsDischarge := R.add c.tsDischarge a.h }
  | .esToHpToDemand => { c with heatUnmet := R.sub c.heatUnmet a.h, soc := R.add c.soc (-a.e) }
  | .auxToDemand => { c with heatUnmet := R.sub c.heatUnmet a.h, auxLeft := R.sub c.auxLeft a.h }
  | .hpResToTs => { c with
      resLeft := R.sub c.resLeft a.e, hpUsage := R.add c.hpUsage a.h, tsCharge := R.add c.tsCharge a.h }
  | .eauxResToTs => { c with
      resLeft := R.sub c.resLeft a.e, tsCharge := R.add c.tsCharge a.h, auxLeft := R.sub c.auxLeft a.e }
  | .hpImportToTs => { c with hpUsage := R.add c.hpUsage a.h, tsCharge := R.add c.tsCharge a.h }
  | .resToEs => { c with resLeft := R.sub c.resLeft a.e, soc := R.add c.soc a.e }
  | .importToEs => { c with soc := R.add c.soc a.e }
  | .resToExport => { c with resLeft := R.sub c.resLeft a.e }

/-- `run_process`, fixed_order.py L726-887; the results are recorded without arithmetic. -/
def runProcess (P : Plant N) (i : StepIn N) (p : Process) (s : Checks × Results N) :
    Except PyErr (Checks × Results N) := do
  let a ← amount R P i s.1 p
  return (update R p a s.1, record p a s.2)

/-- The loop over the order, fixed_order.py L192-199 and L465-472. -/
def runOrder (P : Plant N) (i : StepIn N) (key : ℤ → Except PyErr Process) :
    List ℤ → Checks × Results N → Except PyErr (Checks × Results N)
  | [], s => .ok s
  | n :: ns, s => do
      let p ← key n
      let s' ← runProcess R P i p s
      runOrder P i key ns s'

/-- Net storage charge used to pick the state, fixed_order.py L267, L538. -/
def tsMatchOf (below : Bool) (c : Checks) : ℚ :=
  if below then R.round (R.sub c.tsCharge c.tsDischarge) 1 else R.sub c.tsCharge c.tsDischarge

/-- Totals of heat pump, storage and auxiliary, fixed_order.py L204-259, L475-531. -/
def totals1 (P : Plant N) (below : Bool) (r : Results N) : Results N :=
  let heatToHeatDemand :=
    R.add (R.add r.hp.heatFromResToDemand r.hp.heatFromImportToDemand) r.hp.heatFromEsToDemand
  let heatToTs := R.add r.hp.heatFromResToTs r.hp.heatFromImportToTs
  let elecResUsage := R.add r.hp.elecFromResToDemand r.hp.elecFromResToTs
  let elecImportUsage := R.add r.hp.elecFromImportToDemand r.hp.elecFromImportToTs
  let hpToTs := R.add r.ts.hpFromResToTs r.ts.hpFromImportToTs
  let auxDemand := R.add (R.add r.aux.resToDemand r.aux.resToTs) r.heatDemand.aux
  let usage := fuelUsage R P.aux auxDemand
  let auxPrice := if P.aux.electric then r.grid.importPrice else P.aux.cost
  let density := if P.aux.electric then 0 else P.aux.energyDensity
  { r with
    heatDemand := { r.heatDemand with
      hp := R.add (R.add r.heatDemand.hpRes r.heatDemand.hpImport) r.heatDemand.hpEs
      aux := if below then r.heatDemand.aux else R.add r.heatDemand.aux r.aux.resToDemand }
    hp := { r.hp with
      heatToHeatDemand := heatToHeatDemand
      heatToTs := heatToTs
      heatTotalOutput := R.add heatToHeatDemand heatToTs
      elecResUsage := elecResUsage
      elecImportUsage := elecImportUsage
      elecTotalUsage := R.add elecResUsage elecImportUsage }
    ts := { r.ts with hpToTs := hpToTs, chargingTotal := R.add hpToTs r.ts.auxToTs }
    aux := { r.aux with
      demand := auxDemand
      usage := usage
      cost := R.mul auxPrice (R.sub (R.sub auxDemand r.aux.resToDemand) r.aux.resToTs)
      mass := R.mul density usage } }

/-- New node temperatures, fixed_order.py L261-284, L533-555. -/
def tankUpdate (P : Plant N) (i : StepIn N) (below : Bool) (c : Checks) (r : Results N) :
    Except PyErr N :=
  if P.tank.capacity = 0 then .ok i.nodes
  else P.tank.newNodes i.hour (stateOf (tsMatchOf R below c)) i.nodes
    (R.add r.hp.heatTotalOutput r.aux.demand) i.heatDemand

/-- Battery and grid totals, fixed_order.py L286-329, L557-604. -/
def totals2 (P : Plant N) (i : StepIn N) (below : Bool) (nodes : N) (r : Results N) : Results N :=
  let charging := R.add r.es.chargingFromRes r.es.chargingFromImport
  let discharging := R.add r.es.dischargingToDemand r.es.dischargingToHp
  let finalSoc := newSoc R P.es (R.sub charging discharging) i.soc
  let impHp := R.add r.grid.importForHeatPumpToHeatDemand r.grid.importForHeatPumpToTs
  let imports := R.add (R.add r.grid.importForElecDemand impHp) r.grid.importForEs
  let totalImport :=
    if P.aux.electric then
      R.sub (R.sub (R.add imports r.aux.demand) r.aux.resToDemand) r.aux.resToTs
    else imports
  let importCosts := R.div (R.mul totalImport r.grid.importPrice) 1000
  let exportIncome := R.div (R.mul r.grid.totalExport P.exportPrice) 1000
  { r with
    ts := { r.ts with finalNodesTemp := some nodes }
    es := { r.es with
      chargingTotal := charging, dischargingTotal := discharging, finalSoc := finalSoc }
    grid := { r.grid with
      importForHeatPumpTotal := impHp
      totalImport := totalImport
      importCosts := importCosts
      exportIncome := exportIncome
      cashflow := R.sub exportIncome importCosts
      importBelowSetpoint := if below then totalImport else r.grid.importBelowSetpoint } }

/-- `min_out`, fixed_order.py L336-338, L611-613. -/
def minOut (P : Plant N) (i : StepIn N) : ℚ :=
  R.mul (R.div (R.div (R.mul P.hp.minimumOutput P.hp.minimumRuntime) 60) 100) i.perf.duty

/-- Switching the heat pump off, above the setpoint: fixed_order.py L354-400. -/
def hpOffAbove (P : Plant N) (i : StepIn N) (r : Results N) : Except PyErr (Results N) := do
  let r := zeroHp r
  let nodes ← if P.tank.capacity = 0 then .ok r.ts.finalNodesTemp
    else (P.tank.newNodes i.hour .discharging i.nodes 0 i.heatDemand).map some
  return { r with
    ts := { r.ts with finalNodesTemp := nodes }
    aux := { r.aux with demand := R.sub i.heatDemand r.ts.dischargingTotal } }

/-- Switching the heat pump off, below the setpoint: fixed_order.py L631-688. -/
def hpOffBelow (P : Plant N) (i : StepIn N) (r : Results N) : Except PyErr (Results N) := do
  let r := zeroHp r
  let m ← P.tank.maxInOut i.hour .discharging i.nodes
  let dis := min m i.heatDemand
  let r := { r with ts := { r.ts with chargingTotal := 0, dischargingTotal := dis } }
  if P.tank.capacity = 0 then
    return { r with aux := { r.aux with demand := R.sub i.heatDemand dis } }
  else do
    let heatDemand := dis
    let nodes ← P.tank.newNodes i.hour .discharging i.nodes 0 heatDemand
    return { r with
      ts := { r.ts with finalNodesTemp := some nodes }
      aux := { r.aux with demand := R.sub heatDemand dis } }

/-- Raising the heat pump to minimum output: fixed_order.py L402-434, L690-722. -/
def hpRaise (P : Plant N) (i : StepIn N) (below : Bool) (c : Checks) (inc : ℚ) (r : Results N) :
    Except PyErr (Results N) := do
  let e := R.div inc r.hp.cop
  let r := { r with
    hp := { r.hp with
      heatFromImportToTs := R.add r.hp.heatFromImportToTs inc
      heatToTs := R.add r.hp.heatToTs inc
      heatTotalOutput := R.add r.hp.heatTotalOutput inc
      elecTotalUsage := R.add r.hp.elecTotalUsage e
      elecImportUsage := R.add r.hp.elecImportUsage e
      elecFromImportToTs := R.add r.hp.elecFromImportToTs e }
    ts := { r.ts with
      hpToTs := R.add r.ts.hpToTs inc
      hpFromImportToTs := R.add r.ts.hpFromImportToTs inc } }
  if P.tank.capacity = 0 then return r
  else do
    let nodes ← P.tank.newNodes i.hour (stateOf (R.add (tsMatchOf R below c) inc)) i.nodes
      r.hp.heatTotalOutput i.heatDemand
    return { r with ts := { r.ts with finalNodesTemp := some nodes } }

/-- `0.1` as a float (L342), or 0 (L617). -/
def minTrigger (below : Bool) : ℚ := if below then 0 else R.rnd (1 / 10)

/-- The minimum output rule, fixed_order.py L331-434, L606-722. -/
def minOutputRule (P : Plant N) (i : StepIn N) (below : Bool) (c : Checks) (r : Results N) :
    Except PyErr (Results N) :=
  let mo := minOut R P i
  let hpUsage := r.hp.heatTotalOutput
  if hpUsage < mo ∧ hpUsage > minTrigger R below then do
    let inc := R.sub mo hpUsage
    let m ← P.tank.maxInOut i.hour .charging i.nodes
    let tankChargeLeft := chargeLeft R m c.tsDischarge c.tsCharge
    if inc > tankChargeLeft then
      (if below then hpOffBelow R P i r else hpOffAbove R P i r)
    else hpRaise R P i below c inc r
  else .ok r

/-- Everything up to the minimum output rule. `match`, the difference computed for the whole year, is surplus less
deficit without another rounding because one of the two is zero. -/
def dispatch (P : Plant N) (i : StepIn N) (below : Bool) (order : List ℤ) :
    Except PyErr (Checks × Results N) := do
  let s ← runOrder R P i (if below then keyBelow else keyAbove) order
    (initChecks P i, initResults P i below)
  let r := totals1 R P below s.2
  let nodes ← tankUpdate R P i below s.1 r
  return (s.1, totals2 R P i below nodes r)

/-- `above_setpoint` (fixed_order.py L166-436) for `below = false`, `below_setpoint` (L438-724) for
`below = true`. -/
def step (P : Plant N) (i : StepIn N) (below : Bool) (order : List ℤ) :
    Except PyErr (Results N) := do
  let s ← dispatch R P i below order
  minOutputRule R P i below s.1 s.2

/-- One hour of `electrical_surplus_deficit`, fixed_order.py L1262-1307. -/
def splitHour (gen dem : ℚ) : Tools.Row :=
  let m := R.sub gen dem
  if m ≤ 0 then { mtch := m, deficit := -1 * m, surplus := 0, resUsed := min gen dem }
  else { mtch := m, deficit := 0, surplus := m, resUsed := min gen dem }

/-- `electrical_surplus_deficit`, fixed_order.py L1262-1307. -/
def surplusDeficit (gen dem : List ℚ) : Except PyErr (List Tools.Row) :=
  if gen.length < 8760 ∨ dem.length < 8760 then .error .keyError
  else if gen.length > 8760 ∨ dem.length > 8760 then .error .valueError
  else .ok (List.zipWith (splitHour R) gen dem)

/-- `wind = wind_user + wind_data`, L74. -/
def wind (S : RunIn N) : List ℚ := List.zipWith R.add S.windUser S.windData

/-- `renewable_generation = wind_user + wind_data + PV`, L77. -/
def generation (S : RunIn N) : List ℚ := List.zipWith R.add (wind R S) S.pv

/-- Completion of the results, L139-151. -/
def complete (row : Tools.Row) (gen wnd pv elec heat : ℚ) (r : Results N) : Results N :=
  { r with
    res := { r.res with
      elecDemand := row.resUsed
      generationTotal := gen
      wind := wnd
      pv := pv
      hp := r.hp.elecResUsage
      aux := R.add r.aux.resToDemand r.aux.resToTs }
    elecDemand := { r.elecDemand with res := row.resUsed, elecDemand := elec }
    heatDemand := { r.heatDemand with heatDemand := heat } }

/-- One pass of the loop body, L107-154. -/
def hourStep (S : RunIn N) (rows : List Tools.Row) (t : ℕ) (nodes : N) (soc : ℚ) :
    Except PyErr (Results N) := do
  let heat ← lookup S.heatDemand t
  let price ← lookup S.importPrice t
  let row ← lookup rows t
  let perf ← lookupPerf S.perf t
  let i : StepIn N :=
    { hour := t, surplus := row.surplus, deficit := row.deficit, heatDemand := heat,
      importPrice := price, nodes := nodes, soc := soc, perf := perf }
  let r ← if price > S.setpoint then step R (plant S) i false S.orderAbove
    else step R (plant S) i true S.orderBelow
  let gen ← lookup (generation R S) t
  let wnd ← lookup (wind R S) t
  let pv ← lookup S.pv t
  let elec ← lookup S.elecDemand t
  return complete R row gen wnd pv elec heat r

/-- The loop of `run_timesteps`, L102-158. -/
def runFrom (S : RunIn N) (rows : List Tools.Row) :
    ℕ → ℕ → N → ℚ → Except PyErr (List (Results N))
  | _, 0, _, _ => .ok []
  | t, n + 1, nodes, soc => do
      let r ← hourStep R S rows t nodes soc
      let rest ← runFrom S rows (t + 1) n (r.ts.finalNodesTemp.getD nodes) r.es.finalSoc
      return r :: rest

/-- `run_timesteps`, L59-164. -/
def runTimesteps (S : RunIn N) (first n : ℕ) : Except PyErr (List (Results N)) := do
  let rows ← surplusDeficit R (generation R S) S.elecDemand
  if first + n > 8760 then .error .valueError
  else runFrom R S rows first n S.tank.initTemps (initState R S.es)

end Verif.Rounded
