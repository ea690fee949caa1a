import Verif.Model.Battery
import Verif.Model.HeatPump

/-!
# Fixed order controller, one timestep (`/repo/pylesa/controllers/fixed_order.py`)

The Python keeps two dictionaries: `checks` (what is left to do) and `results`. `run_process`
computes an amount `r` from `checks`, records it in `results` and subtracts it from `checks`.
The model keeps this structure: `amount`, `record`, `update`.

The hot water tank enters through `TankI`, so that everything proved here holds for any tank;
`Verif.Model.Tank` provides the real one. Exceptions raised by the tank propagate.
-/

set_option autoImplicit false

namespace Verif

/-- Tank operating state strings 'charging', 'discharging', 'standby'. -/
inductive TankState where
  | charging | discharging | standby
  deriving DecidableEq, Repr

/-- The part of `HotWaterTank` the controller calls, over an abstract type `N` of node
temperatures. `maxInOut hour s nodes` is `max_energy_in_out(s, nodes, source, flow, return, hour)`
and `newNodes hour s nodes thermal demand` is `new_nodes_temp(...)[-1]`; the source, flow and
return temperatures depend on the hour only. -/
structure TankI (N : Type) where
  capacity : ℚ
  initTemps : N
  maxInOut : ℕ → TankState → N → Except PyErr ℚ
  newNodes : ℕ → TankState → N → ℚ → ℚ → Except PyErr N

/-- `Aux` as used by the controller (heat/auxiliary.py L35-63): whether the fuel is electricity,
efficiency, and cost and energy density (used only if the fuel is not electricity). -/
structure AuxI where
  electric : Bool
  efficiency : ℚ
  cost : ℚ
  energyDensity : ℚ
  deriving DecidableEq

/-- `fuel_usage`, heat/auxiliary.py L54-63. Division by zero efficiency is outside the model. -/
def AuxI.fuelUsage (a : AuxI) (demand : ℚ) : ℚ := demand / a.efficiency

/-- The plant: objects created in `FixedOrder.__init__`, fixed_order.py L27-57, and
`np.amax(self.heat_demand.values)` (L189, L462). -/
structure Plant (N : Type) where
  hp : HeatPump
  es : Battery
  aux : AuxI
  tank : TankI N
  exportPrice : ℚ
  peakHeatDemand : ℚ

/-- Arguments of `above_setpoint`/`below_setpoint`, fixed_order.py L166-168, L438-440, that
are read. -/
structure StepIn (N : Type) where
  hour : ℕ
  surplus : ℚ
  deficit : ℚ
  heatDemand : ℚ
  importPrice : ℚ
  nodes : N
  soc : ℚ
  perf : Perf

/-- The fifteen process names of `process_key`, fixed_order.py L889-921. -/
inductive Process where
  | resToDemand | esToDemand | importToDemand | hpResToDemand | eauxResToDemand
  | tsToDemand | esToHpToDemand | hpImportToDemand | auxToDemand | hpResToTs | eauxResToTs
  | hpImportToTs | resToEs | importToEs | resToExport
  deriving DecidableEq, Repr

open Process in
/-- `process_key()['above']`, fixed_order.py L891-903; a missing key is `KeyError`. -/
def keyAbove : ℤ → Except PyErr Process
  | 1 => .ok resToDemand
  | 2 => .ok esToDemand
  | 3 => .ok importToDemand
  | 4 => .ok hpResToDemand
  | 5 => .ok eauxResToDemand
  | 6 => .ok tsToDemand
  | 7 => .ok esToHpToDemand
  | 8 => .ok hpImportToDemand
  | 9 => .ok auxToDemand
  | 10 => .ok hpResToTs
  | 11 => .ok eauxResToTs
  | 12 => .ok resToEs
  | 13 => .ok resToExport
  | _ => .error .keyError

open Process in
/-- `process_key()['below']`, fixed_order.py L905-919. -/
def keyBelow : ℤ → Except PyErr Process
  | 1 => .ok resToDemand
  | 2 => .ok importToDemand
  | 3 => .ok esToDemand
  | 4 => .ok hpResToDemand
  | 5 => .ok eauxResToDemand
  | 6 => .ok hpImportToDemand
  | 7 => .ok tsToDemand
  | 8 => .ok esToHpToDemand
  | 9 => .ok auxToDemand
  | 10 => .ok hpResToTs
  | 11 => .ok eauxResToTs
  | 12 => .ok hpImportToTs
  | 13 => .ok resToEs
  | 14 => .ok importToEs
  | 15 => .ok resToExport
  | _ => .error .keyError

/-- The `checks` dictionary, fixed_order.py L182-190. -/
structure Checks where
  elecUnmet : ℚ
  heatUnmet : ℚ
  resLeft : ℚ
  hpUsage : ℚ
  tsDischarge : ℚ
  tsCharge : ℚ
  soc : ℚ
  auxLeft : ℚ

/-- `results['elec_demand']`, fixed_order.py L925-929. -/
structure ElecDemandR where
  res : ℚ := 0
  es : ℚ := 0
  imp : ℚ := 0
  elecDemand : ℚ := 0

/-- `results['heat_demand']`, fixed_order.py L931-938. -/
structure HeatDemandR where
  hp : ℚ := 0
  hpRes : ℚ := 0
  hpImport : ℚ := 0
  hpEs : ℚ := 0
  ts : ℚ := 0
  aux : ℚ := 0
  heatDemand : ℚ := 0

/-- `results['RES']`, fixed_order.py L940-948, with the two keys `HP_to_heat_demand` and
`HP_to_TS` that `run_process` adds (absent means not run, here 0). -/
structure ResR where
  generationTotal : ℚ := 0
  wind : ℚ := 0
  pv : ℚ := 0
  elecDemand : ℚ := 0
  hp : ℚ := 0
  es : ℚ := 0
  exp : ℚ := 0
  aux : ℚ := 0
  hpToHeatDemand : ℚ := 0
  hpToTs : ℚ := 0

/-- `results['HP']`, fixed_order.py L950-968. -/
structure HpR where
  heatTotalOutput : ℚ := 0
  heatToHeatDemand : ℚ := 0
  heatToTs : ℚ := 0
  heatFromResToDemand : ℚ := 0
  heatFromResToTs : ℚ := 0
  heatFromImportToDemand : ℚ := 0
  heatFromImportToTs : ℚ := 0
  heatFromEsToDemand : ℚ := 0
  elecTotalUsage : ℚ := 0
  elecResUsage : ℚ := 0
  elecImportUsage : ℚ := 0
  elecFromResToDemand : ℚ := 0
  elecFromResToTs : ℚ := 0
  elecFromImportToDemand : ℚ := 0
  elecFromImportToTs : ℚ := 0
  elecFromEsToDemand : ℚ := 0
  cop : ℚ := 0
  duty : ℚ := 0

/-- `results['TS']`, fixed_order.py L970-979 (the two keys never written are left out). -/
structure TsR (N : Type) where
  chargingTotal : ℚ := 0
  dischargingTotal : ℚ := 0
  hpToTs : ℚ := 0
  hpFromResToTs : ℚ := 0
  hpFromImportToTs : ℚ := 0
  auxToTs : ℚ := 0
  finalNodesTemp : Option N := none

/-- `results['aux']`, fixed_order.py L981-987. -/
structure AuxR where
  demand : ℚ := 0
  usage : ℚ := 0
  mass : ℚ := 0
  cost : ℚ := 0
  resToDemand : ℚ := 0
  resToTs : ℚ := 0

/-- `results['ES']`, fixed_order.py L989-997 (`discharging_to_aux` is never written). -/
structure EsR where
  chargingTotal : ℚ := 0
  dischargingTotal : ℚ := 0
  dischargingToDemand : ℚ := 0
  dischargingToHp : ℚ := 0
  chargingFromRes : ℚ := 0
  chargingFromImport : ℚ := 0
  finalSoc : ℚ := 0

/-- `results['grid']`, fixed_order.py L999-1015. -/
structure GridR where
  totalImport : ℚ := 0
  totalExport : ℚ := 0
  importForElecDemand : ℚ := 0
  importForHeatPumpTotal : ℚ := 0
  importForHeatPumpToHeatDemand : ℚ := 0
  importForHeatPumpToTs : ℚ := 0
  importForEs : ℚ := 0
  importBelowSetpoint : ℚ := 0
  importPrice : ℚ := 0
  exportPrice : ℚ := 0
  importCosts : ℚ := 0
  exportIncome : ℚ := 0
  cashflow : ℚ := 0
  surplus : ℚ := 0
  deficit : ℚ := 0
  netMatch : ℚ := 0

/-- `results`, fixed_order.py L1017-1026. -/
structure Results (N : Type) where
  elecDemand : ElecDemandR := {}
  heatDemand : HeatDemandR := {}
  res : ResR := {}
  hp : HpR := {}
  ts : TsR N := {}
  aux : AuxR := {}
  es : EsR := {}
  grid : GridR := {}

/-- The value `r` a process computes: `{'h':…, 'e':…}`, or a plain number `x` which Python's
`try: r['h'] except: r` treats as both `h = x` and `e = x`. -/
structure Amt where
  h : ℚ
  e : ℚ

namespace FixedOrder
variable {N : Type}

/-- A process that returns a plain number. -/
def Amt.scalar (x : ℚ) : Amt := ⟨x, x⟩

/-- `ES_to_demand`, fixed_order.py L1028-1035. -/
def esToDemand (elecUnmet soc : ℚ) : ℚ := min elecUnmet soc

/-- `HP_RES_to_demand`, fixed_order.py L1045-1062. -/
def hpResToDemand (hp : HeatPump) (hpUsage resLeft : ℚ) (p : Perf) (heatUnmet : ℚ) : Amt :=
  let spare := p.duty - hpUsage
  let hpr := hp.thermalOutput resLeft p heatUnmet
  let h := min hpr.demand spare
  ⟨h, hp.elecUsage h p⟩

/-- `EAUX_RES_to_demand`, fixed_order.py L1064-1075. -/
def eauxResToDemand (aux : AuxI) (auxLeft resLeft heatUnmet : ℚ) : ℚ :=
  if aux.electric then min (min auxLeft resLeft) heatUnmet else 0

/-- `HP_import_to_demand`, fixed_order.py L1077-1102; `heat_pump_output` is always `None`
(no caller passes it). -/
def hpImportToDemand (hp : HeatPump) (hpUsage heatUnmet : ℚ) (p : Perf) : Amt :=
  let spare := p.duty - hpUsage
  let h := if hp.capacity = 0 then 0 else min heatUnmet spare
  ⟨h, hp.elecUsage h p⟩

/-- `TS_to_demand`, fixed_order.py L1104-1119. -/
def tsToDemand (maxE heatUnmet tsDischarge tsCharge : ℚ) : ℚ :=
  let maxDis := maxE - tsDischarge + tsCharge
  min heatUnmet maxDis

/-- `ES_to_HP_to_demand`, fixed_order.py L1121-1141. -/
def esToHpToDemand (hp : HeatPump) (soc : ℚ) (p : Perf) (heatUnmet hpUsage : ℚ) : Amt :=
  let maxHpEs := hp.thermalOutput soc p heatUnmet
  let spare := p.duty - hpUsage
  let h := min maxHpEs.demand spare
  ⟨h, hp.elecUsage h p⟩

/-- `HP_RES_to_TS`, fixed_order.py L1149-1174. -/
def hpResToTs (hp : HeatPump) (maxE resLeft : ℚ) (p : Perf) (hpUsage tsDischarge tsCharge : ℚ) :
    Amt :=
  let hpCapLeft := p.duty - hpUsage
  let hpMaxRes := resLeft * p.cop
  let hpLeft := min hpCapLeft hpMaxRes
  let tankChargeLeft := maxE + tsDischarge - tsCharge
  let h := min hpLeft tankChargeLeft
  ⟨h, hp.elecUsage h p⟩

/-- `HP_import_to_TS`, fixed_order.py L1195-1222. -/
def hpImportToTs (hp : HeatPump) (maxE : ℚ) (p : Perf) (hpUsage tsDischarge tsCharge : ℚ) : Amt :=
  let spare := p.duty - hpUsage
  let tankChargeLeft := maxE + tsDischarge - tsCharge
  let h := if hp.capacity = 0 then 0 else pyRound (min spare tankChargeLeft) 2
  ⟨h, hp.elecUsage h p⟩

/-- First half of `run_process`, fixed_order.py L731-835: the value `r` of a process, from the
current checks. 'RES to demand' has no branch and hence no value; `⟨0,0⟩` is never used.
`EAUX_RES_to_TS` is L1176-1193 (the tank is consulted only for an electric heater);
`import_to_demand` L1037, `aux_to_demand` L1143, `RES_to_ES` L1224, `import_to_ES` L1234,
`RES_to_export` L1244. -/
def amount (P : Plant N) (i : StepIn N) (c : Checks) : Process → Except PyErr Amt
  | .resToDemand => .ok ⟨0, 0⟩
  | .esToDemand => .ok (Amt.scalar (esToDemand c.elecUnmet c.soc))
  | .importToDemand => .ok (Amt.scalar c.elecUnmet)
  | .hpResToDemand => .ok (hpResToDemand P.hp c.hpUsage c.resLeft i.perf c.heatUnmet)
  | .eauxResToDemand => .ok (Amt.scalar (eauxResToDemand P.aux c.auxLeft c.resLeft c.heatUnmet))
  | .hpImportToDemand => .ok (hpImportToDemand P.hp c.hpUsage c.heatUnmet i.perf)
  | .tsToDemand => do
      let m ← P.tank.maxInOut i.hour .discharging i.nodes
      return Amt.scalar (tsToDemand m c.heatUnmet c.tsDischarge c.tsCharge)
  | .esToHpToDemand => .ok (esToHpToDemand P.hp c.soc i.perf c.heatUnmet c.hpUsage)
  | .auxToDemand => .ok (Amt.scalar c.heatUnmet)
  | .hpResToTs => do
      let m ← P.tank.maxInOut i.hour .charging i.nodes
      return hpResToTs P.hp m c.resLeft i.perf c.hpUsage c.tsDischarge c.tsCharge
  | .eauxResToTs =>
      if P.aux.electric then do
        let m ← P.tank.maxInOut i.hour .charging i.nodes
        return Amt.scalar (min (min c.auxLeft c.resLeft) (m + c.tsDischarge - c.tsCharge))
      else .ok (Amt.scalar 0)
  | .hpImportToTs => do
      let m ← P.tank.maxInOut i.hour .charging i.nodes
      return hpImportToTs P.hp m i.perf c.hpUsage c.tsDischarge c.tsCharge
  | .resToEs => .ok (Amt.scalar (P.es.maxCharging c.resLeft c.soc))
  | .importToEs => .ok (Amt.scalar (P.es.chargeToCapacity c.soc))
  | .resToExport => .ok (Amt.scalar c.resLeft)

/-- The assignments to `results` in `run_process`, fixed_order.py L740-835. -/
def record (p : Process) (a : Amt) (r : Results N) : Results N :=
  match p with
  | .resToDemand => r
  | .esToDemand => { r with
      elecDemand := { r.elecDemand with es := a.e }
      es := { r.es with dischargingToDemand := a.e } }
  | .importToDemand => { r with
      elecDemand := { r.elecDemand with imp := a.e }
      grid := { r.grid with importForElecDemand := a.e } }
  | .hpResToDemand => { r with
      heatDemand := { r.heatDemand with hpRes := a.h }
      res := { r.res with hpToHeatDemand := a.e }
      hp := { r.hp with heatFromResToDemand := a.h, elecFromResToDemand := a.e } }
  | .eauxResToDemand => { r with aux := { r.aux with resToDemand := a.h } }
  | .hpImportToDemand => { r with
      heatDemand := { r.heatDemand with hpImport := a.h }
      grid := { r.grid with importForHeatPumpToHeatDemand := a.e }
      hp := { r.hp with heatFromImportToDemand := a.h, elecFromImportToDemand := a.e } }
  | .tsToDemand => { r with
      heatDemand := { r.heatDemand with ts := a.h }
      ts := { r.ts with dischargingTotal := a.h } }
  | .esToHpToDemand => { r with
      heatDemand := { r.heatDemand with hpEs := a.h }
      es := { r.es with dischargingToHp := a.e }
      hp := { r.hp with heatFromEsToDemand := a.h, elecFromEsToDemand := a.e } }
  | .auxToDemand => { r with heatDemand := { r.heatDemand with aux := a.h } }
  | .hpResToTs => { r with
      res := { r.res with hpToTs := a.e }
      hp := { r.hp with heatFromResToTs := a.h, elecFromResToTs := a.e }
      ts := { r.ts with hpFromResToTs := a.h } }
  | .eauxResToTs => { r with
      aux := { r.aux with resToTs := a.h }
      ts := { r.ts with auxToTs := a.h } }
  | .hpImportToTs => { r with
      grid := { r.grid with importForHeatPumpToTs := a.e }
      hp := { r.hp with heatFromImportToTs := a.h, elecFromImportToTs := a.e }
      ts := { r.ts with hpFromImportToTs := a.h } }
  | .resToEs => { r with
      res := { r.res with es := a.e }
      es := { r.es with chargingFromRes := a.e } }
  | .importToEs => { r with
      grid := { r.grid with importForEs := a.e }
      es := { r.es with chargingFromImport := a.e } }
  | .resToExport => { r with
      res := { r.res with exp := a.e }
      grid := { r.grid with totalExport := a.e } }

/-- The updates of `checks` in `run_process`, fixed_order.py L837-885. -/
def update (p : Process) (a : Amt) (c : Checks) : Checks :=
  match p with
  | .resToDemand => c
  | .esToDemand => { c with elecUnmet := c.elecUnmet - a.e, soc := c.soc + -a.e }
  | .importToDemand => { c with elecUnmet := c.elecUnmet - a.e }
  | .hpResToDemand => { c with
      heatUnmet := c.heatUnmet - a.h, resLeft := c.resLeft - a.e, hpUsage := c.hpUsage + a.h }
  | .eauxResToDemand => { c with
      heatUnmet := c.heatUnmet - a.h, resLeft := c.resLeft - a.e, auxLeft := c.auxLeft - a.e }
  | .hpImportToDemand => { c with
      heatUnmet := c.heatUnmet - a.h, hpUsage := c.hpUsage + a.h }
  | .tsToDemand => { c with
      heatUnmet := c.heatUnmet - a.h, tsDischarge := c.tsDischarge + a.h }
  | .esToHpToDemand => { c with heatUnmet := c.heatUnmet - a.h, soc := c.soc + -a.e }
  | .auxToDemand => { c with heatUnmet := c.heatUnmet - a.h, auxLeft := c.auxLeft - a.h }
  | .hpResToTs => { c with
      resLeft := c.resLeft - a.e, hpUsage := c.hpUsage + a.h, tsCharge := c.tsCharge + a.h }
  | .eauxResToTs => { c with
      resLeft := c.resLeft - a.e, tsCharge := c.tsCharge + a.h, auxLeft := c.auxLeft - a.e }
  | .hpImportToTs => { c with hpUsage := c.hpUsage + a.h, tsCharge := c.tsCharge + a.h }
  | .resToEs => { c with resLeft := c.resLeft - a.e, soc := c.soc + a.e }
  | .importToEs => { c with soc := c.soc + a.e }
  | .resToExport => { c with resLeft := c.resLeft - a.e }

/-- `run_process`, fixed_order.py L726-887. -/
def runProcess (P : Plant N) (i : StepIn N) (p : Process) (s : Checks × Results N) :
    Except PyErr (Checks × Results N) := do
  let a ← amount P i s.1 p
  return (update p a s.1, record p a s.2)

/-- The loop over the order, fixed_order.py L192-199 and L465-472. `key` turns a number into a
process or raises `KeyError`. -/
def runOrder (P : Plant N) (i : StepIn N) (key : ℤ → Except PyErr Process) :
    List ℤ → Checks × Results N → Except PyErr (Checks × Results N)
  | [], s => .ok s
  | n :: ns, s => do
      let p ← key n
      let s' ← runProcess P i p s
      runOrder P i key ns s'

/-- Initial checks, fixed_order.py L182-190 and L455-463. -/
def initChecks (P : Plant N) (i : StepIn N) : Checks :=
  { elecUnmet := i.deficit, heatUnmet := i.heatDemand, resLeft := i.surplus, hpUsage := 0,
    tsDischarge := 0, tsCharge := 0, soc := i.soc, auxLeft := P.peakHeatDemand }

/-- Initial results, fixed_order.py L170-177 (`above`) and L442-450 (`below`, which also sets
`export_price`). -/
def initResults (P : Plant N) (i : StepIn N) (below : Bool) : Results N :=
  { hp := { cop := i.perf.cop, duty := i.perf.duty }
    grid := { surplus := i.surplus, deficit := i.deficit, netMatch := i.surplus - i.deficit,
              importPrice := i.importPrice,
              exportPrice := if below then P.exportPrice else 0 } }

/-- Sign of the net storage charge, fixed_order.py L268-273, L422-427, L539-544, L710-715. -/
def stateOf (tsMatch : ℚ) : TankState :=
  if tsMatch > 0 then .charging else if tsMatch < 0 then .discharging else .standby

/-- Net storage charge used to pick the state: exact above the setpoint (L267), rounded to one
decimal below it (L538). -/
def tsMatchOf (below : Bool) (c : Checks) : ℚ :=
  if below then pyRound (c.tsCharge - c.tsDischarge) 1 else c.tsCharge - c.tsDischarge

/-- Totals of heat pump, storage and auxiliary, fixed_order.py L204-259 (above) and L475-531
(below). The only difference between the two is that `above` adds `aux.RES_to_demand` into
`heat_demand.aux` after computing `aux.demand` (L243-245). -/
def totals1 (P : Plant N) (below : Bool) (r : Results N) : Results N :=
  let heatToHeatDemand :=
    r.hp.heatFromResToDemand + r.hp.heatFromImportToDemand + r.hp.heatFromEsToDemand
  let heatToTs := r.hp.heatFromResToTs + r.hp.heatFromImportToTs
  let elecResUsage := r.hp.elecFromResToDemand + r.hp.elecFromResToTs
  let elecImportUsage := r.hp.elecFromImportToDemand + r.hp.elecFromImportToTs
  let hpToTs := r.ts.hpFromResToTs + r.ts.hpFromImportToTs
  let auxDemand := r.aux.resToDemand + r.aux.resToTs + r.heatDemand.aux
  let usage := P.aux.fuelUsage auxDemand
  let auxPrice := if P.aux.electric then r.grid.importPrice else P.aux.cost
  let density := if P.aux.electric then 0 else P.aux.energyDensity
  { r with
    heatDemand := { r.heatDemand with
      hp := r.heatDemand.hpRes + r.heatDemand.hpImport + r.heatDemand.hpEs
      aux := if below then r.heatDemand.aux else r.heatDemand.aux + r.aux.resToDemand }
    hp := { r.hp with
      heatToHeatDemand := heatToHeatDemand
      heatToTs := heatToTs
      heatTotalOutput := heatToHeatDemand + heatToTs
      elecResUsage := elecResUsage
      elecImportUsage := elecImportUsage
      elecTotalUsage := elecResUsage + elecImportUsage }
    ts := { r.ts with hpToTs := hpToTs, chargingTotal := hpToTs + r.ts.auxToTs }
    aux := { r.aux with
      demand := auxDemand
      usage := usage
      cost := auxPrice * (auxDemand - r.aux.resToDemand - r.aux.resToTs)
      mass := density * usage } }

/-- New node temperatures, fixed_order.py L261-284 (above), L533-555 (below). -/
def tankUpdate (P : Plant N) (i : StepIn N) (below : Bool) (c : Checks) (r : Results N) :
    Except PyErr N :=
  if P.tank.capacity = 0 then .ok i.nodes
  else P.tank.newNodes i.hour (stateOf (tsMatchOf below c)) i.nodes
    (r.hp.heatTotalOutput + r.aux.demand) i.heatDemand

/-- Battery and grid totals, fixed_order.py L286-329 (above), L557-604 (below, which also sets
`import_below_setpoint`). -/
def totals2 (P : Plant N) (i : StepIn N) (below : Bool) (nodes : N) (r : Results N) : Results N :=
  let charging := r.es.chargingFromRes + r.es.chargingFromImport
  let discharging := r.es.dischargingToDemand + r.es.dischargingToHp
  let finalSoc := P.es.newSoc (charging - discharging) i.soc
  let impHp := r.grid.importForHeatPumpToHeatDemand + r.grid.importForHeatPumpToTs
  let totalImport :=
    if P.aux.electric then
      r.grid.importForElecDemand + impHp + r.grid.importForEs + r.aux.demand
        - r.aux.resToDemand - r.aux.resToTs
    else r.grid.importForElecDemand + impHp + r.grid.importForEs
  let importCosts := totalImport * r.grid.importPrice / 1000
  let exportIncome := r.grid.totalExport * P.exportPrice / 1000
  { r with
    ts := { r.ts with finalNodesTemp := some nodes }
    es := { r.es with
      chargingTotal := charging, dischargingTotal := discharging, finalSoc := finalSoc }
    grid := { r.grid with
      importForHeatPumpTotal := impHp
      totalImport := totalImport
      importCosts := importCosts
      exportIncome := exportIncome
      cashflow := exportIncome - importCosts
      importBelowSetpoint := if below then totalImport else r.grid.importBelowSetpoint } }

/-- `min_out`, fixed_order.py L336-338, L611-613. -/
def minOut (P : Plant N) (i : StepIn N) : ℚ :=
  P.hp.minimumOutput * P.hp.minimumRuntime / 60 / 100 * i.perf.duty

/-- The assignments that zero the heat pump, fixed_order.py L355-382, L632-659. -/
def zeroHp (r : Results N) : Results N :=
  { r with
    hp := { cop := r.hp.cop, duty := r.hp.duty }
    heatDemand := { r.heatDemand with hp := 0, hpRes := 0, hpImport := 0, hpEs := 0 }
    res := { r.res with hpToHeatDemand := 0, hpToTs := 0 }
    ts := { r.ts with hpToTs := 0, hpFromResToTs := 0, hpFromImportToTs := 0 } }

/-- Switching the heat pump off, above the setpoint: fixed_order.py L354-400. -/
def hpOffAbove (P : Plant N) (i : StepIn N) (r : Results N) : Except PyErr (Results N) := do
  let r := zeroHp r
  let nodes ← if P.tank.capacity = 0 then .ok r.ts.finalNodesTemp
    else (P.tank.newNodes i.hour .discharging i.nodes 0 i.heatDemand).map some
  return { r with
    ts := { r.ts with finalNodesTemp := nodes }
    aux := { r.aux with demand := i.heatDemand - r.ts.dischargingTotal } }

/-- Switching the heat pump off, below the setpoint: fixed_order.py L631-688. The local
`heat_demand` is overwritten on L677 when the tank has capacity. -/
def hpOffBelow (P : Plant N) (i : StepIn N) (r : Results N) : Except PyErr (Results N) := do
  let r := zeroHp r
  let m ← P.tank.maxInOut i.hour .discharging i.nodes
  let dis := min m i.heatDemand
  let r := { r with ts := { r.ts with chargingTotal := 0, dischargingTotal := dis } }
  if P.tank.capacity = 0 then
    return { r with aux := { r.aux with demand := i.heatDemand - dis } }
  else do
    let heatDemand := dis
    let nodes ← P.tank.newNodes i.hour .discharging i.nodes 0 heatDemand
    return { r with
      ts := { r.ts with finalNodesTemp := some nodes }
      aux := { r.aux with demand := heatDemand - dis } }

/-- Raising the heat pump to minimum output: fixed_order.py L402-434, L690-722. -/
def hpRaise (P : Plant N) (i : StepIn N) (below : Bool) (c : Checks) (inc : ℚ) (r : Results N) :
    Except PyErr (Results N) := do
  let r := { r with
    hp := { r.hp with
      heatFromImportToTs := r.hp.heatFromImportToTs + inc
      heatToTs := r.hp.heatToTs + inc
      heatTotalOutput := r.hp.heatTotalOutput + inc
      elecTotalUsage := r.hp.elecTotalUsage + inc / r.hp.cop
      elecImportUsage := r.hp.elecImportUsage + inc / r.hp.cop
      elecFromImportToTs := r.hp.elecFromImportToTs + inc / r.hp.cop }
    ts := { r.ts with
      hpToTs := r.ts.hpToTs + inc
      hpFromImportToTs := r.ts.hpFromImportToTs + inc } }
  if P.tank.capacity = 0 then return r
  else do
    let nodes ← P.tank.newNodes i.hour (stateOf (tsMatchOf below c + inc)) i.nodes
      r.hp.heatTotalOutput i.heatDemand
    return { r with ts := { r.ts with finalNodesTemp := some nodes } }

/-- Smallest usage that triggers the minimum output rule: more than 0.1 above the setpoint
(L342), more than 0 below it (L617). -/
def minTrigger (below : Bool) : ℚ := if below then 0 else 1 / 10

/-- The minimum output rule, fixed_order.py L331-434, L606-722. -/
def minOutputRule (P : Plant N) (i : StepIn N) (below : Bool) (c : Checks) (r : Results N) :
    Except PyErr (Results N) :=
  let mo := minOut P i
  let hpUsage := r.hp.heatTotalOutput
  if hpUsage < mo ∧ hpUsage > minTrigger below then do
    let inc := mo - hpUsage
    let m ← P.tank.maxInOut i.hour .charging i.nodes
    let tankChargeLeft := m + c.tsDischarge - c.tsCharge
    if inc > tankChargeLeft then
      (if below then hpOffBelow P i r else hpOffAbove P i r)
    else hpRaise P i below c inc r
  else .ok r

/-- Everything up to the minimum output rule. -/
def dispatch (P : Plant N) (i : StepIn N) (below : Bool) (order : List ℤ) :
    Except PyErr (Checks × Results N) := do
  let s ← runOrder P i (if below then keyBelow else keyAbove) order
    (initChecks P i, initResults P i below)
  let r := totals1 P below s.2
  let nodes ← tankUpdate P i below s.1 r
  return (s.1, totals2 P i below nodes r)

/-- `above_setpoint` (fixed_order.py L166-436) for `below = false`, `below_setpoint`
(L438-724) for `below = true`. -/
def step (P : Plant N) (i : StepIn N) (below : Bool) (order : List ℤ) :
    Except PyErr (Results N) := do
  let s ← dispatch P i below order
  minOutputRule P i below s.1 s.2

end FixedOrder
end Verif
