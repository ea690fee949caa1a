import Verif.Model.Inputs
import Verif.Model.Para
import Verif.Model.Run
import Verif.Model.HeatPumpConfig
import Verif.Model.Tank
import Verif.Model.Grid
import Verif.Model.Renewables

/-!
# From a workbook to the results of a combination

`Para.create_pickles` on the container, `/repo/pylesa/initialise_classes.py`, the constructors of
`/repo/pylesa/power/renewables.py`, and the fixed order controller started from them
(`/repo/pylesa/controllers/fixed_order.py` L27-57, `/repo/pylesa/main.py` L93-101).

A number is only asked of a cell where the code computes with it (`numOf`); cells with text or nothing
there are outside the model and give the error `other`.
-/

set_option autoImplicit false

namespace Verif
namespace Simulation
open Pandas DataFrame Workbook InputReader Enums Tariff

/-- The libraries and the calculations with irrational numbers. -/
structure Libs where
  /-- Lorentz and regression, `HpConfig.Kernels`. -/
  kernels : HpConfig.Kernels
  /-- Whether pvlib's CEC or Sandia tables know the module. -/
  knownModule : String → Bool
  /-- pvlib's AC power for module, inverter, tilt, azimuth, latitude, longitude and the weather series
  it reads: `dhi`, `ghi`, `dni` (a frame without one of them raises `ValueError`), and `temp_air`,
  `wind_speed` if given (else pvlib takes 20 degrees and no wind). -/
  pvAc : String → String → Value → Value → Value → Value → List Value → List Value → List Value →
    Option (List Value) → Option (List Value) → Except PyErr (List (Option ℚ))
  /-- windpowerlib's power for a turbine given by its curve: nominal power, hub height, rotor, curve. -/
  userTurbine : Value → Value → Value → List (Value × Value) → Columns → Except PyErr (List ℚ)
  /-- windpowerlib's power for a turbine of its tables: name, hub height, rotor. -/
  dataTurbine : Value → Value → Value → Columns → Except PyErr (List ℚ)
  /-- windpowerlib's power for a farm: name, hub height, rotor, number, efficiency. -/
  windFarm : Value → Value → Value → Value → Value → Columns → Except PyErr (List ℚ)
  /-- The two loss factors of the tank (`TankGeometry.wall` of overall factor, insulation factor and
  capacity; `TankGeometry.connectionLosses`). -/
  wall : ℚ → ℚ → ℚ → ℚ
  connection : ℚ → ℚ → ℚ → ℚ → ℚ → ℚ → ℚ

/-! ## The pickle of a combination -/

/-- An entry of the column `duty` times the ratio; text raises `TypeError`. -/
def scaled (r : ℚ) : Value → Value
  | some (.num x) => some (.num (x * r))
  | v => v

/-- `reg['duty'] = reg['duty'] * ratio`, parametric_analysis.py L93. -/
def scaleDuty (f : DataFrame) (r : ℚ) : Except PyErr DataFrame := do
  let xs ← f.column (.named "duty")
  if xs.all (fun v => match v with | some (.text _) => false | _ => true) then
    f.mapColumn (.named "duty") (scaled r)
  else .error .typeError

/-- The container pickled for a combination, parametric_analysis.py L77-123. -/
def resizeContainer (size : ℤ × ℤ) (c : Container) : Except PyErr Container := do
  let h := c.heatPump
  let capacity ← zero h.basics "capacity"
  let capacity ← numOf capacity
  let basics ← h.basics.setCell (.pos 0) (.named "capacity") (some (.num size.1))
  let r := Para.ratio size.1 capacity
  let reg1 ← scaleDuty h.reg1 r
  let reg2 ← scaleDuty h.reg2 r
  let reg3 ← scaleDuty h.reg3 r
  let reg4 ← scaleDuty h.reg4 r
  let ts ← c.thermalStorage.setCell (.pos 0) (.named "capacity") (some (.num size.2))
  return { c with heatPump := { h with basics, reg1, reg2, reg3, reg4 }, thermalStorage := ts }

/-! ## Objects -/

/-- A cell used where a whole number is needed. -/
def natOf (v : Value) : Except PyErr ℕ := do
  let x ← numOf v
  if x.den = 1 ∧ 0 ≤ x then .ok x.num.toNat else .error .other

/-- As `natOf`, with a sign. -/
def intOf (v : Value) : Except PyErr ℤ := do
  let x ← numOf v
  if x.den = 1 then .ok x.num else .error .other

/-- A `Windturbine`, renewables.py L278-307. -/
structure Turbine where
  name : Value
  hub : Value
  rotor : Value
  multiplier : Value
  nominal : Value
  curve : List (Value × Value)
  weather : Columns

/-- A `PV` object, renewables.py L125-188. -/
structure PvObj where
  moduleName : String
  inverter : String
  multiplier : Value
  tilt : Value
  azimuth : Value
  surface : Value
  name : Value
  latitude : Value
  longitude : Value
  altitude : Value
  weather : Columns

/-- The characters replaced by an underscore in a module name, renewables.py L147-153. -/
def pvName (s : String) : String :=
  String.ofList (s.toList.map (fun c =>
    if c ∈ [' ', '-', '.', '(', ')', '[', ']', ':', '+', '/', '"', ','] then '_' else c))

/-- The inverter every system has, renewables.py L174. -/
def fixedInverter : String := "iPower__SHO_4_8__240V_"

/-- `PV.__init__`, renewables.py L145-188: the name of the inverter is replaced by a fixed one. -/
def makePv (L : Libs) (d : Dict) (w : Columns) : Except PyErr PvObj := do
  let moduleName ← textOf (← Dict.get d "module_name")
  let _ ← textOf (← Dict.get d "inverter_name")
  let multiplier ← Dict.get d "multiplier"
  let tilt ← Dict.get d "surface_tilt"
  let azimuth ← Dict.get d "surface_azimuth"
  let surface ← Dict.get d "surface_type"
  let name ← Dict.get d "loc_name"
  let latitude ← Dict.get d "latitude"
  let longitude ← Dict.get d "longitude"
  let altitude ← Dict.get d "altitude"
  let key := pvName moduleName
  if L.knownModule key then
    return { moduleName := key, inverter := fixedInverter, multiplier, tilt, azimuth, surface, name,
             latitude, longitude, altitude, weather := w }
  else .error .keyError

/-- `PV.power_output`, renewables.py L210-273. `Renewables.pvPower` is what it does with the power. -/
def pvSeries (L : Libs) (p : PvObj) : Except PyErr (List ℚ) := do
  let m ← numOf p.multiplier
  if m = 0 then Renewables.pvPower m []
  else do
    let w ← pvWeather p.weather
    match w.lookup "dhi", w.lookup "ghi", w.lookup "dni" with
    | some dhi, some ghi, some dni => do
      let ac ← L.pvAc p.moduleName p.inverter p.tilt p.azimuth p.latitude p.longitude dhi ghi dni
        (w.lookup "temp_air") (w.lookup "wind_speed")
      Renewables.pvPower m ac
    | _, _, _ => .error .valueError

/-- `Windturbine.user_power()['wind_user']`, renewables.py L326-369. -/
def userSeries (L : Libs) (t : Turbine) : Except PyErr (List ℚ) := do
  let m ← numOf t.multiplier
  if m = 0 then (Renewables.userPower m []).get "wind_user"
  else do
    let w ← windWeather t.weather
    let p ← L.userTurbine t.nominal t.hub t.rotor t.curve w
    (Renewables.userPower m p).get "wind_user"

/-- `Windturbine.database_power()['wind_database']`, renewables.py L371-431. -/
def databaseSeries (L : Libs) (t : Turbine) : Except PyErr (List ℚ) := do
  let m ← numOf t.multiplier
  if m = 0 then (Renewables.databasePower m []).get "wind_database"
  else do
    let w ← windWeather t.weather
    let p ← L.dataTurbine t.name t.hub t.rotor w
    (Renewables.databasePower m p).get "wind_database"

/-- The power of the wind farm, grid.py L67-81 and renewables.py L433-481. -/
def farmSeries (L : Libs) (c : Container) : Except PyErr (List ℚ) := do
  let d := c.windFarm
  let w ← windFarmWeather c
  let name ← Dict.get d "turbine_name"
  let hub ← Dict.get d "hub_height"
  let rotor ← Dict.get d "rotor_diameter"
  let number ← Dict.get d "number_of_turbines"
  let efficiency ← Dict.get d "efficiency"
  let m ← numOf number
  if m = 0 then (Renewables.windFarmPower m []).get "wind_farm"
  else do
    let w ← windWeather w
    let p ← L.windFarm name hub rotor number efficiency w
    (Renewables.windFarmPower m p).get "wind_farm"

/-- `str(x).lower().strip()`, hot_water_tank.py L52-53; the text of a number matches no name. -/
def lowered : Value → String
  | some (.text s) => String.ofList (InputText.strip (s.toList.map Char.toLower))
  | _ => ""

/-- `self.location`, hot_water_tank.py L53 and L156-173. -/
def locationOf (v : Value) : TankLocation :=
  if lowered v = "inside" then .inside
  else if lowered v = "outside" then .outside
  else .invalid

/-- `HotWaterTank.__init__`, hot_water_tank.py L27-81. The dimensions given are overwritten (L62-66). -/
def makeTank (L : Libs) (t : TankInputs) (air : List ℚ) : Except PyErr Tank := do
  let capacity ← numOf (← Dict.get t.main "capacity")
  let insulation ← Dict.get t.main "insulation"
  let location ← Dict.get t.main "location"
  let number ← natOf (← Dict.get t.main "number_nodes")
  let o ← numOf (← Dict.get t.openings "tank_opening")
  let od ← numOf (← Dict.get t.openings "tank_opening_diameter")
  let u ← numOf (← Dict.get t.openings "uninsulated_connections")
  let ud ← numOf (← Dict.get t.openings "uninsulated_connections_diameter")
  let i ← numOf (← Dict.get t.openings "insulated_connections")
  let id ← numOf (← Dict.get t.openings "insulated_connections_diameter")
  let fi ← numOf (← Dict.get t.factors "insulation_factor")
  let fe ← numOf (← Dict.get t.factors "overall_factor")
  return { capacity, number, insulation := lowered insulation, location := locationOf location, air,
           wall := L.wall fe fi capacity, connection := L.connection o od u ud i id }

/-- The points of the test data: column 0 and 1 of the temperatures (standard_regression.py L85-93), and
the one column of each of the others. -/
def pointOf (x cosp duty : Table) (rows : (Key → Value)) : Except PyErr Standard.Point := do
  match x.columns, cosp.columns, duty.columns with
  | a :: f :: _, c :: _, d :: _ => do
    let ambient ← numOf (rows a)
    let flow ← numOf (rows f)
    let cop ← numOf (rows c)
    let dty ← numOf (rows d)
    return ⟨ambient, flow, cop, dty⟩
  | _, _, _ => .error .indexError

/-- The test data as given to the heat pump. -/
def testData (x cosp duty : Table) : Except PyErr TestData := do
  let points ← x.rows.mapM (pointOf x cosp duty)
  return { xShape := [x.rows.length, x.columns.length], copShape := [cosp.rows.length, cosp.columns.length],
           dutyShape := [duty.rows.length, duty.columns.length], points }

/-- A numeric series. -/
def numbers (vs : List Value) : Except PyErr (List ℚ) := vs.mapM numOf

/-- The arguments of `HeatPump`, initialise_classes.py L80-121: only the inputs of the chosen model are
read, and the generic model has no case. -/
def hpArgs (c : Container) (w : Columns) (basics : HpBasics) : Except PyErr HpArgs := do
  let (static, series) ← InputReader.demands c
  let capacity ← numOf basics.capacity
  let ambientDeltaT ← numOf basics.ambientDeltaT
  let source ← numbers (← series.get "source_temp")
  let ret ← numOf (← Dict.get static "return_temp_DH")
  let air ← numbers (← w.get "air_temperature")
  let water ← numbers (← w.get "water_temperature")
  let base : HpArgs :=
    { hpType := .member basics.hpType, approach := .member basics.approach, capacity, ambientDeltaT,
      dataInput := .member basics.dataInput, flow := .series source, ret := .scalar ret,
      ambient := air.zip water, simpleCop := none, lorentz := none, standard := none }
  match basics.approach with
  | .simple => do
    let cop ← numOf c.heatPump.simple
    return { base with simpleCop := some cop }
  | .lorentz => do
    let d ← heatpumpLorentz c
    let cop ← numOf (← Dict.get d "cop")
    let flow ← numOf (← Dict.get d "flow_temp_spec")
    let ret ← numOf (← Dict.get d "return_temp_spec")
    let ambIn ← numOf (← Dict.get d "temp_ambient_in_spec")
    let ambOut ← numOf (← Dict.get d "temp_ambient_out_spec")
    let elec ← numOf (← Dict.get d "elec_capacity")
    return { base with lorentz := some ⟨cop, flow, ret, ambIn, ambOut, elec⟩ }
  | .standard => do
    let (x, cosp, duty) ← heatpumpStandard c
    let data ← testData x cosp duty
    return { base with standard := some data }
  | .generic => .error .keyError

/-- `ElectricalStorage.__init__`, initialise_classes.py L123-131. -/
def makeBattery (c : Container) : Except PyErr Battery := do
  let d ← InputReader.electricalStorage c
  let capacity ← numOf (← Dict.get d "capacity")
  let initialState ← numOf (← Dict.get d "initial_state")
  let chargeMax ← numOf (← Dict.get d "charge_max")
  let dischargeMax ← numOf (← Dict.get d "discharge_max")
  let chargeEff ← numOf (← Dict.get d "charge_eff")
  let dischargeEff ← numOf (← Dict.get d "discharge_eff")
  let selfDischarge ← numOf (← Dict.get d "self_discharge")
  return { capacity, initialState, chargeMax, dischargeMax, chargeEff, dischargeEff, selfDischarge }

/-- `Aux.__init__` from the container, initialise_classes.py L133-138, auxiliary.py L35-52. -/
def makeAux (c : Container) : Except PyErr AuxI := do
  let efficiency ← numOf c.auxEfficiency
  if c.auxFuel = .electric then return ⟨true, efficiency, 0, 0⟩
  else match fuelDict c.fuelInfo c.auxFuel with
    | none => .error .keyError
    | some d => do
      let cost ← numOf (← Dict.get d "cost")
      let density ← numOf (← Dict.get d "energy_density")
      return ⟨false, efficiency, cost, density⟩

/-- The name of the column of a weekday. -/
def dayColumn : Weekday → String
  | .monday => "Monday"
  | .tuesday => "Tuesday"
  | .wednesday => "Wednesday"
  | .thursday => "Thursday"
  | .friday => "Friday"
  | .saturday => "Saturday"
  | .sunday => "Sunday"

/-- The table of prices by weekday. -/
def periodsOf (f : DataFrame) : Except PyErr (Weekday → List ℚ) := do
  let day (d : Weekday) : Except PyErr (List ℚ) := do numbers (← f.column (.named (dayColumn d)))
  let mo ← day .monday
  let tu ← day .tuesday
  let we ← day .wednesday
  let th ← day .thursday
  let fr ← day .friday
  let sa ← day .saturday
  let su ← day .sunday
  return fun
    | .monday => mo
    | .tuesday => tu
    | .wednesday => we
    | .thursday => th
    | .friday => fr
    | .saturday => sa
    | .sunday => su

/-- The flat rate, the table, the market prices and the wind farm terms, each read where a tariff passes
it on. -/
def flatRate (g : GridPart) : Except PyErr ℚ := do numOf (← Dict.get g.flatRates "import")
def market (g : GridPart) : Except PyErr (List ℚ × ℚ × ℚ) := do
  let prices ← numbers (← g.wholesaleMarket.column (.named "wholesale_market"))
  let premium ← numOf (← Dict.get g.wmInfo "premium")
  let maximum ← numOf (← Dict.get g.wmInfo "maximum")
  return (prices, premium, maximum)
def ppaTerms (g : GridPart) : Except PyErr (ℚ × ℚ × ℚ × ℚ) := do
  let lp ← numOf (← Dict.get g.ppaInfo "lower_percent")
  let hp ← numOf (← Dict.get g.ppaInfo "higher_percent")
  let pen ← numOf (← Dict.get g.ppaInfo "lower_penalty")
  let dis ← numOf (← Dict.get g.ppaInfo "higher_discount")
  return (lp, hp, pen, dis)

/-- The grid of `init`, initialise_classes.py L140-212; a tariff that is none of the six leaves `myGrid`
unset and L221 fails. -/
def makeGrid (g : GridPart) : Except PyErr Grid :=
  match g.tariffChoice with
  | some (.text "Flat rates") => do
    let rate ← flatRate g
    return { tariff := "Flat rates", flatRate := some rate }
  | some (.text "Variable periods") => do
    let periods ← periodsOf g.variablePeriods
    let year ← intOf g.variablePeriodsYear
    return { tariff := "Variable periods", periods := some periods, year := some year }
  | some (.text "Time of use - WM") => do
    let (prices, premium, maximum) ← market g
    return { tariff := "Time of use - WM", wholesale := some prices, premium := some premium,
             maximum := some maximum }
  | some (.text "Time of use - PPA + FR") => do
    let rate ← flatRate g
    let (lp, hp, pen, dis) ← ppaTerms g
    return { tariff := "Time of use - PPA + FR", flatRate := some rate, lowerPercent := some lp,
             higherPercent := some hp, lowerPenalty := some pen, higherDiscount := some dis }
  | some (.text "Time of use - PPA + WM") => do
    let (prices, premium, maximum) ← market g
    let (lp, hp, pen, dis) ← ppaTerms g
    return { tariff := "Time of use - PPA + WM", wholesale := some prices, premium := some premium,
             maximum := some maximum, lowerPercent := some lp, higherPercent := some hp,
             lowerPenalty := some pen, higherDiscount := some dis }
  | some (.text "Time of use - PPA + VP") => do
    let periods ← periodsOf g.variablePeriods
    let year ← intOf g.variablePeriodsYear
    let (lp, hp, pen, dis) ← ppaTerms g
    return { tariff := "Time of use - PPA + VP", periods := some periods, year := some year,
             lowerPercent := some lp, higherPercent := some hp, lowerPenalty := some pen,
             higherDiscount := some dis }
  | _ => .error .unboundLocalError

/-- What `init` returns, initialise_classes.py L214-223; `minimumRuntime` and `minimumOutput` are
attributes of the heat pump. -/
structure Objects where
  windUser : Turbine
  windDatabase : Turbine
  pv : PvObj
  tank : Tank
  heatPump : HpObj
  minimumRuntime : ℚ
  minimumOutput : ℚ
  battery : Battery
  aux : AuxI
  grid : Grid

/-- `initialise_classes.init`, L20-223. -/
def init (L : Libs) (c : Container) : Except PyErr Objects := do
  let (u, curve) ← windturbineUser c
  let w ← InputReader.weather c
  let windUser : Turbine :=
    { name := ← Dict.get u "turbine_name", hub := ← Dict.get u "hub_height",
      rotor := ← Dict.get u "rotor_diameter", multiplier := ← Dict.get u "multiplier",
      nominal := ← Dict.get u "nominal_power", curve, weather := w }
  let d ← windturbineDatabase c
  let windDatabase : Turbine :=
    { name := ← Dict.get d "turbine_name", hub := ← Dict.get d "hub_height",
      rotor := ← Dict.get d "rotor_diameter", multiplier := ← Dict.get d "multiplier",
      nominal := none, curve := [], weather := w }
  let pv ← makePv L (← pvModel c) w
  let air ← numbers (← w.get "air_temperature")
  let tank ← makeTank L (← hotWaterTank c) air
  let basics ← heatpumpBasics c
  let args ← hpArgs c w basics
  let heatPump ← HpConfig.construct args
  let minimumRuntime ← numOf basics.minimumRuntime
  let minimumOutput ← numOf basics.minimumOutput
  let battery ← makeBattery c
  let aux ← makeAux c
  let grid ← makeGrid c.grid
  return { windUser, windDatabase, pv, tank, heatPump, minimumRuntime, minimumOutput, battery, aux, grid }

/-- Whether the tariff asks for the power of the wind farm, grid.py L48-65 and L110-170. -/
def usesFarm (g : Grid) : Bool :=
  g.tariff = "Time of use - PPA + WM" ∨ g.tariff = "Time of use - PPA + FR" ∨
    g.tariff = "Time of use - PPA + VP"

/-- `import_cost_series` of the constructed grid. -/
def importPrices (L : Libs) (c : Container) (g : Grid) : Except PyErr (List ℚ) := do
  let power ← if usesFarm g then farmSeries L c else .ok []
  match ← importCostSeries g power with
  | some prices => .ok prices
  | none => .error .typeError

/-- What the fixed order controller starts from, fixed_order.py L27-57 and L70-92. -/
def fixedOrderIn (L : Libs) (c : Container) : Except PyErr (RunIn (List ℚ)) := do
  let o ← init L c
  let (static, series) ← InputReader.demands c
  let source ← numbers (← series.get "source_temp")
  let flow ← numbers (← series.get "flow_temp_DH")
  let elec ← numbers (← series.get "elec_demand")
  let heat ← numbers (← series.get "heat_demand")
  let ret ← numOf (← Dict.get static "return_temp_DH")
  let delta ← numOf (← Dict.get static "source_delta_t")
  let importPrice ← importPrices L c o.grid
  let exportPrice ← numOf c.grid.exportPrice
  let setpoint ← numOf c.controller.importSetpoint
  let windUser ← userSeries L o.windUser
  let windData ← databaseSeries L o.windDatabase
  let pv ← pvSeries L o.pv
  let perf ← HpConfig.performance L.kernels o.heatPump
  return {
    hp := ⟨o.heatPump.capacity, o.minimumRuntime, o.minimumOutput⟩
    es := o.battery
    aux := o.aux
    tank := Tank.toTankI o.tank (fun t => ⟨source.getD t 0, delta, flow.getD t 0, ret⟩) ret
    exportPrice
    windUser, windData, pv
    elecDemand := elec
    heatDemand := heat
    importPrice
    perf
    setpoint
    orderAbove := c.controller.orderAbove
    orderBelow := c.controller.orderBelow }

/-- The fixed order controller on the pickle of a combination, main.py L96-110. -/
def runPickle (L : Libs) (c : Container) : Except PyErr (List (Results (List ℚ))) := do
  let n ← natOf (← Dict.get c.controller.info "total_timesteps")
  let first ← natOf (← Dict.get c.controller.info "first_hour")
  let S ← fixedOrderIn L c
  FixedOrder.runTimesteps S first n

/-- The container of one combination: reading the workbook (`read_excel.read_inputs`) and writing its
pickle (`Para.create_pickles`), main.py L77-82. -/
def containerOf (wb : Workbook) (size : ℤ × ℤ) : Except PyErr Container := do
  let base ← readInputs wb
  resizeContainer size base

/-- The objects made for one combination. -/
def objects (L : Libs) (wb : Workbook) (size : ℤ × ℤ) : Except PyErr Objects := do
  init L (← containerOf wb size)

/-- What the fixed order controller starts from for one combination. -/
def runInputs (L : Libs) (wb : Workbook) (size : ℤ × ℤ) : Except PyErr (RunIn (List ℚ)) := do
  fixedOrderIn L (← containerOf wb size)

/-- Reading the workbook, writing the pickle of one combination and running it. -/
def simulate (L : Libs) (wb : Workbook) (size : ℤ × ℤ) : Except PyErr (List (Results (List ℚ))) := do
  runPickle L (← containerOf wb size)

end Simulation
end Verif
