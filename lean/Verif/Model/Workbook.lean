import Verif.Model.Frame
import Verif.Model.AuxHeater

/-!
# Reading the workbook: `/repo/pylesa/io/read_excel.py`

`XlsxInput` method by method, and the container `read_inputs` writes to `inputs.pkl`. The files and
directories it makes are in `Verif.Model.Files`.
-/

set_option autoImplicit false

namespace Verif
namespace Workbook
open Pandas DataFrame Enums

/-- Column labels `'Unnamed: k'`. -/
def cols (ks : List ℕ) : List Key := ks.map .unnamed

/-- Row labels. -/
def nums (ks : List ℕ) : List Key := ks.map .pos

/-- `df['Unnamed: c'][r]`. -/
def at' (f : DataFrame) (c r : ℕ) : Except PyErr Value := f.get (.unnamed c) (.pos r)

/-- A renaming of `'Unnamed: k'` columns. -/
def names (m : List (ℕ × String)) : List (Key × String) := m.map (fun p => (.unnamed p.1, p.2))

/-- A renaming of numbered columns (of a transposed frame). -/
def posNames (m : List (ℕ × String)) : List (Key × String) := m.map (fun p => (.pos p.1, p.2))

/-- `parametric_analysis`, L81-98. -/
def parametric (f : DataFrame) : Except PyErr Dict := do
  let hpMax ← at' f 3 4
  let hpMin ← at' f 4 4
  let hpStep ← at' f 5 4
  let tsMax ← at' f 3 5
  let tsMin ← at' f 4 5
  let tsStep ← at' f 5 5
  return [("hp_max", hpMax), ("hp_min", hpMin), ("hp_step", hpStep), ("ts_max", tsMax),
    ("ts_min", tsMin), ("ts_step", tsStep)]

/-- What `controller` puts in the container. -/
structure ControllerPart where
  info : Dict
  importSetpoint : Value
  horizon : Value
  orderBelow : List ℤ
  orderAbove : List ℤ

/-- `controller`, L100-127. -/
def controller (f : DataFrame) : Except PyErr ControllerPart := do
  let controller ← at' f 3 3
  let firstHour ← at' f 6 3
  let total ← at' f 6 4
  let setpoint ← at' f 3 5
  let horizon ← at' f 6 7
  let below ← at' f 3 7
  let below ← textOf below
  let below ← InputText.readOrder below.toList
  let above ← at' f 3 6
  let above ← textOf above
  let above ← InputText.readOrder above.toList
  return { info := [("controller", controller), ("first_hour", firstHour), ("total_timesteps", total)],
           importSetpoint := setpoint, horizon := horizon, orderBelow := below, orderAbove := above }

/-- `resources`, L129-147. -/
def resources (f : DataFrame) : Except PyErr DataFrame := do
  let f ← f.drop (nums [0, 1, 2, 3]) (cols [0, 1, 2, 13, 14])
  return (f.rename (names [(3, "DHI"), (4, "GHI"), (5, "DNI"), (6, "wind_speed_10"),
    (7, "wind_speed_50"), (8, "roughness_length"), (9, "pressure"), (10, "air_temperature"),
    (11, "air_density"), (12, "water_temperature")])).resetIndex

/-- `demands`, L149-168. -/
def demands (f : DataFrame) : Except PyErr (Value × DataFrame) := do
  let hotWater ← at' f 3 15
  let dem ← f.drop (nums [0, 1, 2, 3]) (cols [0, 1, 2, 7])
  let dem ← dem.drop (nums ((List.range 22).map (fun k : ℕ => k + 14))) []
  return (hotWater, (dem.rename (names [(3, "Type"), (4, "Age"), (5, "Bedrooms"),
    (6, "Number of type")])).resetIndex)

/-- `demand_input`, L170-189. -/
def demandInput (f : DataFrame) : Except PyErr (Dict × DataFrame) := do
  let ret ← at' f 8 4
  let delta ← at' f 8 6
  let f ← f.drop (nums [0, 1, 2, 3]) (cols [0, 1, 2, 7, 8])
  return ([("temp_return", ret), ("source_delta_t", delta)],
    (f.rename (names [(3, "heat demand"), (4, "electrical demand"), (5, "temp_flow"),
      (6, "temp_source")])).resetIndex)

/-- `PV_location`, L195-204. -/
def pvLocation (f : DataFrame) : Except PyErr DataFrame := do
  let f ← f.drop (nums [13, 17, 18]) (cols [0, 1, 6, 7])
  return (f.dropnaRows.rename (names [(2, "name"), (3, "latitude"), (4, "longitude"),
    (5, "altitude")])).resetIndex

/-- `PV_spec`, L206-216. -/
def pvSpec (f : DataFrame) : Except PyErr DataFrame := do
  let f ← f.drop (nums [17]) (cols [0, 1])
  return (f.dropnaRows.rename (names [(2, "module"), (3, "inverter"), (4, "multiplier"),
    (5, "surface_tilt"), (6, "surface_azimuth"), (7, "surface_type")])).resetIndex

/-- `wind_database`, L222-232. -/
def windDatabase (f : DataFrame) : Except PyErr DataFrame := do
  let f ← f.drop (nums [12, 17, 18]) (cols [0, 1, 6])
  return (f.dropnaRows.rename (names [(2, "turbine_name"), (3, "hub_height"), (4, "rotor_diameter"),
    (5, "multiplier")])).resetIndex

/-- `wind_user`, L234-244. -/
def windUser (f : DataFrame) : Except PyErr DataFrame := do
  let f ← f.drop (nums [17]) (cols [0, 1])
  return (f.dropnaRows.rename (names [(2, "turbine_name"), (3, "hub_height"), (4, "rotor_diameter"),
    (5, "multiplier"), (6, "nominal_power")])).resetIndex

/-- `power_curve`, L246-255. -/
def powerCurve (f : DataFrame) : Except PyErr DataFrame := do
  let f ← f.drop (nums [12, 13, 17, 18, 21]) (cols [0, 1, 4, 5, 6])
  return (f.dropnaRows.rename (names [(2, "value"), (3, "wind_speed")])).resetIndex

/-- `wind_farm`, L257-282. -/
def windFarm (f : DataFrame) : Except PyErr (Dict × DataFrame) := do
  let name ← at' f 2 13
  let hub ← at' f 3 13
  let rotor ← at' f 4 13
  let number ← at' f 5 13
  let efficiency ← at' f 6 13
  let g ← f.drop (nums (List.range 18)) (cols [0, 1])
  return ([("turbine_name", name), ("hub_height", hub), ("rotor_diameter", rotor),
      ("number_of_turbines", number), ("efficiency", efficiency)],
    (g.rename (names [(2, "wind_speed_10"), (3, "wind_speed_50"), (4, "roughness_length"),
      (5, "pressure"), (6, "air_temperature")])).resetIndex)

/-- `electrical_storage`, L284-299. -/
def electricalStorage (f : DataFrame) : Except PyErr DataFrame := do
  let f ← f.drop (nums [3]) (cols [0, 1])
  return (f.dropnaRows.rename (names [(2, "capacity"), (3, "initial state"), (4, "charge max"),
    (5, "discharge max"), (6, "charge eff"), (7, "discharge eff"), (8, "self discharge")])).resetIndex

/-- What `grid` puts in the container. -/
structure GridPart where
  exportPrice : Value
  tariffChoice : Value
  balancingMechanism : Value
  gridServices : Value
  gridServicesSeries : DataFrame
  flatRates : Dict
  variablePeriods : DataFrame
  variablePeriodsYear : Value
  wholesaleMarket : DataFrame
  balancingSeries : DataFrame
  ppaOutput : DataFrame
  wmInfo : Dict
  ppaInfo : Dict

/-- One of the three hourly series of the sheet, L363-398: rows 10 to 8769, one column kept. -/
def gridSeries (f : DataFrame) (drops : List ℕ) (k : ℕ) (name : String) : Except PyErr DataFrame := do
  let g ← (f.iloc 10 8770).drop [] (cols drops)
  return (g.rename (names [(k, name)])).resetIndex

/-- `grid`, L301-416. -/
def grid (f : DataFrame) : Except PyErr GridPart := do
  let exportPrice ← at' f 3 7
  let tariff ← at' f 3 3
  let balancing ← at' f 7 3
  let services ← at' f 9 3
  let f ← f.drop [] (cols [0, 1, 14, 15, 16, 17, 18, 19, 20, 21, 22])
  let series ← f.drop (nums [3, 5]) (cols [2, 3, 4, 6, 5, 10, 11, 12, 13])
  let series ← series.drop (nums [9, 13, 14, 15, 16, 17, 18, 19, 20, 21, 22, 23, 24, 25, 26, 17, 27, 28,
    29, 30, 31, 32, 33, 34, 35, 36, 37, 38, 39]) []
  let series := (series.dropnaRows.rename (names [(7, "STOR"), (8, "FFR"),
    (9, "capacity_market")])).renameIndex (posNames [(10, "notice_period"), (11, "payment"),
    (12, "frequency")])
  let flatImport ← at' f 2 7
  let flatExport ← at' f 3 7
  let periods ← (f.iloc 16 40).drop [] (cols [2, 3, 4, 5, 6])
  let periods := (periods.rename (names [(7, "Monday"), (8, "Tuesday"), (9, "Wednesday"),
    (10, "Thursday"), (11, "Friday"), (12, "Saturday"), (13, "Sunday")])).resetIndex
  let year ← at' f 13 40
  let wholesale ← gridSeries f [3, 4, 5, 7, 8, 6, 9, 10, 11, 12, 13] 2 "wholesale_market"
  let bm ← gridSeries f [2, 4, 5, 7, 8, 6, 9, 10, 11, 12, 13] 3 "balancing_mechanism"
  let ppa ← gridSeries f [2, 3, 5, 7, 8, 6, 9, 10, 11, 12, 13] 4 "ppa_output"
  let premium ← at' f 6 7
  let maximum ← at' f 7 7
  let lowerPercent ← at' f 9 7
  let higherPercent ← at' f 10 7
  let lowerPenalty ← at' f 11 7
  let higherDiscount ← at' f 12 7
  return { exportPrice := exportPrice, tariffChoice := tariff, balancingMechanism := balancing,
           gridServices := services, gridServicesSeries := series,
           flatRates := [("import", flatImport), ("export", flatExport)],
           variablePeriods := periods, variablePeriodsYear := year, wholesaleMarket := wholesale,
           balancingSeries := bm, ppaOutput := ppa,
           wmInfo := [("premium", premium), ("maximum", maximum)],
           ppaInfo := [("lower_percent", lowerPercent), ("higher_percent", higherPercent),
             ("lower_penalty", lowerPenalty), ("higher_discount", higherDiscount)] }

/-- `Fuel.from_value(cell.upper())`. -/
def fuelOf (v : Value) : Except PyErr Fuel := do
  let s ← textOf v
  fromValue Fuel s.toUpper

/-- One entry of `fuel_info`, L430-439. -/
def fuelEntry (f : DataFrame) (r : ℕ) : Except PyErr (Fuel × Dict) := do
  let fuel ← at' f 2 r
  let fuel ← fuelOf fuel
  let density ← at' f 3 r
  let cost ← at' f 4 r
  return (fuel, [("energy_density", density), ("cost", cost)])

/-- A dictionary display with computed keys: a later entry replaces an earlier one. -/
def fuelDict (entries : List (Fuel × Dict)) (fuel : Fuel) : Option Dict :=
  entries.reverse.lookup fuel

/-- `aux`, L418-440: the fuel and efficiency of the heater, and the fuel table. -/
def aux (f : DataFrame) : Except PyErr (Fuel × Value × List (Fuel × Dict)) := do
  let fuel ← at' f 2 4
  let fuel ← fuelOf fuel
  let efficiency ← at' f 3 4
  let e7 ← fuelEntry f 7
  let e8 ← fuelEntry f 8
  let e9 ← fuelEntry f 9
  return (fuel, efficiency, [e7, e8, e9])

/-- `thermal_storage`, L442-464. -/
def thermalStorage (f : DataFrame) : Except PyErr DataFrame := do
  let f ← f.transpose.resetIndex.drop (nums [0, 1, 2, 4, 5, 6, 7, 8, 9, 10, 11, 12, 13])
    (nums [0, 1, 2, 7, 11, 18, 19])
  return (f.rename (posNames [(3, "capacity"), (4, "insulation"), (5, "location"), (6, "number_nodes"),
    (8, "height"), (9, "width"), (10, "insulation_thickness"), (12, "tank_opening"),
    (13, "tank_opening_diameter"), (14, "uninsulated_connections"),
    (15, "uninsulated_connections_diameter"), (16, "insulated_connections"),
    (17, "insulated_connections_diameter"), (20, "insulation_factor"),
    (21, "overall_factor")])).resetIndex

/-- `hp_basics`, L470-483. -/
def hpBasics (f : DataFrame) : Except PyErr DataFrame := do
  let f ← (f.iloc 1 8).transpose.resetIndex.drop (nums [0, 1, 2, 4, 5, 6, 7, 8, 9, 10]) []
  return (f.rename (posNames [(1, "heat_pump_type"), (2, "modelling_approach"), (3, "capacity"),
    (4, "ambient_delta_t"), (5, "minimum_runtime"), (6, "minimum_output"),
    (7, "data_input")])).resetIndex

/-- `RHI`, L486-497. -/
def rhi (f : DataFrame) : Except PyErr Dict := do
  let t ← at' f 13 3
  let tariff ← at' f 13 4
  let rate ← at' f 13 5
  let tier1 ← at' f 13 6
  let tier2 ← at' f 13 7
  return [("RHI_type", t), ("tariff_type", tariff), ("fixed_rate", rate), ("tier_1", tier1),
    ("tier_2", tier2)]

/-- `hp_simple`, L499-501. -/
def hpSimple (f : DataFrame) : Except PyErr Value := at' (f.iloc 9 11) 3 10

/-- All of 0 to 18 without `k`. -/
def allBut (k : ℕ) : List ℕ := (List.range 19).filter (fun i => i ≠ k)

/-- `lorentz`, L503-516. -/
def lorentz (f : DataFrame) : Except PyErr DataFrame := do
  let f ← (f.iloc 13 19).transpose.resetIndex.drop (nums (allBut 3)) []
  return (f.rename (posNames [(13, "COP"), (14, "flow_temp"), (15, "return_temp"),
    (16, "ambient_temp_in"), (17, "ambient_temp_out"), (18, "elec_capacity")])).resetIndex

/-- `regression_temp1` (`k = 3`) and `regression_temp2` (`k = 7`), L518-540. -/
def regressionTempUpper (f : DataFrame) (k : ℕ) : Except PyErr DataFrame := do
  let f ← (f.iloc 21 25).transpose.resetIndex.drop (nums (allBut k)) []
  let f ← f.drop [] (nums [23, 24])
  return (f.rename (posNames [(21, "flow_temp"), (22, "return_temp")])).resetIndex

/-- `regression_temp3` (`k = 3`) and `regression_temp4` (`k = 7`), L542-562. -/
def regressionTempLower (f : DataFrame) (k : ℕ) : Except PyErr DataFrame := do
  let f ← (f.iloc 34 36).transpose.resetIndex.drop (nums (allBut k)) []
  return (f.rename (posNames [(34, "flow_temp"), (35, "return_temp")])).resetIndex

/-- Columns of the tables on the left, L565-576, and their names. -/
def leftDrops : List ℕ := [0, 1, 6, 7, 8, 9, 10, 11, 12, 13, 14, 15, 16, 17, 18]
def leftNames : List (ℕ × String) :=
  [(2, "ambient_temp"), (3, "COSP"), (4, "duty"), (5, "capacity_percentage")]

/-- Columns of the tables on the right, L582-593, and their names. -/
def rightDrops : List ℕ := [0, 1, 2, 3, 4, 5, 10, 11, 12, 13, 14, 15, 16, 17, 18]
def rightNames : List (ℕ × String) :=
  [(6, "ambient_temp"), (7, "COSP"), (8, "duty"), (9, "capacity_percentage")]

/-- `regression1`, `regression2`, L564-596. -/
def regressionUpper (f : DataFrame) (drops : List ℕ) (m : List (ℕ × String)) :
    Except PyErr DataFrame := do
  let f ← (f.iloc 23 33).drop [] (cols drops)
  let f ← (f.rename (names m)).drop (nums [23, 24]) []
  return f.resetIndex

/-- `regression3`, `regression4`, L598-628. -/
def regressionLower (f : DataFrame) (drops : List ℕ) (m : List (ℕ × String)) :
    Except PyErr DataFrame := do
  let f ← (f.iloc 39 46).drop [] (cols drops)
  return (f.rename (names m)).resetIndex

/-- What `heat_pump` puts in the container. -/
structure HeatPumpPart where
  basics : DataFrame
  rhi : Dict
  simple : Value
  lorentz : DataFrame
  temp1 : DataFrame
  temp2 : DataFrame
  temp3 : DataFrame
  temp4 : DataFrame
  reg1 : DataFrame
  reg2 : DataFrame
  reg3 : DataFrame
  reg4 : DataFrame

/-- `heat_pump`, L466-628. -/
def heatPump (f : DataFrame) : Except PyErr HeatPumpPart := do
  let basics ← hpBasics f
  let rhi ← rhi f
  let simple ← hpSimple f
  let lorentz ← lorentz f
  let temp1 ← regressionTempUpper f 3
  let temp2 ← regressionTempUpper f 7
  let temp3 ← regressionTempLower f 3
  let temp4 ← regressionTempLower f 7
  let reg1 ← regressionUpper f leftDrops leftNames
  let reg2 ← regressionUpper f rightDrops rightNames
  let reg3 ← regressionLower f leftDrops leftNames
  let reg4 ← regressionLower f rightDrops rightNames
  return { basics, rhi, simple, lorentz, temp1, temp2, temp3, temp4, reg1, reg2, reg3, reg4 }

/-- The container, as pickled (`fuelInfo` is a dictionary: see `fuelDict`). -/
structure Container where
  parametric : Dict
  controller : ControllerPart
  resources : DataFrame
  hotWater : Value
  heating : DataFrame
  demandStatic : Dict
  demandVariable : DataFrame
  pvLocation : DataFrame
  pvSpec : DataFrame
  windDatabase : DataFrame
  windUser : DataFrame
  powerCurve : DataFrame
  windFarm : Dict
  windFarmResources : DataFrame
  electricalStorage : DataFrame
  grid : GridPart
  auxFuel : Fuel
  auxEfficiency : Value
  fuelInfo : List (Fuel × Dict)
  thermalStorage : DataFrame
  heatPump : HeatPumpPart

/-- `read_inputs`, L17-46: the methods in the order they run. -/
def readInputs (wb : Workbook) : Except PyErr Container := do
  let parametric ← parametric (← sheetOf wb "Parametric")
  let controller ← controller (← sheetOf wb "Controller")
  let resources ← resources (← sheetOf wb "Weather resources")
  let (hotWater, heating) ← demands (← sheetOf wb "Demand gen")
  let (demandStatic, demandVariable) ← demandInput (← sheetOf wb "Demand input")
  let pv ← sheetOf wb "PV inputs"
  let pvLocation ← pvLocation pv
  let pvSpec ← pvSpec pv
  let wind ← sheetOf wb "Wind inputs"
  let windDatabase ← windDatabase wind
  let windUser ← windUser wind
  let powerCurve ← powerCurve wind
  let (windFarm, windFarmResources) ← windFarm (← sheetOf wb "Wind farm")
  let electricalStorage ← electricalStorage (← sheetOf wb "Electrical storage")
  let grid ← grid (← sheetOf wb "Grid")
  let (auxFuel, auxEfficiency, fuelInfo) ← aux (← sheetOf wb "Aux heat")
  let thermalStorage ← thermalStorage (← sheetOf wb "Thermal storage")
  let heatPump ← heatPump (← sheetOf wb "Heat pump")
  return { parametric, controller, resources, hotWater, heating, demandStatic, demandVariable,
           pvLocation, pvSpec, windDatabase, windUser, powerCurve, windFarm, windFarmResources,
           electricalStorage, grid, auxFuel, auxEfficiency, fuelInfo, thermalStorage, heatPump }

end Workbook
end Verif
