import Verif.Model.Workbook

/-!
# From the container to the parameters of the classes: `/repo/pylesa/io/inputs.py`,
`/repo/pylesa/environment/weather.py`

The container of a pickle is the `Workbook.Container`; `pd.read_pickle` returns what was pickled.
-/

set_option autoImplicit false

namespace Verif
namespace InputReader
open Pandas DataFrame Workbook Enums

/-- `df[name][0]` of a frame numbered from 0. -/
def zero (f : DataFrame) (name : String) : Except PyErr Value := f.get (.named name) (.pos 0)

/-- `df.to_dict('list')[name][0]`: an unknown column raises `KeyError`, an empty one `IndexError`. -/
def first (f : DataFrame) (name : String) : Except PyErr Value :=
  match f.columns.lookup (.named name) with
  | none => .error .keyError
  | some j => match f.index with
    | [] => .error .indexError
    | r :: _ => .ok (f.cell r.2 j)

/-- `PV_model`, L35-62. -/
def pvModel (c : Container) : Except PyErr Dict := do
  let moduleName ← first c.pvSpec "module"
  let inverter ← first c.pvSpec "inverter"
  let multiplier ← first c.pvSpec "multiplier"
  let tilt ← first c.pvSpec "surface_tilt"
  let azimuth ← first c.pvSpec "surface_azimuth"
  let surface ← first c.pvSpec "surface_type"
  let name ← first c.pvLocation "name"
  let latitude ← first c.pvLocation "latitude"
  let longitude ← first c.pvLocation "longitude"
  let altitude ← first c.pvLocation "altitude"
  return [("module_name", moduleName), ("inverter_name", inverter), ("multiplier", multiplier),
    ("surface_tilt", tilt), ("surface_azimuth", azimuth), ("surface_type", surface),
    ("loc_name", name), ("latitude", latitude), ("longitude", longitude), ("altitude", altitude)]

/-- `[float(i) for i in column]`: text that is not a number raises `ValueError` (text that is one is
outside the model). -/
def floats (vs : List Value) : Except PyErr (List Value) :=
  if vs.all (fun v => match v with | some (.text _) => false | _ => true) then .ok vs
  else .error .valueError

/-- `windturbine_user`, L64-82: the parameters and the power curve (wind speed, value). -/
def windturbineUser (c : Container) : Except PyErr (Dict × List (Value × Value)) := do
  let value ← c.powerCurve.column (.named "value")
  let value ← floats value
  let speed ← c.powerCurve.column (.named "wind_speed")
  let speed ← floats speed
  let name ← first c.windUser "turbine_name"
  let hub ← first c.windUser "hub_height"
  let rotor ← first c.windUser "rotor_diameter"
  let multiplier ← first c.windUser "multiplier"
  let nominal ← first c.windUser "nominal_power"
  return ([("turbine_name", name), ("hub_height", hub), ("rotor_diameter", rotor),
    ("multiplier", multiplier), ("nominal_power", nominal)], speed.zip value)

/-- `windturbine_database`, L84-97. -/
def windturbineDatabase (c : Container) : Except PyErr Dict := do
  let name ← first c.windDatabase "turbine_name"
  let hub ← first c.windDatabase "hub_height"
  let rotor ← first c.windDatabase "rotor_diameter"
  let multiplier ← first c.windDatabase "multiplier"
  return [("turbine_name", name), ("hub_height", hub), ("rotor_diameter", rotor),
    ("multiplier", multiplier)]

/-- Hourly series by name. -/
abbrev Columns := List (String × List Value)

/-- `d[k]`. -/
def Columns.get (d : Columns) (k : String) : Except PyErr (List Value) :=
  match d.lookup k with
  | none => .error .keyError
  | some v => .ok v

/-- The columns `names` of a frame, each `frame[[name]]` under its own name. -/
def columnsOf (f : DataFrame) (names : List String) : Except PyErr Columns :=
  names.mapM (fun n => do
    let xs ← f.column (.named n)
    pure (n, xs))

/-- `wind_farm_weather`, L103-114. -/
def windFarmWeather (c : Container) : Except PyErr Columns :=
  columnsOf c.windFarmResources
    ["wind_speed_10", "wind_speed_50", "roughness_length", "pressure", "air_temperature"]

/-- `weather`, L116-132. -/
def weather (c : Container) : Except PyErr Columns :=
  columnsOf c.resources
    ["DHI", "GHI", "DNI", "wind_speed_10", "wind_speed_50", "roughness_length", "pressure",
     "air_temperature", "air_density", "water_temperature"]

/-- `demands`, L145-157: the two numbers and the four series. -/
def demands (c : Container) : Except PyErr (Dict × Columns) := do
  let heat ← c.demandVariable.column (.named "heat demand")
  let elec ← c.demandVariable.column (.named "electrical demand")
  let flow ← c.demandVariable.column (.named "temp_flow")
  let ret ← Dict.get c.demandStatic "temp_return"
  let source ← c.demandVariable.column (.named "temp_source")
  let delta ← Dict.get c.demandStatic "source_delta_t"
  return ([("return_temp_DH", ret), ("source_delta_t", delta)],
    [("heat_demand", heat), ("elec_demand", elec), ("flow_temp_DH", flow), ("source_temp", source)])

/-- `RHI`, L159-175. -/
def rhi (c : Container) : Except PyErr Dict := do
  let d := c.heatPump.rhi
  let t ← Dict.get d "RHI_type"
  let tariff ← Dict.get d "tariff_type"
  let rate ← Dict.get d "fixed_rate"
  let tier1 ← Dict.get d "tier_1"
  let tier2 ← Dict.get d "tier_2"
  return [("RHI_type", t), ("tariff_type", tariff), ("fixed_rate", rate), ("tier_1", tier1),
    ("tier_2", tier2)]

/-- What `heatpump_basics` returns. -/
structure HpBasics where
  hpType : HPType
  capacity : Value
  approach : ModelName
  ambientDeltaT : Value
  minimumRuntime : Value
  dataInput : DataInput
  minimumOutput : Value

/-- One of the three enumerations, L182-187, L191-196, L201-206: `.upper()` needs text. -/
def enumOf (α : Type) [StrEnum α] [DecidableEq α] (f : DataFrame) (name : String) : Except PyErr α := do
  let v ← zero f name
  let s ← textOf v
  InputText.readEnum α s

/-- `heatpump_basics`, L177-218. -/
def heatpumpBasics (c : Container) : Except PyErr HpBasics := do
  let hp := c.heatPump.basics
  let hpType ← enumOf HPType hp "heat_pump_type"
  let capacity ← zero hp "capacity"
  let approach ← enumOf ModelName hp "modelling_approach"
  let ambientDeltaT ← zero hp "ambient_delta_t"
  let minimumRuntime ← zero hp "minimum_runtime"
  let dataInput ← enumOf DataInput hp "data_input"
  let minimumOutput ← zero hp "minimum_output"
  return { hpType, capacity, approach, ambientDeltaT, minimumRuntime, dataInput, minimumOutput }

/-- `heatpump_lorentz`, L227-245. -/
def heatpumpLorentz (c : Container) : Except PyErr Dict := do
  let l := c.heatPump.lorentz
  let cop ← zero l "COP"
  let flow ← zero l "flow_temp"
  let ret ← zero l "return_temp"
  let ambIn ← zero l "ambient_temp_in"
  let ambOut ← zero l "ambient_temp_out"
  let elec ← zero l "elec_capacity"
  return [("cop", cop), ("flow_temp_spec", flow), ("return_temp_spec", ret),
    ("temp_ambient_in_spec", ambIn), ("temp_ambient_out_spec", ambOut), ("elec_capacity", elec)]

/-- One of the four test tables with its flow temperature, L249-264. -/
def regressionPart (reg temp : DataFrame) : Except PyErr Table := do
  let t ← zero temp "flow_temp"
  return (Table.ofFrame reg).addColumn "flow_temp" (List.replicate 8 t)

/-- The test data put together, L249-311. -/
def regressionData (c : Container) : Except PyErr Table := do
  let h := c.heatPump
  let d1 ← regressionPart h.reg1 h.temp1
  let d2 ← regressionPart h.reg2 h.temp2
  let d3 ← regressionPart h.reg3 h.temp3
  let d4 ← regressionPart h.reg4 h.temp4
  return (Table.concat [d1, d2, d3, d4]).dropna

/-- `heatpump_standard_regression`, L247-326: temperatures, performance, duty. -/
def heatpumpStandard (c : Container) : Except PyErr (Table × Table × Table) := do
  let d ← regressionData c
  let x ← d.drop [.named "duty", .named "capacity_percentage", .named "COSP"]
  let cosp ← d.drop [.named "duty", .named "capacity_percentage", .named "flow_temp",
    .named "ambient_temp"]
  let duty ← d.drop [.named "COSP", .named "capacity_percentage", .named "flow_temp",
    .named "ambient_temp"]
  return (x, cosp, duty)

/-- What `hot_water_tank` returns. -/
structure TankInputs where
  main : Dict
  dimensions : Dict
  openings : Dict
  factors : Dict

/-- `hot_water_tank`, L328-361. -/
def hotWaterTank (c : Container) : Except PyErr TankInputs := do
  let ts := c.thermalStorage
  let capacity ← zero ts "capacity"
  let insulation ← zero ts "insulation"
  let location ← zero ts "location"
  let nodes ← zero ts "number_nodes"
  let height ← zero ts "height"
  let width ← zero ts "width"
  let thickness ← zero ts "insulation_thickness"
  let opening ← zero ts "tank_opening"
  let openingD ← zero ts "tank_opening_diameter"
  let uninsulated ← zero ts "uninsulated_connections"
  let uninsulatedD ← zero ts "uninsulated_connections_diameter"
  let insulated ← zero ts "insulated_connections"
  let insulatedD ← zero ts "insulated_connections_diameter"
  let fi ← zero ts "insulation_factor"
  let fe ← zero ts "overall_factor"
  return { main := [("capacity", capacity), ("insulation", insulation), ("location", location),
             ("number_nodes", nodes)],
           dimensions := [("height", height), ("width", width), ("insulation_thickness", thickness)],
           openings := [("tank_opening", opening), ("tank_opening_diameter", openingD),
             ("uninsulated_connections", uninsulated),
             ("uninsulated_connections_diameter", uninsulatedD),
             ("insulated_connections", insulated),
             ("insulated_connections_diameter", insulatedD)],
           factors := [("insulation_factor", fi), ("overall_factor", fe)] }

/-- `electrical_storage`, L395-415. -/
def electricalStorage (c : Container) : Except PyErr Dict := do
  let es := c.electricalStorage
  let capacity ← zero es "capacity"
  let initial ← zero es "initial state"
  let chargeMax ← zero es "charge max"
  let dischargeMax ← zero es "discharge max"
  let chargeEff ← zero es "charge eff"
  let dischargeEff ← zero es "discharge eff"
  let selfDischarge ← zero es "self discharge"
  return [("capacity", capacity), ("initial_state", initial), ("charge_max", chargeMax),
    ("discharge_max", dischargeMax), ("charge_eff", chargeEff), ("discharge_eff", dischargeEff),
    ("self_discharge", selfDischarge)]

/-! ## Weather, `/repo/pylesa/environment/weather.py` -/

/-- Giving a frame of `n` rows the hours of a year as its index: another length raises `ValueError`. -/
def yearIndex (n : ℕ) : Except PyErr Unit := if n = 8760 then .ok () else .error .valueError

/-- The length of a column (0 for no column). -/
def lengthOf (d : Columns) : ℕ := match d with | [] => 0 | p :: _ => p.2.length

/-- `Weather.PV`, weather.py L30-44, with the names given there and in `PV.weather_data`
(renewables.py L194-208): a column with an empty cell is dropped. -/
def pvWeather (w : Columns) : Except PyErr Columns := do
  let dhi ← w.get "DHI"
  let ghi ← w.get "GHI"
  let dni ← w.get "DNI"
  let wind ← w.get "wind_speed_10"
  let air ← w.get "air_temperature"
  let all : Columns := [("dhi", dhi), ("ghi", ghi), ("dni", dni), ("wind_speed_10", wind),
    ("air_temperature", air)]
  yearIndex dhi.length
  return all.filter (fun p => p.2.all Option.isSome)

/-- `Weather.wind_turbine`, weather.py L46-67, the two-level column names written as one
(variable and height): a column with no entry at all is dropped. -/
def windWeather (w : Columns) : Except PyErr Columns := do
  let wind10 ← w.get "wind_speed_10"
  let wind50 ← w.get "wind_speed_50"
  let rough ← w.get "roughness_length"
  let pres ← w.get "pressure"
  let air ← w.get "air_temperature"
  yearIndex wind10.length
  let all : Columns := [("wind_speed 10", wind10), ("temperature 10", air), ("pressure 0", pres),
    ("roughness_length 10", rough), ("wind_speed 50", wind50)]
  return all.filter (fun p => p.2.any Option.isSome)

end InputReader
end Verif
