import Verif.Model.HeatPump
import Verif.Model.Enums
import Verif.Model.Regression

/-!
# Heat pump, construction and yearly performance (`/repo/pylesa/heat/heatpump.py`)

The numerical kernels that are not rational (Lorentz logarithms) or come from a library
(least squares) are parameters `Kernels`; `Verif.Model.Lorentz` and `Verif.Model.Regression`
describe them.
-/

set_option autoImplicit false

namespace Verif
open Enums

/-- A temperature argument: number, numpy array, or pandas series. -/
inductive TempArg where
  | scalar (x : ℚ)
  | array (xs : List ℚ)
  | series (xs : List ℚ)

/-- A temperature attribute after the setter; only a pandas series has `.values`. -/
inductive TempVal where
  | array (xs : List ℚ)
  | series (xs : List ℚ)

/-- `Lorentz.__init__` arguments, heat/models/lorentz.py L12-32. -/
structure LorentzSpec where
  cop : ℚ
  flow : ℚ
  ret : ℚ
  ambientIn : ℚ
  ambientOut : ℚ
  elecCapacity : ℚ

/-- Data for the standard test regression: the three array shapes (in `heatpump.py` L184-188
`data_x`, `data_COSP`, `data_duty`) and the points. -/
structure TestData where
  xShape : List ℕ
  copShape : List ℕ
  dutyShape : List ℕ
  points : List Standard.Point

/-- Arguments of `HeatPump.__init__`, heatpump.py L30-45. The ambient data frame is a list of rows
(air temperature, water temperature). -/
structure HpArgs where
  hpType : Arg HPType
  approach : Arg ModelName
  capacity : ℚ
  ambientDeltaT : ℚ
  dataInput : Arg DataInput
  flow : TempArg
  ret : TempArg
  ambient : List (ℚ × ℚ)
  simpleCop : Option ℚ
  lorentz : Option LorentzSpec
  standard : Option TestData

/-- `self._model` after construction. -/
inductive PerfModel where
  | simple (cop duty : ℚ)
  | lorentz (s : LorentzSpec)
  | generic (pump : HPType)
  | standard (d : TestData)

/-- A constructed `HeatPump`. -/
structure HpObj where
  hpType : Arg HPType
  capacity : ℚ
  ambientDeltaT : ℚ
  dataInput : Arg DataInput
  flow : TempVal
  ret : TempVal
  ambient : List (ℚ × ℚ)
  model : PerfModel

namespace HpConfig

/-- `_check_full_year`, heatpump.py L79-94. -/
def checkFullYear : TempArg → Except PyErr TempVal
  | .scalar x => .ok (.array (List.replicate 8760 x))
  | .array xs => if xs.length ≠ 8760 then .error .valueError else .ok (.array xs)
  | .series xs => if xs.length ≠ 8760 then .error .valueError else .ok (.series xs)

/-- `hp_type` setter, L127-133. -/
def checkType (a : Arg HPType) : Except PyErr Unit :=
  if isIn a then .ok () else .error .valueError

/-- `data_input` setter, L139-145. -/
def checkData (a : Arg DataInput) : Except PyErr Unit :=
  if isIn a then .ok () else .error .valueError

/-- `hp_ambient_temp` setter, L118-121. -/
def checkAmbient (rows : List (ℚ × ℚ)) : Except PyErr Unit :=
  if rows.length ≠ 8760 then .error .valueError else .ok ()

/-- `model` setter, L151-193. `case ModelName.X` compares with `==`. `GenericRegression` accepts only
a member (generic_regression.py L23-29, `isinstance`). -/
def buildModel (a : HpArgs) : Except PyErr PerfModel :=
  if eqMember a.approach .simple then
    match a.simpleCop with
    | none => .error .valueError
    | some c => .ok (.simple c a.capacity)
  else if eqMember a.approach .lorentz then
    match a.lorentz with
    | none => .error .valueError
    | some s => .ok (.lorentz s)
  else if eqMember a.approach .generic then
    match a.hpType with
    | .member p => .ok (.generic p)
    | _ => .error .keyError
  else if eqMember a.approach .standard then
    match a.standard with
    | none => .error .valueError
    | some d =>
      match Standard.trainCheck d.xShape d.copShape d.dutyShape with
      | .error e => .error e
      | .ok _ => .ok (.standard d)
  else .error .keyError

/-- `HeatPump.__init__`, L30-77, setters in the order they run. -/
def construct (a : HpArgs) : Except PyErr HpObj := do
  checkType a.hpType
  checkData a.dataInput
  let flow ← checkFullYear a.flow
  let ret ← checkFullYear a.ret
  checkAmbient a.ambient
  let model ← buildModel a
  return { hpType := a.hpType, capacity := a.capacity, ambientDeltaT := a.ambientDeltaT,
           dataInput := a.dataInput, flow := flow, ret := ret, ambient := a.ambient,
           model := model }

/-- `.values` of a series; a numpy array has no such attribute. -/
def values : TempVal → Except PyErr (List ℚ)
  | .series xs => .ok xs
  | .array _ => .error .attributeError

/-- The temperatures as numbers, whatever holds them (`np.array([...])` accepts both). -/
def raw : TempVal → List ℚ
  | .series xs => xs
  | .array xs => xs

/-- `PerformanceArray.__post_init__`, heat/models/performance.py L23-31, on shapes. -/
def arrayCheck (cop duty : List ℕ) : Except PyErr Unit :=
  if cop ≠ duty then .error .indexError
  else if cop.length > 1 then .error .indexError
  else .ok ()

/-- A `PerformanceArray` from two one-dimensional arrays. -/
def mkPerformance (cop duty : List ℚ) : Except PyErr (List Perf) := do
  arrayCheck [cop.length] [duty.length]
  return List.zipWith Perf.mk cop duty

/-- Numerical kernels: `Lorentz.cop` for one hour (flow, return, ambient in, ambient out), and the
two fitted linear models. -/
structure Kernels where
  lorentzCop : LorentzSpec → ℚ → ℚ → ℚ → ℚ → ℚ
  fitCop : List Standard.Point → Standard.Linear
  fitDuty : List Standard.Point → Standard.Linear

/-- `Lorentz.duty`, heat/models/lorentz.py L118-129. -/
def lorentzDuty (s : LorentzSpec) (capacity : ℚ) : ℚ := min (s.cop * s.elecCapacity) capacity

/-- `heat_resource`, heatpump.py L195-218. -/
def heatResource (o : HpObj) : List ℚ :=
  if eqMember o.hpType .ashp then o.ambient.map Prod.fst else o.ambient.map Prod.snd

/-- Reduction for peak test data of an air source pump at or below 5 degrees, L270-276. -/
def peakFactor (ambient : ℚ) : ℚ := if ambient ≤ 5 then 9 / 10 else 1

/-- `performance`, heatpump.py L220-295. -/
def performance (K : Kernels) (o : HpObj) : Except PyErr (List Perf) :=
  if o.capacity = 0 then
    mkPerformance (List.replicate 8760 (1 / 2)) (List.replicate 8760 0)
  else
    let ambient := heatResource o
    match o.model with
    | .simple c d => mkPerformance (List.replicate 8760 c) (List.replicate 8760 d)
    | .lorentz s => do
        let flow ← values o.flow
        let ret ← values o.ret
        let cop := List.zipWith (fun (fr : ℚ × ℚ) a =>
          K.lorentzCop s fr.1 fr.2 a (a - o.ambientDeltaT)) (flow.zip ret) ambient
        mkPerformance cop (List.replicate 8760 (lorentzDuty s o.capacity))
    | .generic p => do
        let flow ← values o.flow
        mkPerformance (List.zipWith (Generic.cop p) flow ambient)
          (List.replicate 8760 o.capacity)
    | .standard d => do
        let flow ← values o.flow
        let cop := List.zipWith (Standard.cop (K.fitCop d.points)) ambient flow
        let factor ←
          if eqMember o.dataInput .integrated then .ok (ambient.map (fun _ => 1))
          else if eqMember o.dataInput .peak then
            if eqMember o.hpType .ashp then .ok (ambient.map peakFactor)
            else .error .valueError
          else .error .valueError
        mkPerformance (List.zipWith (· * ·) cop factor)
          (List.zipWith (Standard.duty (K.fitDuty d.points)) ambient (raw o.flow))

/-- What the input sheet gives for the heat pump: the enumerations as read by
`Inputs.heatpump_basics` (io/inputs.py L177-218), the three model input tables, the hourly source
temperature (a column, io/inputs.py L154) and the return temperature (one number, L153). -/
structure Sheet where
  hpType : HPType
  approach : ModelName
  capacity : ℚ
  ambientDeltaT : ℚ
  dataInput : DataInput
  source : List ℚ
  ret : ℚ
  ambient : List (ℚ × ℚ)
  simpleCop : ℚ
  lorentz : LorentzSpec
  standard : TestData

/-- The arguments `initialise_classes.init` gives to `HeatPump`, initialise_classes.py L80-121. Only the
inputs of the chosen model are read; the generic model has no case there and raises. -/
def initArgs (s : Sheet) : Except PyErr HpArgs :=
  let base : HpArgs :=
    { hpType := .member s.hpType, approach := .member s.approach, capacity := s.capacity,
      ambientDeltaT := s.ambientDeltaT, dataInput := .member s.dataInput,
      flow := .series s.source, ret := .scalar s.ret, ambient := s.ambient,
      simpleCop := none, lorentz := none, standard := none }
  match s.approach with
  | .simple => .ok { base with simpleCop := some s.simpleCop }
  | .lorentz => .ok { base with lorentz := some s.lorentz }
  | .standard => .ok { base with standard := some s.standard }
  | .generic => .error .keyError

/-- `init` followed by `performance`, as the controllers do at start (controllers/fixed_order.py
L88, controllers/mpc.py L69). -/
def runSheet (K : Kernels) (s : Sheet) : Except PyErr (List Perf) :=
  match initArgs s with
  | .error e => .error e
  | .ok a => match construct a with
    | .error e => .error e
    | .ok o => performance K o

end HpConfig
end Verif
