import Verif.Base

/-!
# Heat pump, hourly part (`/repo/pylesa/heat/heatpump.py`)

`PerformanceValue` and the two methods the controllers call in each timestep. The yearly
performance and the constructor are in `Verif.Model.HeatPumpConfig`.
-/

set_option autoImplicit false

namespace Verif

/-- `PerformanceValue`, heat/models/performance.py L11-14. -/
structure Perf where
  cop : ℚ
  duty : ℚ
  deriving DecidableEq

/-- The attributes of `HeatPump` (heatpump.py L63-67) that the hourly code reads. -/
structure HeatPump where
  capacity : ℚ
  minimumRuntime : ℚ
  minimumOutput : ℚ
  deriving DecidableEq

/-- `HpDemand`, heatpump.py L23-26. -/
structure HpDemand where
  demand : ℚ
  elec : ℚ
  deriving DecidableEq

namespace HeatPump

/-- `elec_usage`, heatpump.py L297-313. Python divides by `cop`; `cop = 0` (numpy would give
inf or nan) is outside the model, so theorems that use the quotient assume `0 < cop`. -/
def elecUsage (hp : HeatPump) (demand : ℚ) (p : Perf) : ℚ :=
  if hp.capacity = 0 then 0
  else
    let maxElecUsage := demand / p.cop
    let maxElecCap := p.duty / p.cop
    min maxElecUsage maxElecCap

/-- `thermal_output`, heatpump.py L315-339. -/
def thermalOutput (hp : HeatPump) (elecSupply : ℚ) (p : Perf) (heatDemand : ℚ) : HpDemand :=
  if hp.capacity = 0 then ⟨0, 0⟩
  else
    let maxThermalOutput := elecSupply * p.cop
    let hpDemand := min (min maxThermalOutput heatDemand) p.duty
    let hpElec := hpDemand / p.cop
    ⟨hpDemand, hpElec⟩

end HeatPump
end Verif
