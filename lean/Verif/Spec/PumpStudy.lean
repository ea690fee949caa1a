import Verif.Spec.BiggerPump
import Verif.Spec.Programme
import Verif.Props.Objects

/-!
# Specification vocabulary for studies of heat pump sizes
-/

set_option autoImplicit false

namespace Verif.Spec
open Pandas Workbook Simulation HpConfig

/-- A workbook with meaningful entries, a heat pump with the simple model and a COP of at least one, no battery,
an electric auxiliary heater that both orders list, and orders that do not run the electric heater on surplus
(5) after the heat pump on imports (8 above the setpoint, 6 below). -/
structure PumpStudy (wb : Pandas.Workbook) : Prop where
  top : TopRowsEmpty wb
  sensible : Sensible wb
  model : Reads wb "Heat pump" 'D' 4 ModelName.simple
  cop : NotBelow wb "Heat pump" 'D' 12 1
  battery : ∀ s row, wb "Electrical storage" = some s → FirstComplete s [5] [0, 1] row →
    Holds wb "Electrical storage" 'C' row 0
  heater : fuelOf (excel wb "Aux heat" 'C' 6) = .ok .electric
  listed : Lists wb 8 9 ∧ Lists wb 9 9
  above : ∀ t order, Says wb "Controller" 'D' 8 t → InputText.readOrder t.toList = .ok order →
    ¬ [8, 5].Sublist order
  below : ∀ t order, Says wb "Controller" 'D' 9 t → InputText.readOrder t.toList = .ok order →
    ¬ [6, 5].Sublist order

/-- The export price written in D9 is not negative, and in no hour reported for this heat pump without a
store is the import price lower. -/
def ExportCheaper (L : Libs) (wb : Pandas.Workbook) (hp : ℤ) : Prop :=
  ∃ ex, Holds wb "Grid" 'D' 9 ex ∧ 0 ≤ ex ∧ ∀ rs, simulate L wb (hp, 0) = .ok rs →
    ∀ r ∈ rs, ex ≤ r.grid.importPrice

end Verif.Spec
