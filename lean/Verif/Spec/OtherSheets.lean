import Verif.Spec.Depends
import Verif.Spec.Programme
import Verif.Spec.LargerBattery

/-!
# Workbooks that differ on some sheets only
-/

set_option autoImplicit false

namespace Verif.Spec
open Pandas

/-- The two workbooks have the same sheets, but for the ones named. -/
def SameBut (sheets : List String) (wb wb' : Pandas.Workbook) : Prop := ∀ sheet, sheet ∉ sheets → wb' sheet = wb sheet

/-- On the sheet of the heater the two workbooks agree on fuels, efficiency and energy densities; the costs of the
fuels, in column E, may differ. -/
def SameFuels (wb wb' : Pandas.Workbook) : Prop :=
  ∀ col ∈ ['C', 'D'], ∀ r ∈ [6, 9, 10, 11], excel wb "Aux heat" col r = excel wb' "Aux heat" col r

/-- The battery written on the second workbook differs from the first in capacity only, and is not smaller. -/
def LargerOnSheet (wb wb' : Pandas.Workbook) : Prop :=
  ∀ s s' row row', wb "Electrical storage" = some s → wb' "Electrical storage" = some s' →
    FirstComplete s [5] [0, 1] row → FirstComplete s' [5] [0, 1] row' →
    (∀ col ∈ ['D', 'E', 'F', 'G', 'H', 'I'],
      excel wb "Electrical storage" col row = excel wb' "Electrical storage" col row') ∧
    ∀ c c', Holds wb "Electrical storage" 'C' row c → Holds wb' "Electrical storage" 'C' row' c' → c ≤ c'

/-- On the sheet of the controller the two workbooks agree on the two orders. -/
def SameOrders (wb wb' : Pandas.Workbook) : Prop :=
  ∀ r ∈ [8, 9], excel wb "Controller" 'D' r = excel wb' "Controller" 'D' r

/-- The orders written on the sheet use the battery after heat (`HeatFirst`). -/
def HeatFirstOnSheet (wb : Pandas.Workbook) : Prop :=
  ∀ t order, InputText.readOrder (String.toList t) = .ok order →
    (Says wb "Controller" 'D' 8 t → HeatFirst false order) ∧ (Says wb "Controller" 'D' 9 t → HeatFirst true order)

/-- The columns of the tables that depend on prices. -/
def moneyColumns : List String :=
  ["opex", "cost_of_heat", "cost_elec", "lifetime_cost", "levelised_cost_of_heat", "levelised_cost_of_energy"]

end Verif.Spec
