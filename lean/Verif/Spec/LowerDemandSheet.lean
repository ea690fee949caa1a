import Verif.Spec.OtherSheets
import Verif.Spec.LowerDemand

/-!
# Workbooks that differ in heat and electric demand only
-/

set_option autoImplicit false

namespace Verif.Spec
open Pandas

/-- On the sheet of the demands the two workbooks agree on the temperatures of the heat network: flow (F) and source (G)
hour by hour, return (I6) and temperature difference of the source (I8). Heat demand (D) and electric demand (E) may differ. -/
structure SameNetwork (wb wb' : Pandas.Workbook) : Prop where
  columns : ∀ col ∈ ['F', 'G'], ∀ r, 6 ≤ r → excel wb "Demand input" col r = excel wb' "Demand input" col r
  cells : ∀ r ∈ [6, 8], excel wb "Demand input" 'I' r = excel wb' "Demand input" 'I' r
  length : lastRow wb "Demand input" = lastRow wb' "Demand input"

/-- In no hour is the heat demand (D) or the electric demand (E) of the second workbook above that of the first. -/
def LowerOnSheet (wb wb' : Pandas.Workbook) : Prop :=
  ∀ col ∈ ['D', 'E'], ∀ r, 6 ≤ r → ∀ x x', Holds wb "Demand input" col r x → Holds wb' "Demand input" col r x' → x' ≤ x

end Verif.Spec
