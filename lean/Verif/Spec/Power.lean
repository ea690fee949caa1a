import Verif.Spec.Depends
import Verif.Spec.Grid
import Verif.Model.Simulation

/-!
# What the power of panels and turbines and the import prices need from the workbook and the libraries
-/

set_option autoImplicit false

namespace Verif
open Pandas Simulation Workbook
namespace Spec

/-- The library for wind farms gives a value for each hour of the year, if it gives any. -/
def FarmYear (L : Libs) : Prop := ∀ a b c d e w xs, L.windFarm a b c d e w = .ok xs → xs.length = 8760

/-- The number of panels is written; with panels the three irradiances have no gap and pvlib succeeds. -/
def PanelsReady (L : Libs) (wb : Pandas.Workbook) : Prop :=
  ∀ s row site name, wb "PV inputs" = some s → FirstComplete s [19] [0, 1] row →
    FirstComplete s [15, 19, 20] [0, 1, 6, 7] site → Says wb "PV inputs" 'C' row name →
    ∃ m, Holds wb "PV inputs" 'E' row m ∧ (m ≠ 0 →
      (∀ col ∈ ['D', 'E', 'F'], NoGap (entries wb "Weather resources" col 6)) ∧
      ∃ ac, L.pvAc (pvName name) "iPower__SHO_4_8__240V_" (excel wb "PV inputs" 'F' row) (excel wb "PV inputs" 'G' row)
        (excel wb "PV inputs" 'D' site) (excel wb "PV inputs" 'E' site)
        (entries wb "Weather resources" 'D' 6) (entries wb "Weather resources" 'E' 6)
        (entries wb "Weather resources" 'F' 6) none none = .ok ac ∧ 8760 ≤ ac.length)

/-- The number of turbines is written; with turbines windpowerlib succeeds. -/
def TurbinesReady (L : Libs) (wb : Pandas.Workbook) : Prop :=
  ∀ s, wb "Wind inputs" = some s →
    (∀ row, FirstComplete s [19] [0, 1] row → ∃ m, Holds wb "Wind inputs" 'F' row m ∧ (m ≠ 0 →
      ∃ p, L.userTurbine (excel wb "Wind inputs" 'G' row) (excel wb "Wind inputs" 'D' row)
        (excel wb "Wind inputs" 'E' row) ((completeRows s [14, 15, 19, 20, 23] [0, 1, 4, 5, 6]).map
          (fun r => (excel wb "Wind inputs" 'D' r, excel wb "Wind inputs" 'C' r))) (siteWind wb) = .ok p)) ∧
    (∀ row, FirstComplete s [14, 19, 20] [0, 1, 6] row → ∃ m, Holds wb "Wind inputs" 'F' row m ∧ (m ≠ 0 →
      ∃ p, L.dataTurbine (excel wb "Wind inputs" 'C' row) (excel wb "Wind inputs" 'D' row)
        (excel wb "Wind inputs" 'E' row) (siteWind wb) = .ok p))

/-- The prices of the tariff cover the year; for a purchase agreement the two exceedances are whole percents,
the number of turbines of the farm is written, and with turbines there is a year of weather for it and
windpowerlib succeeds. -/
structure PricesReady (L : Libs) (wb : Pandas.Workbook) (t : String) : Prop where
  year : t = "Variable periods" ∨ t = "Time of use - PPA + VP" →
    ∀ y : ℤ, Holds wb "Grid" 'N' 42 y → 1 ≤ y ∧ y ≤ 9999
  market : t = "Time of use - WM" ∨ t = "Time of use - PPA + WM" → 8771 ≤ lastRow wb "Grid"
  percents : t ∈ Spec.ppa → ∀ col ∈ ['J', 'K'], ∃ p, Holds wb "Grid" col 9 p ∧ WholePercent p
  farm : t ∈ Spec.ppa → ∃ m, Holds wb "Wind farm" 'F' 15 m ∧ (m ≠ 0 → lastRow wb "Wind farm" = 8779 ∧
    ∃ p, L.windFarm (excel wb "Wind farm" 'C' 15) (excel wb "Wind farm" 'D' 15)
      (excel wb "Wind farm" 'E' 15) (excel wb "Wind farm" 'F' 15) (excel wb "Wind farm" 'G' 15)
      (farmWind wb) = .ok p)

end Spec
end Verif
