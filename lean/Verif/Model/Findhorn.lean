import Verif.Model.Grid

/-!
# The tariff for Findhorn

`Grid.findhorn_tariff`, `/repo/pylesa/power/grid.py` L263-285. Nothing in the program calls it. It shows a plot and
returns nothing; the model gives the plotted prices.
-/

set_option autoImplicit false

namespace Verif
namespace Tariff

/-- Body of the loop, L278-282: a missing row of the file is a `KeyError`, `vp` is a list. -/
def findhornHour (vp net : List ℚ) (t : ℕ) : Except PyErr ℚ := do
  let n ← column net t
  if n ≥ 50 then return 30 else position vp t

/-- `findhorn_tariff`, grid.py L263-285. `csv` is the file `data/FindImEx.csv`, its rows as import and export; `none` if it
is not there. Entries that are not numbers are outside the model. -/
def findhornTariff (g : Grid) (csv : Option (List (ℚ × ℚ))) : Except PyErr (List ℚ) := do
  let vp ← variablePeriodsSeries g
  match csv with
  | none => .error .fileNotFoundError
  | some rows => (List.range 8760).mapM (findhornHour vp (rows.map fun r => r.2 - r.1))

end Tariff
end Verif
