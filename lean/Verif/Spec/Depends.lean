import Verif.Spec.Weather

/-!
# The cells of the workbook a fixed order run depends on

Two workbooks agree on the used cells if these are the same. All the other cells may differ.
-/

set_option autoImplicit false

namespace Verif
open Pandas
namespace Spec

/-- The last used row of a sheet. -/
def lastRow (wb : Pandas.Workbook) (sheet : String) : ℕ :=
  match wb sheet with
  | none => 0
  | some s => s.height

/-- The sheets have the same used range and entries in the same places (not necessarily the same entries). -/
def SameShape (wb wb' : Pandas.Workbook) (sheet : String) : Prop :=
  ∀ s s', wb sheet = some s → wb' sheet = some s' → s.width = s'.width ∧ s.height = s'.height ∧
    ∀ r k, (s.cell r k).isSome = (s'.cell r k).isSome

/-- Single cells that are used: sheet, column, rows. -/
def usedCells : List (String × Char × List ℕ) :=
  [("Controller", 'D', [7, 8, 9]), ("Controller", 'G', [5, 6]),
   ("Demand input", 'I', [6, 8]),
   ("Wind farm", 'C', [15]), ("Wind farm", 'D', [15]), ("Wind farm", 'E', [15]), ("Wind farm", 'F', [15]),
   ("Wind farm", 'G', [15]),
   ("Grid", 'D', [5, 9]), ("Grid", 'C', [9]), ("Grid", 'G', [9]), ("Grid", 'H', [9]), ("Grid", 'J', [9]),
   ("Grid", 'K', [9]), ("Grid", 'L', [9]), ("Grid", 'M', [9]), ("Grid", 'N', [42]),
   ("Aux heat", 'C', [6, 9, 10, 11]), ("Aux heat", 'D', [6, 9, 10, 11]), ("Aux heat", 'E', [9, 10, 11]),
   ("Thermal storage", 'D', [6, 7, 8, 14, 15, 16, 17, 18, 19, 22, 23]),
   ("Heat pump", 'D', [3, 4, 5, 6, 7, 8, 9, 12, 15, 16, 17, 18, 19, 20])]

/-- Columns that are used from a row down to the end of the sheet. -/
def usedColumns : List (String × Char × ℕ) :=
  [("Weather resources", 'D', 6), ("Weather resources", 'E', 6), ("Weather resources", 'F', 6),
   ("Weather resources", 'G', 6), ("Weather resources", 'H', 6), ("Weather resources", 'I', 6),
   ("Weather resources", 'J', 6), ("Weather resources", 'K', 6), ("Weather resources", 'M', 6),
   ("Demand input", 'D', 6), ("Demand input", 'E', 6), ("Demand input", 'F', 6), ("Demand input", 'G', 6),
   ("Wind farm", 'C', 20), ("Wind farm", 'D', 20), ("Wind farm", 'E', 20), ("Wind farm", 'F', 20),
   ("Wind farm", 'G', 20), ("Grid", 'C', 12)]

/-- The two workbooks agree on everything a run with the fixed order controller uses. -/
structure SameUsed (wb wb' : Pandas.Workbook) : Prop where
  cells : ∀ x ∈ usedCells, ∀ r ∈ x.2.2, excel wb x.1 x.2.1 r = excel wb' x.1 x.2.1 r
  columns : ∀ x ∈ usedColumns, ∀ r, x.2.2 ≤ r → excel wb x.1 x.2.1 r = excel wb' x.1 x.2.1 r
  lengths : ∀ sheet ∈ ["Weather resources", "Demand input", "Wind farm", "Grid"],
    lastRow wb sheet = lastRow wb' sheet
  /-- The prices by weekday and hour. -/
  prices : ∀ d hour, hour < 24 → excel wb "Grid" (dayLetter d) (18 + hour) =
    excel wb' "Grid" (dayLetter d) (18 + hour)
  /-- The test data of the heat pump. -/
  tests : ∀ col ∈ ['C', 'D', 'E', 'F', 'G', 'H', 'I', 'J'], ∀ r, 23 ≤ r → r ≤ 47 →
    excel wb "Heat pump" col r = excel wb' "Heat pump" col r
  /-- The row of the battery that is used. -/
  batteryShape : SameShape wb wb' "Electrical storage"
  battery : ∀ s row, wb "Electrical storage" = some s → FirstComplete s [5] [0, 1] row →
    ∀ col ∈ ['C', 'D', 'E', 'F', 'G', 'H', 'I'],
      excel wb "Electrical storage" col row = excel wb' "Electrical storage" col row
  /-- The tables of the turbines. -/
  turbineShape : SameShape wb wb' "Wind inputs"
  turbines : ∀ col ∈ ['C', 'D', 'E', 'F', 'G'], ∀ r,
    excel wb "Wind inputs" col r = excel wb' "Wind inputs" col r
  /-- Of the row of the panels that is used: module, multiplier, tilt and azimuth. -/
  panelShape : SameShape wb wb' "PV inputs"
  panels : ∀ s row, wb "PV inputs" = some s → FirstComplete s [19] [0, 1] row →
    ∀ col ∈ ['C', 'E', 'F', 'G'], excel wb "PV inputs" col row = excel wb' "PV inputs" col row
  /-- Of the row of the site that is used: latitude and longitude. -/
  site : ∀ s row, wb "PV inputs" = some s → FirstComplete s [15, 19, 20] [0, 1, 6, 7] row →
    ∀ col ∈ ['D', 'E'], excel wb "PV inputs" col row = excel wb' "PV inputs" col row

end Spec
end Verif
