import Verif.Model.Frame
import Verif.Model.Grid
import Verif.Model.Regression

/-!
# Vocabulary for the workbook

Cells are named as Excel shows them: sheet, column letter, row number.
-/

set_option autoImplicit false

namespace Verif
open Pandas
namespace Spec

/-- The cell of a sheet, e.g. `excel wb "Heat pump" 'D' 5`; empty if there is no such sheet. -/
def excel (wb : Pandas.Workbook) (sheet : String) (col : Char) (row : ℕ) : Value :=
  match wb sheet with
  | none => none
  | some s => s.cell row (col.toNat - 'A'.toNat)

/-- The cell holds the number `x`. -/
def Holds (wb : Pandas.Workbook) (sheet : String) (col : Char) (row : ℕ) (x : ℚ) : Prop :=
  excel wb sheet col row = some (.num x)

/-- The cell holds the text `s`. -/
def Says (wb : Pandas.Workbook) (sheet : String) (col : Char) (row : ℕ) (s : String) : Prop :=
  excel wb sheet col row = some (.text s)

/-- The top row of every sheet is empty, as in the template of the program (its column names are the
names pandas gives to columns without one). -/
def TopRowsEmpty (wb : Pandas.Workbook) : Prop := ∀ name s, wb name = some s → ∀ k, s.cell 1 k = none

/-- There is such a sheet and its used range goes at least to this column and this row. -/
def Reaches (wb : Pandas.Workbook) (sheet : String) (col : Char) (row : ℕ) : Prop :=
  ∃ s, wb sheet = some s ∧ col.toNat - 'A'.toNat + 1 ≤ s.width ∧ row ≤ s.height

/-- The series is the column of numbers from `row` down to the end of the sheet, in order. -/
def Hourly (wb : Pandas.Workbook) (sheet : String) (col : Char) (row : ℕ) (xs : List ℚ) : Prop :=
  ∃ s, wb sheet = some s ∧ xs.length = s.height + 1 - row ∧
    ∀ (t : ℕ) (x : ℚ), xs[t]? = some x → Holds wb sheet col (row + t) x

/-- The row has an entry in every used column, apart from the columns `skip` (counted from 0). -/
def FullRow (s : Sheet) (skip : List ℕ) (row : ℕ) : Prop :=
  ∀ k < s.width, k ∉ skip → (s.cell row k).isSome

instance (s : Sheet) (skip : List ℕ) (row : ℕ) : Decidable (FullRow s skip row) :=
  inferInstanceAs (Decidable (∀ k < s.width, k ∉ skip → (s.cell row k).isSome))

/-- The complete rows below the top row, apart from the rows `skipRows`, from top to bottom. -/
def completeRows (s : Sheet) (skipRows skipCols : List ℕ) : List ℕ :=
  ((List.range (s.height - 1)).map (· + 2)).filter (fun r => r ∉ skipRows ∧ FullRow s skipCols r)

/-- The row is the first one below the top row, apart from the rows `skipRows`, with an entry in every
used column apart from `skipCols`. -/
structure FirstComplete (s : Sheet) (skipRows skipCols : List ℕ) (row : ℕ) : Prop where
  inside : 2 ≤ row ∧ row ≤ s.height
  notSkipped : row ∉ skipRows
  complete : FullRow s skipCols row
  earlier : ∀ r, 2 ≤ r → r < row → r ∉ skipRows → ¬ FullRow s skipCols r

/-- The column of a weekday in the table of prices by hour, on the sheet "Grid". -/
def dayLetter : Tariff.Weekday → Char
  | .monday => 'H'
  | .tuesday => 'I'
  | .wednesday => 'J'
  | .thursday => 'K'
  | .friday => 'L'
  | .saturday => 'M'
  | .sunday => 'N'

/-- The test point in row `r` of a table of the heat pump sheet starting at column `c`, measured at the
flow temperature `flow`: ambient temperature, performance and duty, if the row is filled in. The duty is
multiplied by `scale`. -/
def testPoint (s : Sheet) (scale : ℚ) (flow : Value) (c r : ℕ) : Option Standard.Point :=
  match s.cell r c, s.cell r (c + 1), s.cell r (c + 2), s.cell r (c + 3), flow with
  | some (.num a), some (.num p), some (.num d), some _, some (.num f) => some ⟨a, f, p, d * scale⟩
  | _, _, _, _, _ => none

/-- The test points of the four tables: the rows 27 to 34 with the flow temperatures in D23 and H23, and
the rows 41 to 47 with those in D36 and H36. -/
def testPoints (s : Sheet) (scale : ℚ) : List Standard.Point :=
  let upper := (List.range 8).map (· + 27)
  let lower := (List.range 7).map (· + 41)
  upper.filterMap (testPoint s scale (s.cell 23 3) 2) ++
  upper.filterMap (testPoint s scale (s.cell 23 7) 6) ++
  lower.filterMap (testPoint s scale (s.cell 36 3) 2) ++
  lower.filterMap (testPoint s scale (s.cell 36 7) 6)

/-- Nothing is written in the rows of the test tables that lie below the used range of the sheet. (Row
47 is the last row of these tables.) -/
def EndsEmpty (s : Sheet) : Prop := ∀ r c, s.height < r → r ≤ 47 → s.cell r c = none

/-- The sheet "Heat pump", if there is one, ends like that. -/
def TailEmpty (wb : Workbook) : Prop := ∀ s, wb "Heat pump" = some s → EndsEmpty s

/-- The tariffs that include the power of a wind farm. -/
def ppa : List String := ["Time of use - PPA + FR", "Time of use - PPA + WM", "Time of use - PPA + VP"]

end Spec
end Verif
