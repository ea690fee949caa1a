import Verif.Spec.Workbook

/-!
# Vocabulary for the weather series
-/

set_option autoImplicit false

namespace Verif
open Pandas
namespace Spec

/-- The entries of a column from `row` down to the end of the sheet, in order. -/
def entries (wb : Pandas.Workbook) (sheet : String) (col : Char) (row : ℕ) : List Value :=
  match wb sheet with
  | none => []
  | some s => (List.range (s.height + 1 - row)).map (fun t => excel wb sheet col (row + t))

/-- The series have an entry for each hour of the year and no others. -/
def NoGap (xs : List Value) : Prop := xs.length = 8760 ∧ ∀ x ∈ xs, x.isSome

/-- What windpowerlib is given: five series, named by quantity and height, without those that have no
entry at all. -/
def windSeries (wind10 wind50 roughness pressure air : List Value) : List (String × List Value) :=
  [("wind_speed 10", wind10), ("temperature 10", air), ("pressure 0", pressure),
   ("roughness_length 10", roughness), ("wind_speed 50", wind50)].filter (fun p => p.2.any Option.isSome)

/-- The weather at the site: columns G to K of the sheet "Weather resources" from row 6. -/
def siteWind (wb : Pandas.Workbook) : List (String × List Value) :=
  windSeries (entries wb "Weather resources" 'G' 6) (entries wb "Weather resources" 'H' 6)
    (entries wb "Weather resources" 'I' 6) (entries wb "Weather resources" 'J' 6)
    (entries wb "Weather resources" 'K' 6)

/-- The weather at the wind farm: columns C to G of the sheet "Wind farm" from row 20. -/
def farmWind (wb : Pandas.Workbook) : List (String × List Value) :=
  windSeries (entries wb "Wind farm" 'C' 20) (entries wb "Wind farm" 'D' 20)
    (entries wb "Wind farm" 'E' 20) (entries wb "Wind farm" 'F' 20) (entries wb "Wind farm" 'G' 20)

end Spec
end Verif
