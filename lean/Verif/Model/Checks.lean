import Verif.Base

/-!
# Hourly matching, monthly splits, balance checks (`/repo/pylesa/tools.py`)

`electrical_surplus_deficit` exists twice, in tools.py L106-151 (used by the predictive
controller) and in controllers/fixed_order.py L1262-1308; both are modelled.
Series are lists indexed from 0.
-/

set_option autoImplicit false

namespace Verif
namespace Tools

/-- One row of the data frame returned by `electrical_surplus_deficit`. -/
structure Row where
  mtch : ℚ
  deficit : ℚ
  surplus : ℚ
  resUsed : ℚ
  deriving DecidableEq

/-- Body of the loop, tools.py L128-145. -/
def splitHour (gen dem : ℚ) : Row :=
  let m := gen - dem
  if m ≤ 0 then { mtch := m, deficit := -1 * m, surplus := 0, resUsed := min gen dem }
  else { mtch := m, deficit := 0, surplus := m, resUsed := min gen dem }

/-- Body of the loop of the second copy, fixed_order.py L1284-1301. -/
def splitHourFixed (gen dem : ℚ) : Row :=
  let m := gen - dem
  if m ≤ 0 then { mtch := m, deficit := -1 * m, surplus := 0, resUsed := min gen dem }
  else { mtch := m, deficit := 0, surplus := m, resUsed := min gen dem }

/-- `electrical_surplus_deficit`, tools.py L106-151. The loop runs over 8760 hours, so a shorter series is a `KeyError`; a longer one gives columns of unequal
length, which `pd.DataFrame` rejects with `ValueError`. -/
def surplusDeficit (gen dem : List ℚ) : Except PyErr (List Row) :=
  if gen.length < 8760 ∨ dem.length < 8760 then .error .keyError
  else if gen.length > 8760 ∨ dem.length > 8760 then .error .valueError
  else .ok (List.zipWith splitHour gen dem)

/-- `electrical_surplus_deficit`, fixed_order.py L1262-1308. -/
def surplusDeficitFixed (gen dem : List ℚ) : Except PyErr (List Row) :=
  if gen.length < 8760 ∨ dem.length < 8760 then .error .keyError
  else if gen.length > 8760 ∨ dem.length > 8760 then .error .valueError
  else .ok (List.zipWith splitHourFixed gen dem)

/-- Python slice `year[a:b]`. -/
def slice {α : Type} (year : List α) (a b : ℕ) : List α := (year.take b).drop a

/-- `month_split`, tools.py L20-36. -/
def monthSplit {α : Type} (year : List α) : List (String × List α) :=
  [("jan", slice year 0 744),
   ("feb", slice year 744 1416),
   ("mar", slice year 1416 2160),
   ("apr", slice year 2160 2880),
   ("may", slice year 2880 3624),
   ("jun", slice year 3624 4344),
   ("jul", slice year 4344 5088),
   ("aug", slice year 5088 5832),
   ("sep", slice year 5832 6552),
   ("oct", slice year 6552 7296),
   ("nov", slice year 7296 8016),
   ("dec", slice year 8016 8760)]

/-- `sum_monthly`, tools.py L39-55. -/
def sumMonthly (year : List ℚ) : List (String × ℚ) :=
  [("jan", (slice year 0 744).sum / 1000),
   ("feb", (slice year 744 1416).sum / 1000),
   ("mar", (slice year 1416 2160).sum / 1000),
   ("apr", (slice year 2160 2880).sum / 1000),
   ("may", (slice year 2880 3624).sum / 1000),
   ("jun", (slice year 3624 4344).sum / 1000),
   ("jul", (slice year 4344 5088).sum / 1000),
   ("aug", (slice year 5088 5832).sum / 1000),
   ("sep", (slice year 5832 6552).sum / 1000),
   ("oct", (slice year 6552 7296).sum / 1000),
   ("nov", (slice year 7296 8016).sum / 1000),
   ("dec", (slice year 8016 8760).sum / 1000)]

/-- `values.mean()` of a non-empty list. numpy returns nan for an empty one, which is outside
the model. -/
def mean (l : List ℚ) : ℚ := l.sum / l.length

/-- `mean_monthly`, tools.py L58-74. -/
def meanMonthly (year : List ℚ) : List (String × ℚ) :=
  [("jan", mean (slice year 0 744)),
   ("feb", mean (slice year 744 1416)),
   ("mar", mean (slice year 1416 2160)),
   ("apr", mean (slice year 2160 2880)),
   ("may", mean (slice year 2880 3624)),
   ("jun", mean (slice year 3624 4344)),
   ("jul", mean (slice year 4344 5088)),
   ("aug", mean (slice year 5088 5832)),
   ("sep", mean (slice year 5832 6552)),
   ("oct", mean (slice year 6552 7296)),
   ("nov", mean (slice year 7296 8016)),
   ("dec", mean (slice year 8016 8760))]

/-- `sum_year`, tools.py L77-78. -/
def sumYear (year : List ℚ) : ℚ := year.sum

/-- `mean_year`, tools.py L81-82. -/
def meanYear (year : List ℚ) : ℚ := mean year

/-- Outcome of a balance check: in tools.py a negative remainder falls off the end of the
function (`None`), in fixed_order.py it raises `SystemExit`. -/
abbrev CheckResult := Except PyErr (Option Bool)

/-- `heat_demand_check` of fixed_order.py L1309-1341: `True` if the demand is met. -/
def heatDemandCheck (heatDemand heatGenerated : ℚ) : CheckResult :=
  let met := pyRound (pyRound heatDemand 2 - pyRound heatGenerated 2) 1
  if met = 0 then .ok (some true)
  else if met > 0 then .ok (some false)
  else .error .systemExit

/-- `heat_demand_check` of tools.py L153-185. -/
def heatDemandCheckTools (heatDemand heatGenerated : ℚ) : CheckResult :=
  let met := pyRound (pyRound heatDemand 2 - pyRound heatGenerated 2) 1
  if met = 0 then .ok (some true)
  else if met > 0 then .ok (some false)
  else .ok none

/-- `surplus_check` of fixed_order.py L1343-1368 and, with the same text, `deficit_check`
L1370-1393: `True` if something is left over. -/
def leftoverCheck (total used : ℚ) : CheckResult :=
  let left := pyRound (pyRound total 2 - pyRound used 2) 2
  if left > 0 then .ok (some true)
  else if left = 0 then .ok (some false)
  else .error .systemExit

/-- `surplus_check` and `deficit_check` of tools.py L187-236. -/
def leftoverCheckTools (total used : ℚ) : CheckResult :=
  let left := pyRound (pyRound total 2 - pyRound used 2) 2
  if left > 0 then .ok (some true)
  else if left = 0 then .ok (some false)
  else .ok none

end Tools
end Verif
