import Verif.Spec.MpcPlan
import Verif.Spec.Compare
import Verif.Spec.Kpi

/-!
# Specification vocabulary for the two controllers run on the same data
-/

set_option autoImplicit false

namespace Verif.Spec
open FixedOrder
variable {N M : Type}

/-- The fixed order controller and the predictive one are given the same data, except perhaps for the stores. -/
structure SameButStores (R : RunIn N) (S : MpcIn M) : Prop where
  hp : S.hp = R.hp
  aux : S.aux = R.aux
  exportPrice : S.exportPrice = R.exportPrice
  generation : ∀ t x, (generation R)[t]? = some x → S.generation t = x
  elecDemand : ∀ t x, R.elecDemand[t]? = some x → S.elecDemand t = x
  heatDemand : ∀ t x, R.heatDemand[t]? = some x → S.heatDemand t = x
  importCost : ∀ t x, R.importPrice[t]? = some x → S.importCost t = x
  perf : ∀ t x, R.perf[t]? = some x → S.perf t = x
  peak : S.peakHeatDemand = listMax R.heatDemand

/-- They are given the same data. -/
structure SameData (R : RunIn N) (S : MpcIn M) : Prop extends SameButStores R S where
  es : S.es = R.es

/-- One hour of both: the demand takes `used` of the generation first, the rest is surplus or deficit. -/
structure SameInputs (P : Plant N) (i : StepIn N) (S : MpcIn M) (t : ℕ) (used : ℚ) : Prop where
  used_nonneg : 0 ≤ used
  generation : S.generation t = used + i.surplus
  elecDemand : S.elecDemand t = used + i.deficit
  heatDemand : S.heatDemand t = i.heatDemand
  importCost : S.importCost t = i.importPrice
  perf : S.perf t = i.perf
  aux : S.aux = P.aux
  exportPrice : S.exportPrice = P.exportPrice
  peak : S.peakHeatDemand = P.peakHeatDemand

/-- An order of processes that leaves no demand unmet: it has 'Import to demand' and 'Aux to demand'. -/
def ServesAll (below : Bool) (order : List ℤ) : Prop :=
  (numbers below).importToDemand ∈ order ∧ (numbers below).auxToDemand ∈ order

/-- A run of the fixed order controller without stores that leaves no demand unmet: meaningful inputs, an electric
heater, a heat pump whose minimum output is no more than its duty, orders without repetition that serve every demand
and export what is left (unless exports cost nothing). -/
structure PlainRun (R : RunIn N) : Prop where
  ok : RunOk R
  stores : RunNoStores R
  energy : EnergyNonneg R
  electric : R.aux.electric = true
  minimum : R.hp.minimumOutput * R.hp.minimumRuntime ≤ 6000
  above_nodup : R.orderAbove.Nodup
  below_nodup : R.orderBelow.Nodup
  above : ServesAll false R.orderAbove
  below : ServesAll true R.orderBelow
  exports : 0 ≤ R.exportPrice ∨
    (numbers false).resToExport ∈ R.orderAbove ∧ (numbers true).resToExport ∈ R.orderBelow

end Verif.Spec
