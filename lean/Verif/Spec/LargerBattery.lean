import Verif.Spec.Compare

/-!
# Specification vocabulary for comparing two sizes of battery
-/

set_option autoImplicit false

namespace Verif.Spec
open FixedOrder
variable {N : Type}

/-- The same run with a battery of at least the capacity, everything else the same (so are its ratings,
efficiencies and its initial state as a share of the capacity). -/
structure LargerBattery (S S' : RunIn N) : Prop where
  same : S' = { S with es := { S.es with capacity := S'.es.capacity } }
  capacity : S.es.capacity ≤ S'.es.capacity

/-- `[a,b] <+ order` says that `a` comes before `b`. The battery comes second to heat: it is never used by the
heat pump (7 above the setpoint, 8 below) nor charged from the grid (14 below), and it is charged from
renewables (12 above, 13 below) only after all the ways to turn them into heat (4, 5, 10, 11). -/
def HeatFirst (below : Bool) (order : List ℤ) : Prop :=
  if below then 8 ∉ order ∧ 14 ∉ order ∧ ∀ q ∈ ([4, 5, 10, 11] : List ℤ), ¬ [13, q].Sublist order
  else 7 ∉ order ∧ ∀ q ∈ ([4, 5, 10, 11] : List ℤ), ¬ [12, q].Sublist order

/-- Two batteries of the same kind with charges `s` and `s'`: the larger one holds at least as much, and is
ahead by no more than the difference in size. -/
structure Ahead (cap cap' s s' : ℚ) : Prop where
  more : s ≤ s'
  room : s' - s ≤ cap' - cap

end Verif.Spec
