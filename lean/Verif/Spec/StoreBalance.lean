import Verif.Spec.Serves

/-!
# Specification vocabulary for the heat a store holds
-/

set_option autoImplicit false

namespace Verif.Spec

/-- The heat in the layers above the temperature of the air, kWh, when a kg of water needs `cp` J per degree. -/
def heatAbove (tk : Tank) (cp air : ℚ) (nodes : List ℚ) : ℚ :=
  tk.nodeMass * cp * (nodes.map (· - air)).sum / 3600000

/-- Hours of a span in which electricity is no dearer than the setpoint. -/
def cheapHours (prices : List ℚ) (setpoint : ℚ) (first n : ℕ) : ℕ :=
  ((prices.drop first).take n).countP (fun p => decide (p ≤ setpoint))

end Verif.Spec
