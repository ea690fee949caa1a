import Verif.Model.TankSolver
import Verif.Spec.Tank

/-!
# Specification vocabulary for the tank's integrator
-/

set_option autoImplicit false

namespace Verif.Spec
open Tank

/-- The integrator returns as many temperatures as it is given. -/
def KeepsNumber (ode : Solver) : Prop := ∀ start rates, start.length = rates.length → (ode start rates).length = start.length

/-- The integrator is off by at most `ε` degrees in each layer. -/
def AccurateTo (ε : ℚ) (ode : Solver) : Prop := KeepsNumber ode ∧ ∀ start rates, start.length = rates.length →
  ∀ i (h : i < start.length) (h' : i < rates.length) (h'' : i < (ode start rates).length),
    |(ode start rates)[i] - (start[i] + rates[i])| ≤ ε

/-- Two profiles differ by at most `ε` degrees, layer by layer. -/
def Close (ε : ℚ) (a b : List ℚ) : Prop := List.Forall₂ (fun x y => |x - y| ≤ ε) a b

/-- An integrator that returns every temperature `ε` too low. -/
def lowBy (ε : ℚ) : Solver := fun start rates => (exactSolver start rates).map (· - ε)

end Verif.Spec
