import Mathlib.Analysis.SpecialFunctions.Pow.Real
import Mathlib.Analysis.Real.Pi.Bounds

/-!
# Geometry of the hot water tank (`/repo/pylesa/storage/hot_water_tank.py`)

Over the reals, because of the cube root and pi.
-/

set_option autoImplicit false

namespace Verif.TankGeometry

/-- `dimensions['width']`, L62. -/
noncomputable def width (capacity : ℝ) : ℝ := 2 * (capacity / (2.5 * Real.pi)) ^ ((1 : ℝ) / 3)

/-- `dimensions['height']`, L63. -/
noncomputable def height (capacity : ℝ) : ℝ := 0.5 * 2.5 * width capacity

/-- `dimensions['insulation_thickness']`, L66. -/
noncomputable def thickness (capacity : ℝ) : ℝ := width capacity / 8

/-- `internal_radius`, L138-146. -/
noncomputable def internalRadius (capacity : ℝ) : ℝ := width capacity - thickness capacity

/-- Factor of the temperature difference in `coefficient_A`, L515-516, without the conductivity:
`Fe * Fi * 1 / (r2 - r1) * pi * (r1^2 + h * (r2 + r1))`; `r2` is the width (L504). -/
noncomputable def wall (Fe Fi capacity : ℝ) : ℝ :=
  let r1 := internalRadius capacity
  let r2 := width capacity
  let h := height capacity
  Fe * Fi * (1 / (r2 - r1)) * Real.pi * (r1 ^ 2 + h * (r2 + r1))

/-- `tank_openings`, L36-43: numbers and diameters in mm. -/
structure Openings where
  opening : ℝ
  openingD : ℝ
  uninsulated : ℝ
  uninsulatedD : ℝ
  insulated : ℝ
  insulatedD : ℝ

/-- `connection_losses`, L381-414. -/
noncomputable def connectionLosses (o : Openings) : ℝ :=
  3600 * (((o.openingD * 0.001) ^ 2 * Real.pi * o.opening * 27 / (4 * 0.024))
    + (o.uninsulatedD * 0.001 * o.uninsulated * 5 / 0.024)
    + (o.insulatedD * 0.001 * o.insulated * 3.5 / 0.024))

end Verif.TankGeometry
