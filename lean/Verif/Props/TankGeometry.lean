import Verif.Model.TankGeometry
import Mathlib.Tactic.Linarith
import Mathlib.Tactic.Positivity
import Mathlib.Tactic.FieldSimp
import Mathlib.Tactic.Ring

/-!
# Properties of the tank's geometry (C67)
-/

set_option autoImplicit false

namespace Verif
open TankGeometry

theorem width_pos {c : ℝ} (hc : 0 < c) : 0 < width c := by
  unfold width
  have := Real.pi_pos
  positivity

/-- The dimensions enclose the capacity: a cylinder whose diameter is the width and whose height is the
height has the capacity as its volume. -/
theorem C67_volume_is_capacity {c : ℝ} (hc : 0 ≤ c) :
    Real.pi * (width c / 2) ^ 2 * height c = c := by
  have hpi := Real.pi_pos
  have hx : 0 ≤ c / (2.5 * Real.pi) := by positivity
  have hcube : ((c / (2.5 * Real.pi)) ^ ((1 : ℝ) / 3)) ^ 3 = c / (2.5 * Real.pi) := by
    rw [← Real.rpow_natCast, ← Real.rpow_mul hx]
    norm_num
  unfold height width
  generalize (c / (2.5 * Real.pi)) ^ ((1 : ℝ) / 3) = r at hcube
  have : Real.pi * (2 * r / 2) ^ 2 * (0.5 * 2.5 * (2 * r)) = 2.5 * Real.pi * r ^ 3 := by ring
  rw [this, hcube]
  field_simp

/-- The insulation is thinner than the tank is wide, and the wall never conducts a negative amount:
with positive capacity and non-negative correction factors the loss factor is non-negative, and positive
with positive factors. -/
theorem C67_wall_nonneg {Fe Fi c : ℝ} (hc : 0 < c) (he : 0 ≤ Fe) (hi : 0 ≤ Fi) :
    0 < internalRadius c ∧ internalRadius c < width c ∧ 0 ≤ wall Fe Fi c ∧
      (0 < Fe → 0 < Fi → 0 < wall Fe Fi c) := by
  have hw := width_pos hc
  have hpi := Real.pi_pos
  have h1 : internalRadius c = 7 / 8 * width c := by unfold internalRadius thickness; ring
  have h2 : 0 < height c := by unfold height; positivity
  have h3 : 0 < width c - internalRadius c := by rw [h1]; linarith
  have h4 : 0 < internalRadius c := by rw [h1]; linarith
  have h5 : 0 < 1 / (width c - internalRadius c) := by positivity
  have h6 : 0 < internalRadius c ^ 2 + height c * (width c + internalRadius c) := by positivity
  refine ⟨h4, by linarith, ?_, fun hFe hFi => ?_⟩
  · unfold wall
    dsimp only
    positivity
  · unfold wall
    dsimp only
    positivity

example : 0 ≤ wall 1 1 300 := (C67_wall_nonneg (by norm_num) (by norm_num) (by norm_num)).2.2.1

/-- Against the claim: the loss formula takes the width, a diameter, for the outer radius. Computed with
the real radii (half the width outside, less the insulation inside) the loss factor is strictly smaller. -/
theorem C67_losses_use_diameter {c : ℝ} (hc : 0 < c) :
    (1 / (width c / 2 - (width c / 2 - thickness c))) * Real.pi *
        ((width c / 2 - thickness c) ^ 2 +
          height c * (width c / 2 + (width c / 2 - thickness c)))
      < wall 1 1 c := by
  have hw := width_pos hc
  have hpi := Real.pi_pos
  unfold wall internalRadius thickness height
  dsimp only
  generalize width c = w at hw
  have e1 : 1 / (w / 2 - (w / 2 - w / 8)) * Real.pi *
      ((w / 2 - w / 8) ^ 2 + 0.5 * 2.5 * w * (w / 2 + (w / 2 - w / 8)))
      = Real.pi * w * (8 * (9 / 64 + 1.25 * (7 / 8))) := by
    field_simp
    ring
  have e2 : 1 * 1 * (1 / (w - (w - w / 8))) * Real.pi *
      ((w - w / 8) ^ 2 + 0.5 * 2.5 * w * (w + (w - w / 8)))
      = Real.pi * w * (8 * (49 / 64 + 1.25 * (15 / 8))) := by
    field_simp
    ring
  rw [e1, e2]
  apply mul_lt_mul_of_pos_left _ (by positivity)
  norm_num

example := C67_losses_use_diameter (c := 300) (by norm_num)

/-- Opening losses are never negative for non-negative numbers and diameters, and positive as soon as
there is an opening. -/
theorem C67_openings_nonneg {o : Openings} (h1 : 0 ≤ o.opening) (h2 : 0 ≤ o.uninsulated)
    (h3 : 0 ≤ o.uninsulatedD) (h4 : 0 ≤ o.insulated) (h5 : 0 ≤ o.insulatedD) :
    0 ≤ connectionLosses o ∧ (0 < o.opening → o.openingD ≠ 0 → 0 < connectionLosses o) := by
  have hpi := Real.pi_pos
  unfold connectionLosses
  refine ⟨by positivity, fun h6 h7 => by positivity⟩

/-- **Every connection counts by its own kind**: one more opening, uninsulated connection or insulated connection adds the
loss of one connection of that kind and of that kind's diameter, whatever the others are. Without connections there is no
loss. -/
theorem C67_each_connection (o : Openings) :
    connectionLosses { o with opening := 0, uninsulated := 0, insulated := 0 } = 0 ∧
    connectionLosses { o with opening := o.opening + 1 } =
      connectionLosses o + 3600 * (Real.pi * (o.openingD / 1000) ^ 2 / 4 * (27 / 0.024)) ∧
    connectionLosses { o with uninsulated := o.uninsulated + 1 } =
      connectionLosses o + 3600 * (o.uninsulatedD / 1000 * (5 / 0.024)) ∧
    connectionLosses { o with insulated := o.insulated + 1 } =
      connectionLosses o + 3600 * (o.insulatedD / 1000 * (3.5 / 0.024)) := by
  unfold connectionLosses
  refine ⟨?_, ?_, ?_, ?_⟩ <;> dsimp only <;> ring

example : connectionLosses ⟨0, 100, 2 + 1, 20, 0, 0⟩ =
    connectionLosses ⟨0, 100, 2, 20, 0, 0⟩ + 3600 * (20 / 1000 * (5 / 0.024)) :=
  (C67_each_connection ⟨0, 100, 2, 20, 0, 0⟩).2.2.1

example : Real.pi * (width 300 / 2) ^ 2 * height 300 = 300 := C67_volume_is_capacity (by norm_num)

example : 0 < connectionLosses ⟨1, 100, 2, 20, 0, 0⟩ :=
  (C67_openings_nonneg (by norm_num) (by norm_num) (by norm_num) (by norm_num) (by norm_num)).2
    (by norm_num) (by norm_num)

end Verif
