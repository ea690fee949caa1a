import Verif.Model.Lorentz
import Mathlib.Analysis.Convex.Slope
import Mathlib.Tactic.NormNum
import Mathlib.Tactic.FieldSimp
import Mathlib.Tactic.Linarith
import Mathlib.Tactic.Positivity

/-!
# Properties of the Lorentz model (C16)
-/

set_option autoImplicit false

namespace Verif
open Lorentz

namespace Spec

/-- C16: temperatures of a heat pump that lifts heat from a source cooled from `ambIn` to `ambOut` to a
sink heated from `ret` to `flow`, in degrees Celsius. -/
structure Lifts (flow ret ambIn ambOut : ℝ) : Prop where
  zero : -273.15 < ambOut
  source : ambOut < ambIn
  lift : ambIn < ret
  sink : ret < flow

/-- C16: a specification point. -/
structure LorentzOk (s : Lorentz.Spec) : Prop where
  cop : 0 < s.cop
  temps : Lifts s.flow s.ret s.ambIn s.ambOut

end Spec
open Spec

/-- Logarithmic mean of two positive numbers. -/
theorem logMean_eq {a b : ℝ} (hb : -273.15 < b) (hab : b < a) :
    logMean a b = (a - b) / (Real.log (a + absZero) - Real.log (b + absZero)) := by
  have h1 : (0 : ℝ) < b + absZero := by unfold absZero; linarith
  have h2 : (0 : ℝ) < a + absZero := by linarith
  unfold logMean
  rw [Real.log_div h2.ne' h1.ne']

theorem log_gap_pos {a b : ℝ} (hb : -273.15 < b) (hab : b < a) :
    0 < Real.log (a + absZero) - Real.log (b + absZero) := by
  have h1 : (0 : ℝ) < b + absZero := by unfold absZero; linarith
  have := Real.log_lt_log h1 (show b + absZero < a + absZero by linarith)
  linarith

theorem logMean_pos {a b : ℝ} (hb : -273.15 < b) (hab : b < a) : 0 < logMean a b := by
  rw [logMean_eq hb hab]
  exact div_pos (by linarith) (log_gap_pos hb hab)

/-- The mean grows with the higher temperature. -/
theorem logMean_lt_left {a a' b : ℝ} (hb : -273.15 < b) (hab : b < a) (h : a < a') :
    logMean a b < logMean a' b := by
  have h1 : (0 : ℝ) < b + absZero := by unfold absZero; linarith
  have hs := strictConcaveOn_log_Ioi.secant_strict_mono (a := b + absZero) (x := a + absZero)
    (y := a' + absZero) h1 (show (0 : ℝ) < a + absZero by linarith)
    (show (0 : ℝ) < a' + absZero by linarith) (by intro h; linarith) (by intro h; linarith)
    (by linarith)
  have e1 : a' + absZero - (b + absZero) = a' - b := by ring
  have e2 : a + absZero - (b + absZero) = a - b := by ring
  rw [e1, e2] at hs
  rw [logMean_eq hb hab, logMean_eq hb (hab.trans h), ← inv_div, ← inv_div (Real.log _ - _)]
  exact inv_strictAnti₀ (div_pos (log_gap_pos hb (hab.trans h)) (by linarith)) hs

/-- The mean grows with the lower temperature. -/
theorem logMean_lt_right {a b b' : ℝ} (hb : -273.15 < b) (h : b < b') (hab : b' < a) :
    logMean a b < logMean a b' := by
  have h1 : (0 : ℝ) < b + absZero := by unfold absZero; linarith
  have hs := strictConcaveOn_log_Ioi.secant_strict_mono (a := a + absZero) (x := b + absZero)
    (y := b' + absZero) (show (0 : ℝ) < a + absZero by linarith) h1
    (show (0 : ℝ) < b' + absZero by linarith) (by intro h; linarith) (by intro h; linarith)
    (by linarith)
  have e (x : ℝ) : (Real.log (x + absZero) - Real.log (a + absZero)) / (x + absZero - (a + absZero))
      = (Real.log (a + absZero) - Real.log (x + absZero)) / (a - x) := by
    rw [← neg_sub, ← neg_sub (a + absZero) (x + absZero), neg_div_neg_eq]
    congr 1
    ring
  rw [e, e] at hs
  rw [logMean_eq hb (h.trans hab), logMean_eq (hb.trans h) hab, ← inv_div,
    ← inv_div (Real.log _ - _)]
  exact inv_strictAnti₀ (div_pos (log_gap_pos (hb.trans h) hab) (by linarith)) hs

/-- The mean lies strictly between the two temperatures, in Kelvin. -/
theorem logMean_lt_max {a b : ℝ} (hb : -273.15 < b) (hab : b < a) :
    logMean a b < a + 273.15 := by
  have h1 : (0 : ℝ) < b + absZero := by unfold absZero; linarith
  have h2 : (0 : ℝ) < a + absZero := by linarith
  rw [logMean_eq hb hab, div_lt_iff₀ (log_gap_pos hb hab)]
  have := Real.log_lt_sub_one_of_pos (div_pos h1 h2)
    (by intro h; rw [div_eq_one_iff_eq h2.ne'] at h; linarith)
  rw [Real.log_div h1.ne' h2.ne'] at this
  have e : (b + absZero) / (a + absZero) - 1 = (b - a) / (a + absZero) := by
    field_simp; ring
  rw [e, lt_div_iff₀ h2] at this
  have e2 : (273.15 : ℝ) = absZero := rfl
  rw [e2]; nlinarith

theorem min_lt_logMean {a b : ℝ} (hb : -273.15 < b) (hab : b < a) :
    b + 273.15 < logMean a b := by
  have h1 : (0 : ℝ) < b + absZero := by unfold absZero; linarith
  have h2 : (0 : ℝ) < a + absZero := by linarith
  rw [logMean_eq hb hab, lt_div_iff₀ (log_gap_pos hb hab)]
  have := Real.log_lt_sub_one_of_pos (div_pos h2 h1)
    (by intro h; rw [div_eq_one_iff_eq h1.ne'] at h; linarith)
  rw [Real.log_div h2.ne' h1.ne'] at this
  have e : (a + absZero) / (b + absZero) - 1 = (a - b) / (b + absZero) := by
    field_simp; ring
  rw [e, lt_div_iff₀ h1] at this
  have e2 : (273.15 : ℝ) = absZero := rfl
  rw [e2]; nlinarith

theorem logMean_lift {f r i o : ℝ} (h : Lifts f r i o) : logMean i o < logMean f r := by
  have h1 := logMean_lt_max h.zero h.source
  have h2 := min_lt_logMean (show (-273.15 : ℝ) < r by linarith [h.zero, h.source, h.lift]) h.sink
  linarith [h.lift]

/-- C16: the Lorentz COP is above one. -/
theorem one_lt_copLorentz {f r i o : ℝ} (h : Lifts f r i o) : 1 < copLorentz f r i o := by
  have h1 := logMean_lift h
  have h2 := logMean_pos h.zero h.source
  unfold copLorentz
  rw [one_lt_div (by linarith)]
  linarith

/-- `H / (H - L)` falls as `H` grows. -/
theorem lorentz_anti {H H' L : ℝ} (hL : 0 < L) (h : L < H) (hH : H < H') :
    H' / (H' - L) < H / (H - L) := by
  rw [div_lt_div_iff₀ (by linarith) (by linarith)]
  nlinarith

theorem lorentz_mono {H L L' : ℝ} (hL : 0 < L) (h : L < L') (hH : L' < H) :
    H / (H - L) < H / (H - L') := by
  exact div_lt_div_of_pos_left (by linarith) (by linarith) (by linarith)

theorem efficiency_pos {s : Lorentz.Spec} (h : LorentzOk s) : 0 < efficiency s :=
  div_pos h.cop (one_pos.trans (one_lt_copLorentz h.temps))

/-- C16: at the specification temperatures the COP is the specified one. -/
theorem C16_cop_at_specification {s : Lorentz.Spec} (h : LorentzOk s) :
    Lorentz.cop s s.flow s.ret s.ambIn s.ambOut = s.cop := by
  unfold Lorentz.cop efficiency
  exact div_mul_cancel₀ _ (one_pos.trans (one_lt_copLorentz h.temps)).ne'

/-- C16: a higher flow temperature gives a lower COP. -/
theorem C16_cop_falls_with_flow {s : Lorentz.Spec} (h : LorentzOk s) {f f' r i o : ℝ}
    (ht : Lifts f r i o) (hf : f < f') : Lorentz.cop s f' r i o < Lorentz.cop s f r i o := by
  have hr : (-273.15 : ℝ) < r := by linarith [ht.zero, ht.source, ht.lift]
  unfold Lorentz.cop copLorentz
  exact mul_lt_mul_of_pos_left (lorentz_anti (logMean_pos ht.zero ht.source) (logMean_lift ht)
    (logMean_lt_left hr ht.sink hf)) (efficiency_pos h)

/-- C16: a higher return temperature gives a lower COP. -/
theorem C16_cop_falls_with_return {s : Lorentz.Spec} (h : LorentzOk s) {f r r' i o : ℝ}
    (ht : Lifts f r i o) (hr : r < r') (hf : r' < f) :
    Lorentz.cop s f r' i o < Lorentz.cop s f r i o := by
  have h0 : (-273.15 : ℝ) < r := by linarith [ht.zero, ht.source, ht.lift]
  unfold Lorentz.cop copLorentz
  exact mul_lt_mul_of_pos_left (lorentz_anti (logMean_pos ht.zero ht.source) (logMean_lift ht)
    (logMean_lt_right h0 hr hf)) (efficiency_pos h)

/-- C16: a higher source temperature gives a higher COP; the source is cooled by a fixed
difference, as `HeatPump.performance` does. -/
theorem C16_cop_rises_with_source {s : Lorentz.Spec} (h : LorentzOk s) {f r i i' d : ℝ}
    (ht : Lifts f r i (i - d)) (hi : i < i') (ht' : i' < r) :
    Lorentz.cop s f r i (i - d) < Lorentz.cop s f r i' (i' - d) := by
  have h1 : Lifts f r i' (i' - d) :=
    ⟨by linarith [ht.zero], by linarith [ht.source], ht', ht.sink⟩
  have hd := ht.source
  have h2 : logMean i (i - d) < logMean i' (i' - d) :=
    (logMean_lt_left ht.zero ht.source hi).trans
      (logMean_lt_right ht.zero (by linarith) (by linarith))
  unfold Lorentz.cop copLorentz
  exact mul_lt_mul_of_pos_left (lorentz_mono (logMean_pos ht.zero ht.source) h2 (logMean_lift h1))
    (efficiency_pos h)

/-- C16: each COP is positive. -/
theorem C16_cop_pos {s : Lorentz.Spec} (h : LorentzOk s) {f r i o : ℝ} (ht : Lifts f r i o) :
    0 < Lorentz.cop s f r i o :=
  mul_pos (efficiency_pos h) (one_pos.trans (one_lt_copLorentz ht))

/-- C16: the duty is the smaller of the capacity and the specified output. -/
theorem C16_duty (s : Lorentz.Spec) (capacity : ℝ) :
    IsGreatest {q | q ≤ capacity ∧ q ≤ s.cop * s.elecCapacity} (Lorentz.duty s capacity) := by
  refine ⟨⟨min_le_right _ _, min_le_left _ _⟩, ?_⟩
  rintro q ⟨h1, h2⟩
  exact le_min h2 h1

/-- The specification point of a sample pump: 60/40 from 7/2 with COP 3. -/
noncomputable def Spec.sampleLorentz : Lorentz.Spec := ⟨3, 60, 40, 7, 2, 10⟩

theorem Spec.sampleLorentz_ok : LorentzOk sampleLorentz := by
  refine ⟨?_, ⟨?_, ?_, ?_, ?_⟩⟩ <;> norm_num [sampleLorentz]

example : Lorentz.cop sampleLorentz 60 40 7 2 = 3 :=
  C16_cop_at_specification sampleLorentz_ok

example : Lorentz.cop sampleLorentz 70 40 7 2 < 3 := by
  have := C16_cop_falls_with_flow sampleLorentz_ok sampleLorentz_ok.temps
    (f' := 70) (by norm_num [sampleLorentz])
  rwa [C16_cop_at_specification sampleLorentz_ok] at this

example : 3 < Lorentz.cop sampleLorentz 60 40 12 7 := by
  have h : Lifts 60 40 7 (7 - 5) := by constructor <;> norm_num
  have := C16_cop_rises_with_source sampleLorentz_ok h (i' := 12) (by norm_num) (by norm_num)
  have e := C16_cop_at_specification sampleLorentz_ok
  norm_num [sampleLorentz] at this e ⊢
  linarith

example : Lorentz.cop sampleLorentz 60 45 7 2 < 3 := by
  have h : Lifts 60 40 7 2 := by constructor <;> norm_num
  have := C16_cop_falls_with_return sampleLorentz_ok h (r' := 45) (by norm_num) (by norm_num)
  have e := C16_cop_at_specification sampleLorentz_ok
  norm_num [sampleLorentz] at this e ⊢
  linarith

example : Lorentz.duty sampleLorentz 20 = 20 ∧ Lorentz.duty sampleLorentz 40 = 30 := by
  norm_num [Lorentz.duty, sampleLorentz]

end Verif
