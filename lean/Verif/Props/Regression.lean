import Verif.Model.Regression
import Verif.Spec.HeatPumpConfig
import Mathlib.Algebra.Order.BigOperators.Group.List
import Mathlib.Tactic.NormNum
import Mathlib.Tactic.Linarith
import Mathlib.Tactic.Ring
import Mathlib.Tactic.Positivity

/-!
# Properties of the regression models (C15, C17)
-/

set_option autoImplicit false

namespace Verif

/-- C15: the lift, flow minus ambient temperature, up to which the COP falls (about 96.0 and 102.2). -/
def Spec.liftLimit : HPType → ℚ
  | .ashp => 6050 / 63
  | _ => 37500 / 367

open Spec

theorem generic_factor_pos (a : ℚ) : 0 < Generic.factor a := by
  unfold Generic.factor; split_ifs <;> norm_num

theorem generic_factor_mono {a a' : ℚ} (h : a ≤ a') : Generic.factor a ≤ Generic.factor a' := by
  unfold Generic.factor
  split_ifs <;> first | (norm_num; done) | (exfalso; linarith)

/-- C15: COP falls when the flow temperature rises, up to the lift limit. Missing: larger lifts, where
it rises (`C15_cop_rises_beyond_limit`). -/
theorem C15_cop_falls_with_flow_partial (p : HPType) {f f' a : ℚ} (h : f < f')
    (hl : f' - a ≤ liftLimit p) : Generic.cop p f' a < Generic.cop p f a := by
  unfold Generic.cop
  cases p <;> dsimp only [liftLimit] at hl ⊢ <;>
    exact mul_lt_mul_of_pos_right (by nlinarith) (generic_factor_pos a)

/-- C15, negation: beyond the limit COP rises with the flow temperature, for each pump. -/
theorem C15_cop_rises_beyond_limit (p : HPType) {f f' a : ℚ} (h : f < f')
    (hl : liftLimit p ≤ f - a) : Generic.cop p f a < Generic.cop p f' a := by
  unfold Generic.cop
  cases p <;> dsimp only [liftLimit] at hl ⊢ <;>
    exact mul_lt_mul_of_pos_right (by nlinarith) (generic_factor_pos a)

/-- C15: the COP is positive at all temperatures. -/
theorem C15_cop_pos (p : HPType) (f a : ℚ) : 0 < Generic.cop p f a := by
  unfold Generic.cop
  cases p <;> dsimp only <;>
    exact mul_pos (by nlinarith [sq_nonneg (f - a - 96), sq_nonneg (f - a - 102)])
      (generic_factor_pos a)

/-- C15: at equal lift a pump performs 90 % as well at or below 5 degrees, where it has to defrost, as
above 5 degrees; otherwise only the lift counts. -/
theorem C15_defrosting (p : HPType) (lift : ℚ) {cold warm : ℚ} (hc : cold ≤ 5) (hw : 5 < warm) :
    Generic.cop p (cold + lift) cold = 9 / 10 * Generic.cop p (warm + lift) warm ∧
    ∀ a, (Generic.cop p (a + lift) a = Generic.cop p (cold + lift) cold ↔ a ≤ 5) := by
  have key (a : ℚ) : Generic.cop p (a + lift) a = Generic.cop p (6 + lift) 6 * Generic.factor a := by
    have : Generic.factor 6 = 1 := by decide +kernel
    unfold Generic.cop
    rw [this]
    cases p <;> dsimp only <;> ring
  have hcold : ∀ a : ℚ, a ≤ 5 → Generic.factor a = 9 / 10 := fun a h => if_pos h
  have hwarm : ∀ a : ℚ, 5 < a → Generic.factor a = 1 := fun a h => if_neg (not_le.mpr h)
  have hpos := C15_cop_pos p (6 + lift) 6
  refine ⟨by rw [key, key warm, hcold _ hc, hwarm _ hw]; ring, fun a => ⟨fun h => ?_, fun h => ?_⟩⟩
  · by_contra hn
    rw [key, key cold, hcold _ hc, hwarm _ (not_le.mp hn)] at h
    linarith
  · rw [key, key cold, hcold _ hc, hcold _ h]

/-- C15: COP falls when the ambient temperature falls, up to the lift limit. -/
theorem C15_cop_falls_with_ambient_partial (p : HPType) {f a a' : ℚ} (h : a' < a)
    (hl : f - a' ≤ liftLimit p) : Generic.cop p f a' < Generic.cop p f a := by
  have h1 : Generic.cop p f a' / Generic.factor a' < Generic.cop p f a / Generic.factor a := by
    have e (x : ℚ) : Generic.factor x ≠ 0 := (generic_factor_pos x).ne'
    unfold Generic.cop
    cases p <;> dsimp only [liftLimit] at hl ⊢ <;>
      rw [mul_div_cancel_right₀ _ (e _), mul_div_cancel_right₀ _ (e _)] <;> nlinarith
  have h2 := generic_factor_mono h.le
  have p1 := generic_factor_pos a'
  have p2 := generic_factor_pos a
  have e1 : Generic.cop p f a' = Generic.cop p f a' / Generic.factor a' * Generic.factor a' :=
    (div_mul_cancel₀ _ p1.ne').symm
  have e2 : Generic.cop p f a = Generic.cop p f a / Generic.factor a * Generic.factor a :=
    (div_mul_cancel₀ _ p2.ne').symm
  have c2 : 0 < Generic.cop p f a' / Generic.factor a' := div_pos (C15_cop_pos p f a') p1
  rw [e1, e2]
  calc _ ≤ Generic.cop p f a' / Generic.factor a' * Generic.factor a :=
        mul_le_mul_of_nonneg_left h2 c2.le
    _ < _ := mul_lt_mul_of_pos_right h1 p2

/-- C15: at one pair of temperatures a ground or water source pump is better, up to a lift of 115 K.
Missing: larger lifts, where it is false (`C15_not_ground_better`). -/
theorem C15_ground_better_partial {p : HPType} (hp : p ≠ .ashp) {f a : ℚ} (hl : f - a ≤ 115) :
    Generic.cop .ashp f a < Generic.cop p f a := by
  have key : 681 / 100 - 121 / 1000 * (f - a) + 63 / 100000 * (f - a) ^ 2 <
      877 / 100 - 15 / 100 * (f - a) + 734 / 1000000 * (f - a) ^ 2 := by
    nlinarith [mul_nonneg (sub_nonneg.2 hl) (show (0 : ℚ) ≤ 163 - (f - a) by linarith)]
  unfold Generic.cop
  cases p
  · exact absurd rfl hp
  · exact mul_lt_mul_of_pos_right key (generic_factor_pos a)
  · exact mul_lt_mul_of_pos_right key (generic_factor_pos a)

/-- C15, negation: at a lift of 140 K the air source pump is better. -/
theorem C15_not_ground_better : ∃ f a : ℚ, Generic.cop .gshp f a < Generic.cop .ashp f a :=
  ⟨140, 0, by norm_num [Generic.cop, Generic.factor]⟩

/-- C15: ground and water source pumps have the same COP and duty. -/
theorem C15_ground_water_same (f a : ℚ) : Generic.cop .gshp f a = Generic.cop .wshp f a ∧
    Generic.duty .gshp a = Generic.duty .wshp a := ⟨rfl, rfl⟩

/-- C15: the duty rises with the ambient temperature. -/
theorem C15_duty_rises (p : HPType) {a a' : ℚ} (h : a < a') :
    Generic.duty p a < Generic.duty p a' := by
  cases p <;> simp only [Generic.duty] <;> linarith

example : Generic.cop .ashp 55 7 = 681 / 100 - 121 / 1000 * 48 + 63 / 100000 * 48 ^ 2 ∧
    Generic.cop .ashp 55 7 < Generic.cop .ashp 45 7 ∧
    Generic.cop .ashp 45 2 < Generic.cop .ashp 45 7 ∧
    Generic.cop .ashp 45 7 < Generic.cop .gshp 45 7 ∧ (55 : ℚ) - 2 ≤ liftLimit .ashp := by
  norm_num [Generic.cop, Generic.factor, liftLimit]

/-! ## Standard test regression -/

namespace Spec
open Standard

/-- C17: a quadratic surface over ambient and flow temperature. -/
structure Quadratic where
  c0 : ℚ
  ca : ℚ
  cf : ℚ
  caa : ℚ
  caf : ℚ
  cff : ℚ

/-- C17: its value. -/
def Quadratic.at (q : Quadratic) (a f : ℚ) : ℚ :=
  q.c0 + q.ca * a + q.cf * f + q.caa * a ^ 2 + q.caf * (a * f) + q.cff * f ^ 2

/-- Squared distance of a prediction from a target. -/
def sqDist (ys ys' : List ℚ) : ℚ := (List.zipWith (fun y y' => (y - y') ^ 2) ys ys').sum

/-- Sum of squared errors of a linear model on samples. -/
def sse (m : Linear) (samples : List (List ℚ × List ℚ)) : ℚ :=
  (samples.map (fun s => sqDist (m.predict s.1) s.2)).sum

/-- A linear model of `k` features and `n` outputs. -/
def HasShape (k n : ℕ) (m : Linear) : Prop := m.rows.length = n ∧ ∀ r ∈ m.rows, r.1.length = k

/-- C17: what `LinearRegression.fit` returns, from its documentation: a linear model with the least sum
of squared errors. (There may be several; nothing more is assumed.) -/
def LeastSquares (samples : List (List ℚ × List ℚ)) (m : Linear) : Prop :=
  HasShape 5 2 m ∧ ∀ m', HasShape 5 2 m' → sse m samples ≤ sse m' samples

end Spec
open Standard

/-- A fit whose first target column lies on a quadratic surface reproduces that column. -/
theorem fit_exact {pts : List Point} {y : Point → ℚ} {q : Quadratic} {m : Linear}
    (hq : ∀ p ∈ pts, y p = q.at p.ambient p.flow)
    (hm : LeastSquares (pts.map (fun p => (features p.ambient p.flow, target (y p)))) m) :
    ∀ p ∈ pts, (m.predict (features p.ambient p.flow)).headD 0 = y p := by
  obtain ⟨⟨hl, hk⟩, hmin⟩ := hm
  obtain ⟨rows⟩ := m
  match rows, hl, hk, hmin with
  | [r0, r1], _, hk, hmin =>
    have hbest := hmin ⟨[([q.ca, q.cf, q.caa, q.caf, q.cff], q.c0), r1]⟩
      ⟨rfl, by
        intro r hr
        rcases List.mem_cons.1 hr with rfl | hr
        · rfl
        · exact hk r (List.mem_cons_of_mem _ hr)⟩
    unfold sse at hbest
    rw [List.map_map, List.map_map] at hbest
    have e1 : ∀ p ∈ pts, ((fun s : List ℚ × List ℚ => sqDist
        (Linear.predict ⟨[([q.ca, q.cf, q.caa, q.caf, q.cff], q.c0), r1]⟩ s.1) s.2) ∘
        fun p => (features p.ambient p.flow, target (y p))) p =
        (predictRow r1 (features p.ambient p.flow) - y p ^ 2) ^ 2 := by
      intro p hp
      have : predictRow ([q.ca, q.cf, q.caa, q.caf, q.cff], q.c0) (features p.ambient p.flow)
          = y p := by
        rw [hq p hp]
        simp only [predictRow, features, Quadratic.at, List.zipWith_cons_cons, List.zipWith_nil_left,
          List.sum_cons, List.sum_nil]
        ring
      simp only [Function.comp, Linear.predict, List.map_cons, List.map_nil, this, sqDist, target,
        List.zipWith_cons_cons, List.zipWith_nil_left, List.sum_cons, List.sum_nil]
      ring
    have e2 : ∀ p ∈ pts, ((fun s : List ℚ × List ℚ => sqDist
        (Linear.predict ⟨[r0, r1]⟩ s.1) s.2) ∘
        fun p => (features p.ambient p.flow, target (y p))) p =
        (predictRow r0 (features p.ambient p.flow) - y p) ^ 2 +
        (predictRow r1 (features p.ambient p.flow) - y p ^ 2) ^ 2 := by
      intro p hp
      simp only [Function.comp, Linear.predict, List.map_cons, List.map_nil, sqDist, target,
        List.zipWith_cons_cons, List.zipWith_nil_left, List.sum_cons, List.sum_nil]
      ring
    rw [List.map_congr_left e1, List.map_congr_left e2, List.sum_map_add] at hbest
    have h0 : (pts.map (fun p => (predictRow r0 (features p.ambient p.flow) - y p) ^ 2)).sum ≤ 0 := by
      linarith
    intro p hp
    have h1 := List.single_le_sum (l := pts.map
      (fun p => (predictRow r0 (features p.ambient p.flow) - y p) ^ 2))
      (by
        intro x hx
        obtain ⟨p', -, rfl⟩ := List.mem_map.1 hx
        positivity)
      _ (List.mem_map_of_mem hp)
    have h2 : (predictRow r0 (features p.ambient p.flow) - y p) ^ 2 = 0 :=
      le_antisymm (h1.trans h0) (sq_nonneg _)
    have h3 := pow_eq_zero_iff (two_ne_zero) |>.1 h2
    change predictRow r0 (features p.ambient p.flow) = y p
    linarith

/-- C17: if the measured COPs lie on a quadratic surface, the model returns them. -/
theorem C17_cop_reproduced {pts : List Point} {q : Quadratic} {m : Linear}
    (hq : ∀ p ∈ pts, p.cop = q.at p.ambient p.flow) (hm : LeastSquares (copSamples pts) m) :
    ∀ p ∈ pts, Standard.cop m p.ambient p.flow = p.cop :=
  fit_exact (y := Point.cop) hq hm

/-- C17: the same for the duty. -/
theorem C17_duty_reproduced {pts : List Point} {q : Quadratic} {m : Linear}
    (hq : ∀ p ∈ pts, p.duty = q.at p.ambient p.flow) (hm : LeastSquares (dutySamples pts) m) :
    ∀ p ∈ pts, Standard.duty m p.ambient p.flow = p.duty :=
  fit_exact (y := Point.duty) hq hm

/-- C17: shapes that do not fit together raise `IndexError`: temperatures that are not a table of two
columns, or another number of rows for COP or duty. -/
theorem C17_inconsistent_shapes_rejected {x c d : List ℕ}
    (h : (∀ n, x ≠ [n, 2]) ∨ c = [] ∨ d = [] ∨ x.head? ≠ c.head? ∨ x.head? ≠ d.head?) :
    trainCheck x c d = .error .indexError := by
  unfold trainCheck
  split
  · rename_i rows cols
    split_ifs with h1
    · rfl
    · have h1 := not_not.1 h1
      subst h1
      split
      · rename_i c' cs d' ds
        rw [if_pos]
        rcases h with h | h | h | h | h
        · exact absurd rfl (h rows)
        · cases h
        · cases h
        · left; simpa using h
        · right; simpa using h
      · rfl
  · rfl

/-- Four points on the surface `2 + a + f²`, with duty `3 * a * f`. -/
def Spec.samplePoints : List Point :=
  [⟨0, 1, 3, 0⟩, ⟨1, 1, 4, 3⟩, ⟨2, 3, 13, 18⟩, ⟨3, 2, 9, 18⟩]

theorem sqDist_nonneg : ∀ ys ys' : List ℚ, 0 ≤ sqDist ys ys'
  | [], _ => by simp [sqDist]
  | _ :: _, [] => by simp [sqDist]
  | y :: ys, y' :: ys' => by
    have := sqDist_nonneg ys ys'
    unfold sqDist at this ⊢
    rw [List.zipWith_cons_cons, List.sum_cons]
    positivity

/-- A least squares fit of the sample exists: this one has no error. -/
theorem Spec.samplePoints_fit : LeastSquares (copSamples samplePoints)
    ⟨[([1, 0, 0, 0, 1], 2), ([29, 117, 0, -22, 0], -108)]⟩ := by
  refine ⟨⟨rfl, by simp⟩, fun m' _ => ?_⟩
  have h : sse ⟨[([1, 0, 0, 0, 1], 2), ([29, 117, 0, -22, 0], -108)]⟩ (copSamples samplePoints)
      = 0 := by decide +kernel
  rw [h]
  refine List.sum_nonneg ?_
  intro x hx
  obtain ⟨s, -, rfl⟩ := List.mem_map.1 hx
  exact sqDist_nonneg _ _

example : ∀ p ∈ samplePoints, p.cop = (⟨2, 1, 0, 0, 0, 1⟩ : Quadratic).at p.ambient p.flow := by
  decide +kernel

example : trainCheck [8, 3] [8] [8] = .error .indexError ∧
    trainCheck [8, 2] [8] [7, 1] = .error .indexError ∧ trainCheck [8, 2] [8] [8, 1] = .ok () := by
  decide

end Verif
