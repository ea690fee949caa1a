import Verif.Props.RoundedKpi
import Verif.Props.KpiMore

/-!
# How close shares and costs are in floats (C124, continued)
-/

set_option autoImplicit false

namespace Verif
open FixedOrder Kpi Spec Rounding
open RoundedKpi (Numpy)
variable {N : Type}

theorem share_close {D D' U U' G : ℚ} (hD : 1 / 10 ^ 100 ≤ D) (h1 : |D' - D| ≤ 3 / 10 ^ 12 * D)
    (h2 : |U' - U| ≤ 3 / 10 ^ 12 * G + 1 / 10 ^ 100 * D) (hU : 0 ≤ U) (hUG : U ≤ G) :
    0 < D' ∧ |double.mul (double.sub 1 (double.div (double.sub D' U') D')) 100 - 100 * (U / D)| ≤
      1 / 10 ^ 9 * (1 + G / D) := by
  have hDp : 0 < D := lt_of_lt_of_le (by norm_num) hD
  obtain ⟨d1, d2⟩ := abs_le.mp h1
  have hlow : (1 - 3 / 10 ^ 12) * D ≤ D' := by linarith
  have hD'p : 0 < D' := lt_of_lt_of_le (mul_pos (by norm_num) hDp) hlow
  refine ⟨hD'p, ?_⟩
  have hg0 : 0 ≤ G / D := div_nonneg (hU.trans hUG) hDp.le
  have hu0 : 0 ≤ U / D := div_nonneg hU hDp.le
  have hug : U / D ≤ G / D := div_le_div_of_nonneg_right hUG hDp.le
  -- the quotient of the computed amounts
  have hp : |U' / D' - U / D| ≤ 7 / 10 ^ 12 * (G / D) + 2 / 10 ^ 100 := by
    have e : U' / D' - U / D = ((U' - U) - U / D * (D' - D)) / D' := by
      field_simp
      ring
    rw [e, abs_div, abs_of_pos hD'p, div_le_iff₀ hD'p]
    have n1 : |(U' - U) - U / D * (D' - D)| ≤ (3 / 10 ^ 12 * G + 1 / 10 ^ 100 * D) + U / D * (3 / 10 ^ 12 * D) := by
      refine (abs_sub _ _).trans (add_le_add h2 ?_)
      rw [abs_mul, abs_of_nonneg hu0]
      exact mul_le_mul_of_nonneg_left h1 hu0
    refine n1.trans ?_
    have e1 : U / D * (3 / 10 ^ 12 * D) = 3 / 10 ^ 12 * U := by field_simp
    have a1 : (7 / 10 ^ 12 * (G / D) + 2 / 10 ^ 100) * ((1 - 3 / 10 ^ 12) * D) ≤
        (7 / 10 ^ 12 * (G / D) + 2 / 10 ^ 100) * D' := mul_le_mul_of_nonneg_left hlow (by positivity)
    have e2 : (7 / 10 ^ 12 * (G / D) + 2 / 10 ^ 100) * ((1 - 3 / 10 ^ 12) * D) =
        (1 - 3 / 10 ^ 12) * (7 / 10 ^ 12 * G + 2 / 10 ^ 100 * D) := by
      field_simp
    rw [e1]
    rw [e2] at a1
    linarith
  have hr := double_err (D' - U')
  have hτ : (1 : ℚ) / 10 ^ 300 ≤ 1 / 10 ^ 200 * D := by
    have := mul_le_mul_of_nonneg_left hD (by positivity : (0 : ℚ) ≤ 1 / 10 ^ 200)
    exact le_trans (by decide +kernel) this
  have hw : |double.sub D' U' / D' - (1 - U' / D')| ≤ 1 / 10 ^ 15 * |1 - U' / D'| + 2 / 10 ^ 200 := by
    have e1 : 1 - U' / D' = (D' - U') / D' := by field_simp
    have e2 : double.sub D' U' / D' - (1 - U' / D') = (double.sub D' U' - (D' - U')) / D' := by
      rw [e1]; ring
    rw [e2, e1, abs_div, abs_div, abs_of_pos hD'p, div_le_iff₀ hD'p]
    have e3 : (1 / 10 ^ 15 * (|D' - U'| / D') + 2 / 10 ^ 200) * D' = 1 / 10 ^ 15 * |D' - U'| + 2 / 10 ^ 200 * D' := by
      field_simp
    rw [e3]
    refine hr.trans ?_
    have : (1 : ℚ) / 10 ^ 200 * D ≤ 2 / 10 ^ 200 * D' := by
      have := mul_le_mul_of_nonneg_left hlow (by positivity : (0 : ℚ) ≤ 2 / 10 ^ 200)
      have h3 : (0 : ℚ) ≤ (2 / 10 ^ 200 * (1 - 3 / 10 ^ 12) - 1 / 10 ^ 200) * D := mul_nonneg (by norm_num) hDp.le
      linarith
    linarith
  change |double.rnd (double.rnd (1 - double.rnd (double.sub D' U' / D')) * 100) - 100 * (U / D)| ≤ _
  generalize double.sub D' U' / D' = w at *
  generalize U' / D' = p at *
  generalize U / D = v at *
  generalize G / D = g at *
  have t300 : (1 : ℚ) / 10 ^ 300 ≤ 1 / 10 ^ 15 := by decide +kernel
  have t200 : (2 : ℚ) / 10 ^ 200 ≤ 1 / 10 ^ 15 := by norm_num
  have t100 : (2 : ℚ) / 10 ^ 100 ≤ 1 / 10 ^ 15 := by norm_num
  have derr : ∀ x, |double.rnd x - x| ≤ 1 / 10 ^ 15 * |x| + 1 / 10 ^ 15 := fun x => by linarith [double_err x]
  clear hr hτ hD h1 h2 d1 d2 hlow
  generalize (2 : ℚ) / 10 ^ 200 = a at *
  generalize (2 : ℚ) / 10 ^ 100 = b at *
  obtain ⟨p1, p2⟩ := abs_le.mp hp
  have bp : |1 - p| ≤ 2 + 2 * g := abs_le.mpr ⟨by linarith, by linarith⟩
  obtain ⟨w1, w2⟩ := abs_le.mp hw
  have bw : |w| ≤ 3 + 3 * g := by
    obtain ⟨x1, x2⟩ := abs_le.mp bp
    exact abs_le.mpr ⟨by linarith, by linarith⟩
  obtain ⟨q1, q2⟩ := abs_le.mp (derr w)
  have bq : |1 - double.rnd w| ≤ 5 + 4 * g := by
    obtain ⟨x1, x2⟩ := abs_le.mp bw
    exact abs_le.mpr ⟨by linarith, by linarith⟩
  obtain ⟨s1, s2⟩ := abs_le.mp (derr (1 - double.rnd w))
  have bs : |double.rnd (1 - double.rnd w) * 100| ≤ 600 + 500 * g := by
    obtain ⟨x1, x2⟩ := abs_le.mp bq
    exact abs_le.mpr ⟨by linarith, by linarith⟩
  obtain ⟨r1, r2⟩ := abs_le.mp (derr (double.rnd (1 - double.rnd w) * 100))
  refine abs_le.mpr ⟨?_, ?_⟩ <;> linarith

/-- The electricity asked for over the results: heat pump, auxiliary heating and electric demand. -/
def Spec.askedFor (C : Calcs N) : ℚ :=
  (exactly C fun r => r.hp.elecTotalUsage) + (exactly C fun r => r.aux.demand) + exactly C fun r => r.elecDemand.elecDemand

/-- **The use of the heat pump is right to half a percentage point**, the rounding it is shown with, and a part in
`10 ^ 9`. -/
theorem C124_utilisation_close (np : Numpy) {C : Calcs N} (h : AllHours C) (hn : C.timesteps ≤ 8784)
    (he : ∀ r ∈ C.results, 0 ≤ r.hp.heatTotalOutput ∧ 0 ≤ r.heatDemand.heatDemand)
    (hD : 1 / 10 ^ 100 ≤ exactly C fun r => r.heatDemand.heatDemand) :
    ∃ x, RoundedKpi.hpUtilisation double np C = .ok (some x) ∧
      |x - 100 * ((exactly C fun r => r.hp.heatTotalOutput) / exactly C fun r => r.heatDemand.heatDemand)| ≤
        1 / 2 + 1 / 10 ^ 9 * (1 + (exactly C fun r => r.hp.heatTotalOutput) / exactly C fun r => r.heatDemand.heatDemand) := by
  obtain ⟨G', g1, g2⟩ := C124_year np h hn fun r => r.heatDemand.heatDemand
  obtain ⟨E', e1, e2⟩ := C124_year np h hn fun r => r.hp.heatTotalOutput
  rw [amounts_eq fun r hr => (he r hr).1] at e2
  rw [amounts_eq fun r hr => (he r hr).2] at g2
  have hE0 : 0 ≤ exactly C fun r => r.hp.heatTotalOutput := List.sum_nonneg fun x hx => by
    obtain ⟨r, hr, rfl⟩ := List.mem_map.mp hx; exact (he r hr).1
  obtain ⟨c1, c2⟩ := close_div rfl rfl hD hE0 e2 g2
  have hDp : 0 < exactly C fun r => r.heatDemand.heatDemand := lt_of_lt_of_le (by norm_num) hD
  have hq0 := div_nonneg hE0 hDp.le
  unfold RoundedKpi.hpUtilisation RoundedKpi.sumHpOutput RoundedKpi.sumHd
  rw [e1, g1]
  refine ⟨double.rnd (double.rnd (pyRound (double.rnd (E' / G')) 2) * 100), by
    show Except.ok ((RoundedKpi.npDiv double E' G').map _) = _
    unfold RoundedKpi.npDiv
    rw [if_neg (ne_of_gt c1)]
    rfl, ?_⟩
  generalize (exactly C fun r => r.hp.heatTotalOutput) / (exactly C fun r => r.heatDemand.heatDemand) = q at *
  generalize E' / G' = d at *
  have t300 : (1 : ℚ) / 10 ^ 300 ≤ 1 / 10 ^ 15 := by decide +kernel
  have t200 : (2 : ℚ) / 10 ^ 200 ≤ 1 / 10 ^ 15 := by norm_num
  have derr : ∀ x, |double.rnd x - x| ≤ 1 / 10 ^ 15 * |x| + 1 / 10 ^ 15 := fun x => by linarith [double_err x]
  generalize (2 : ℚ) / 10 ^ 200 = a at *
  obtain ⟨f1, f2⟩ := abs_le.mp c2
  have bd : |d| ≤ 1 + 2 * q := abs_le.mpr ⟨by linarith, by linarith⟩
  obtain ⟨a1, a2⟩ := abs_le.mp (derr d)
  obtain ⟨p1, p2⟩ := abs_le.mp (pyRound_close (double.rnd d) 2)
  have bp : |pyRound (double.rnd d) 2| ≤ 3 + 3 * q := by
    obtain ⟨x1, x2⟩ := abs_le.mp bd
    exact abs_le.mpr ⟨by linarith, by linarith⟩
  obtain ⟨b1, b2⟩ := abs_le.mp (derr (pyRound (double.rnd d) 2))
  have bs : |double.rnd (pyRound (double.rnd d) 2) * 100| ≤ 400 + 400 * q := by
    obtain ⟨x1, x2⟩ := abs_le.mp bp
    exact abs_le.mpr ⟨by linarith, by linarith⟩
  obtain ⟨r1, r2⟩ := abs_le.mp (derr (double.rnd (pyRound (double.rnd d) 2) * 100))
  refine abs_le.mpr ⟨?_, ?_⟩ <;> linarith

example : ∃ x, RoundedKpi.hpUtilisation double oneByOne mostlyPump = .ok (some x) ∧
    |x - 100 * ((exactly mostlyPump fun r => r.hp.heatTotalOutput) / exactly mostlyPump fun r => r.heatDemand.heatDemand)| ≤
      1 / 2 + 1 / 10 ^ 9 * (1 + (exactly mostlyPump fun r => r.hp.heatTotalOutput) /
        exactly mostlyPump fun r => r.heatDemand.heatDemand) :=
  C124_utilisation_close oneByOne (C := mostlyPump) rfl (by decide) (by
    intro r hr
    simp only [mostlyPump, sampleCalcs, List.mem_cons, List.not_mem_nil, or_false] at hr
    rcases hr with rfl; constructor <;> norm_num) (by decide +kernel)

theorem near_sum (np : Numpy) {C : Calcs N} (hn : C.results.length ≤ 8784) {t v a : Results N → ℚ}
    (h : ∀ r ∈ C.results, |t r - v r| ≤ a r) :
    |RoundedKpi.npSum double np (C.results.map t) - exactly C v| ≤
      1 / 10 ^ 12 * amounts C v + 2 * exactly C a + 1 / 10 ^ 300 := by
  have h1 := RoundedKpi.npSum_year np (xs := C.results.map t) (by rwa [List.length_map])
  rw [amounts_map] at h1
  have h2 : ∀ rs : List (Results N), (∀ r ∈ rs, |t r - v r| ≤ a r) →
      |(rs.map t).sum - (rs.map v).sum| ≤ (rs.map a).sum ∧
      (rs.map fun r => |t r|).sum ≤ (rs.map fun r => |v r|).sum + (rs.map a).sum := by
    intro rs hrs
    induction rs with
    | nil => simp
    | cons r rs ih =>
      obtain ⟨i1, i2⟩ := ih fun x hx => hrs x (by simp [hx])
      have i3 := hrs r (by simp)
      have i4 := abs_sub_abs_le_abs_sub (t r) (v r)
      simp only [List.map_cons, List.sum_cons]
      refine ⟨?_, by linarith⟩
      rw [add_sub_add_comm]
      exact (abs_add_le _ _).trans (add_le_add i3 i1)
  obtain ⟨h3, h4⟩ := h2 C.results h
  have h5 : (C.results.map a).sum = exactly C a := rfl
  have h6 : (C.results.map fun r => |t r|).sum = amounts C t := rfl
  have h7 : (C.results.map fun r => |v r|).sum = amounts C v := rfl
  have h8 : (C.results.map v).sum = exactly C v := rfl
  rw [h5] at h3 h4
  rw [h6, h7] at h4
  rw [h8] at h3
  have h9 : 0 ≤ exactly C a := (abs_nonneg _).trans h3
  generalize (C.results.map t).sum = T at *
  generalize RoundedKpi.npSum double np (C.results.map t) = S at *
  generalize (1 : ℚ) / 10 ^ 300 = τ at *
  obtain ⟨x1, x2⟩ := abs_le.mp h1
  obtain ⟨y1, y2⟩ := abs_le.mp h3
  exact abs_le.mpr ⟨by linarith, by linarith⟩

/-- What an hour's purchases for heat cost, in floats. -/
theorem hour_cost_near (x p : ℚ) :
    |double.div (double.mul (double.rnd x) p) 1000 - x * p / 1000| ≤ 4 / 10 ^ 15 * (|x * p| / 1000) + 2 / 10 ^ 300 * (1 + |p|) := by
  have e1 := double_err x
  have e2 : |double.rnd x * p - x * p| ≤ 1 / 10 ^ 15 * |x * p| + 1 / 10 ^ 300 * |p| := by
    rw [← sub_mul, abs_mul]
    refine (mul_le_mul_of_nonneg_right e1 (abs_nonneg p)).trans (le_of_eq ?_)
    rw [abs_mul]
    ring
  have e3 := double_err (double.rnd x * p)
  have e4 := double_err (double.rnd (double.rnd x * p) / 1000)
  change |double.rnd (double.rnd (double.rnd x * p) / 1000) - _| ≤ _
  have hp := abs_nonneg p
  have t2 : (2 : ℚ) / 10 ^ 300 * (1 + |p|) = 2 * (1 / 10 ^ 300) + 2 * (1 / 10 ^ 300 * |p|) := by ring
  rw [t2]
  have t0 : (0 : ℚ) ≤ 1 / 10 ^ 300 := by positivity
  have t3 : 0 ≤ (1 : ℚ) / 10 ^ 300 * |p| := by positivity
  generalize (1 : ℚ) / 10 ^ 300 * |p| = σ at *
  generalize (1 : ℚ) / 10 ^ 300 = τ at *
  have b1 : |double.rnd x * p| ≤ |x * p| + (1 / 10 ^ 15 * |x * p| + σ) := by
    have := abs_sub_abs_le_abs_sub (double.rnd x * p) (x * p); linarith
  have b2 : |double.rnd (double.rnd x * p)| ≤ |double.rnd x * p| + (1 / 10 ^ 15 * |double.rnd x * p| + τ) := by
    have := abs_sub_abs_le_abs_sub (double.rnd (double.rnd x * p)) (double.rnd x * p); linarith
  have b3 : |double.rnd (double.rnd x * p) / 1000| = |double.rnd (double.rnd x * p)| / 1000 := by
    rw [abs_div]; norm_num
  rw [b3] at e4
  have b0 := abs_nonneg (x * p)
  generalize |double.rnd (double.rnd x * p)| = Y at *
  generalize |double.rnd x * p| = Z at *
  generalize |x * p| = X at *
  obtain ⟨x1, x2⟩ := abs_le.mp e2
  obtain ⟨y1, y2⟩ := abs_le.mp e3
  obtain ⟨z1, z2⟩ := abs_le.mp e4
  exact abs_le.mpr ⟨by linarith, by linarith⟩

/-- The amounts of money that the cost of heat is made of, pounds. -/
def Spec.heatMoney (C : Calcs N) : ℚ :=
  (amounts C fun r => (r.grid.totalImport - r.grid.importForElecDemand) * r.grid.importPrice / 1000) +
    if C.electric then 0 else amounts C fun r => r.aux.cost / 1000

/-- **The bill for heating is right to two parts in a million million** of the amounts of money that it is made of. -/
theorem C124_heat_cost_close (np : Numpy) {C : Calcs N} (h : AllHours C) (hn : C.timesteps ≤ 8784) :
    ∃ x, RoundedKpi.heatCost double np C = .ok x ∧
      |x - heatBill C.electric C.results| ≤
        2 / 10 ^ 12 * heatMoney C + 1 / 10 ^ 290 * (1 + C.timesteps + amounts C fun r => r.grid.importPrice) := by
  have hlen : C.results.length ≤ 8784 := by rw [show C.results.length = C.timesteps from h]; exact hn
  have hcount : (C.results.map fun _ => (1 : ℚ)).sum = C.timesteps := by
    rw [List.map_const', List.sum_replicate, nsmul_eq_mul, mul_one, show C.results.length = C.timesteps from h]
  have hP := amounts_nonneg C fun r => r.grid.importPrice
  have hn0 : (0 : ℚ) ≤ C.timesteps := by positivity
  have t1 : (1 : ℚ) / 10 ^ 290 = 10 ^ 10 * (1 / 10 ^ 300) := by decide +kernel
  have t0 : (0 : ℚ) ≤ 1 / 10 ^ 300 := by positivity
  have hA : 0 ≤ amounts C fun r => (r.grid.totalImport - r.grid.importForElecDemand) * r.grid.importPrice / 1000 := amounts_nonneg _ _
  have hB : 0 ≤ amounts C fun r => r.aux.cost / 1000 := amounts_nonneg _ _
  have abs1000 : ∀ y : ℚ, |y / 1000| = |y| / 1000 := fun y => by rw [abs_div]; norm_num
  have hall : ∀ c k : ℚ, exactly C (fun r => c * |(r.grid.totalImport - r.grid.importForElecDemand) * r.grid.importPrice / 1000| +
      k * (1 + |r.grid.importPrice|)) =
      c * amounts C (fun r => (r.grid.totalImport - r.grid.importForElecDemand) * r.grid.importPrice / 1000) +
        k * (C.timesteps + amounts C fun r => r.grid.importPrice) := fun c k => by
    unfold exactly amounts
    rw [← hcount]
    rw [← sum_map_add', ← List.sum_map_mul_left, ← List.sum_map_mul_left, ← sum_map_add']
  unfold RoundedKpi.heatCost heatBill heatMoney
  cases he : C.electric with
  | true =>
    simp only [if_true, add_zero]
    refine ⟨_, RoundedKpi.total_ok h np _, ?_⟩
    have key := near_sum np hlen (C := C)
      (t := fun r => double.div (double.mul (double.sub r.grid.totalImport r.grid.importForElecDemand) r.grid.importPrice) 1000)
      (v := fun r => (r.grid.totalImport - r.grid.importForElecDemand) * r.grid.importPrice / 1000)
      (a := fun r => 4 / 10 ^ 15 * |(r.grid.totalImport - r.grid.importForElecDemand) * r.grid.importPrice / 1000| +
        2 / 10 ^ 300 * (1 + |r.grid.importPrice|)) (fun r _ => by
          rw [abs1000]
          exact hour_cost_near (r.grid.totalImport - r.grid.importForElecDemand) r.grid.importPrice)
    rw [hall] at key
    rw [← sum_map_div']
    change |_ - exactly C _| ≤ _
    refine key.trans ?_
    rw [t1, show (2 : ℚ) / 10 ^ 300 = 2 * (1 / 10 ^ 300) by ring]
    generalize (1 : ℚ) / 10 ^ 300 = τ at *
    generalize (amounts C fun r => r.grid.importPrice) = P at *
    generalize (C.timesteps : ℚ) = n at *
    have : 0 ≤ τ * (n + P) := by positivity
    linarith
  | false =>
    simp only [Bool.false_eq_true, if_false]
    refine ⟨_, RoundedKpi.total_ok h np _, ?_⟩
    have key := near_sum np hlen (C := C)
      (t := fun r => double.add (double.div (double.mul (double.sub r.grid.totalImport r.grid.importForElecDemand) r.grid.importPrice) 1000)
        (double.div r.aux.cost 1000))
      (v := fun r => (r.grid.totalImport - r.grid.importForElecDemand) * r.grid.importPrice / 1000 + r.aux.cost / 1000)
      (a := fun r => (6 / 10 ^ 15 * |(r.grid.totalImport - r.grid.importForElecDemand) * r.grid.importPrice / 1000| +
        6 / 10 ^ 300 * (1 + |r.grid.importPrice|)) + 6 / 10 ^ 15 * |r.aux.cost / 1000|) (fun r _ => by
          have k1 := hour_cost_near (r.grid.totalImport - r.grid.importForElecDemand) r.grid.importPrice
          have k2 := double_err (r.aux.cost / 1000)
          rw [← abs1000] at k1
          change |double.rnd (double.div (double.mul (double.rnd (r.grid.totalImport - r.grid.importForElecDemand))
            r.grid.importPrice) 1000 + double.rnd (r.aux.cost / 1000)) - _| ≤ _
          have hp := abs_nonneg r.grid.importPrice
          have hs : (0 : ℚ) ≤ 1 / 10 ^ 300 * |r.grid.importPrice| := by positivity
          rw [show (6 : ℚ) / 10 ^ 300 * (1 + |r.grid.importPrice|) =
            6 * (1 / 10 ^ 300) + 6 * (1 / 10 ^ 300 * |r.grid.importPrice|) by ring]
          rw [show (2 : ℚ) / 10 ^ 300 * (1 + |r.grid.importPrice|) =
            2 * (1 / 10 ^ 300) + 2 * (1 / 10 ^ 300 * |r.grid.importPrice|) by ring] at k1
          generalize double.div (double.mul (double.rnd (r.grid.totalImport - r.grid.importForElecDemand))
            r.grid.importPrice) 1000 = A at *
          generalize double.rnd (r.aux.cost / 1000) = B at *
          have k3 := double_err (A + B)
          generalize (r.grid.totalImport - r.grid.importForElecDemand) * r.grid.importPrice / 1000 = V at *
          generalize r.aux.cost / 1000 = W at *
          generalize (1 : ℚ) / 10 ^ 300 * |r.grid.importPrice| = σ at *
          generalize (1 : ℚ) / 10 ^ 300 = τ at *
          have n1 := abs_nonneg V
          have n2 := abs_nonneg W
          have n3 : |A + B| ≤ 2 * |V| + 2 * |W| + 4 * τ + 4 * σ := by
            have m1 := abs_sub_abs_le_abs_sub A V
            have m2 := abs_sub_abs_le_abs_sub B W
            have m3 := abs_add_le A B
            linarith
          obtain ⟨x1, x2⟩ := abs_le.mp k1
          obtain ⟨y1, y2⟩ := abs_le.mp k2
          obtain ⟨z1, z2⟩ := abs_le.mp k3
          exact abs_le.mpr ⟨by linarith, by linarith⟩)
    have e1 : exactly C (fun r => (6 / 10 ^ 15 * |(r.grid.totalImport - r.grid.importForElecDemand) * r.grid.importPrice / 1000| +
        6 / 10 ^ 300 * (1 + |r.grid.importPrice|)) + 6 / 10 ^ 15 * |r.aux.cost / 1000|) =
        (6 / 10 ^ 15 * amounts C (fun r => (r.grid.totalImport - r.grid.importForElecDemand) * r.grid.importPrice / 1000) +
        6 / 10 ^ 300 * (C.timesteps + amounts C fun r => r.grid.importPrice)) + 6 / 10 ^ 15 * amounts C (fun r => r.aux.cost / 1000) := by
      rw [← hall]
      unfold exactly amounts
      rw [← List.sum_map_mul_left, ← sum_map_add']
    have e2 : amounts C (fun r => (r.grid.totalImport - r.grid.importForElecDemand) * r.grid.importPrice / 1000 + r.aux.cost / 1000) ≤
        amounts C (fun r => (r.grid.totalImport - r.grid.importForElecDemand) * r.grid.importPrice / 1000) +
          amounts C (fun r => r.aux.cost / 1000) := by
      unfold amounts
      rw [← sum_map_add']
      exact sum_le_sum_map fun r _ => abs_add_le _ _
    rw [e1] at key
    rw [← sum_map_div', ← sum_map_div', ← sum_map_add']
    change |_ - exactly C _| ≤ _
    refine key.trans ?_
    rw [t1, show (6 : ℚ) / 10 ^ 300 = 6 * (1 / 10 ^ 300) by ring]
    generalize (1 : ℚ) / 10 ^ 300 = τ at *
    generalize (amounts C fun r => r.grid.importPrice) = P at *
    generalize (C.timesteps : ℚ) = n at *
    have : 0 ≤ τ * (n + P) := by positivity
    linarith

example : ∃ x, RoundedKpi.heatCost double oneByOne windyHours = .ok x ∧
    |x - heatBill false windyHours.results| ≤
      2 / 10 ^ 12 * heatMoney windyHours + 1 / 10 ^ 290 * (1 + (3 : ℕ) + amounts windyHours fun r => r.grid.importPrice) :=
  C124_heat_cost_close oneByOne (C := windyHours) rfl (by decide)

end Verif
