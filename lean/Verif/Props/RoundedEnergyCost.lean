import Verif.Props.RoundedLevelised

/-! # The levelised cost of energy in floats (C124, continued) -/

set_option autoImplicit false

namespace Verif
open FixedOrder Kpi Spec Rounding
open RoundedKpi (Numpy)
variable {N : Type}

/-- What the levelised cost of energy takes for the cost of a run, pounds over a thousand. That it charges the fuel a
thousandfold, against the cash flow, is C46. -/
def Spec.energyBill (C : Calcs N) : ℚ :=
  (exactly C fun r => -r.grid.cashflow / 1000) + if C.electric then 0 else exactly C fun r => r.aux.cost / 1000

/-- The amounts that it is made of. -/
def Spec.energyMoney (C : Calcs N) : ℚ :=
  (amounts C fun r => -r.grid.cashflow / 1000) + if C.electric then 0 else amounts C fun r => r.aux.cost / 1000

theorem exactly_add (C : Calcs N) (p q : Results N → ℚ) : (exactly C fun r => p r + q r) = exactly C p + exactly C q :=
  sum_map_add' ..

theorem amounts_add_le (C : Calcs N) (p q : Results N → ℚ) : (amounts C fun r => p r + q r) ≤ amounts C p + amounts C q := by
  unfold amounts
  rw [← sum_map_add']
  exact List.sum_le_sum fun r _ => abs_add_le _ _

theorem abs_exactly_le (C : Calcs N) (p : Results N → ℚ) : |exactly C p| ≤ amounts C p := by
  have := RoundedKpi.abs_sum_le (C.results.map p)
  rwa [amounts_map] at this

theorem energy_le_money (C : Calcs N) : |energyBill C| ≤ energyMoney C := by
  unfold energyBill energyMoney
  split
  · rw [add_zero, add_zero]
    exact abs_exactly_le _ _
  · exact (abs_add_le _ _).trans (add_le_add (abs_exactly_le _ _) (abs_exactly_le _ _))

/-- **The running cost behind the levelised cost is right to a part and a half in a million million** of the amounts of money
that it is made of. -/
theorem C124_energy_cost_close (np : Numpy) {C : Calcs N} (h : AllHours C) (hn : C.timesteps ≤ 8784) :
    ∃ x, RoundedKpi.energyCost double np C = .ok x ∧
      |x - energyBill C| ≤ 15 / 10 ^ 13 * energyMoney C + 1 / 10 ^ 298 * (1 + C.timesteps) := by
  have hlen : C.results.length ≤ 8784 := by rw [show C.results.length = C.timesteps from h]; exact hn
  have hcount : (C.results.map fun _ => (1 : ℚ)).sum = C.timesteps := by
    rw [List.map_const', List.sum_replicate, nsmul_eq_mul, mul_one, show C.results.length = C.timesteps from h]
  have hn0 : (0 : ℚ) ≤ C.timesteps := by positivity
  have t1 : (1 : ℚ) / 10 ^ 298 = 100 * (1 / 10 ^ 300) := by decide +kernel
  have t0 : (0 : ℚ) ≤ 1 / 10 ^ 300 := by positivity
  have hall : ∀ (c k : ℚ) (p : Results N → ℚ), (exactly C fun r => c * |p r| + k * 1) = c * amounts C p + k * C.timesteps :=
    fun c k p => by
      unfold exactly amounts
      rw [← hcount, ← List.sum_map_mul_left, ← List.sum_map_mul_left, ← sum_map_add']
  have hA : 0 ≤ amounts C fun r => -r.grid.cashflow / 1000 := amounts_nonneg _ _
  have hB : 0 ≤ amounts C fun r => r.aux.cost / 1000 := amounts_nonneg _ _
  unfold RoundedKpi.energyCost energyBill energyMoney
  cases he : C.electric with
  | true =>
    simp only [if_true, add_zero]
    refine ⟨_, RoundedKpi.total_ok h np _, ?_⟩
    have key := near_sum np hlen (C := C) (t := fun r => double.div (-r.grid.cashflow) 1000)
      (v := fun r => -r.grid.cashflow / 1000)
      (a := fun r => 1 / 10 ^ 15 * |-r.grid.cashflow / 1000| + 1 / 10 ^ 300 * 1)
      (fun r _ => (double_err (-r.grid.cashflow / 1000)).trans (le_of_eq (by rw [mul_one])))
    rw [hall _ _ fun r => -r.grid.cashflow / 1000] at key
    refine key.trans ?_
    rw [t1]
    have : (0 : ℚ) ≤ 1 / 10 ^ 300 * C.timesteps := mul_nonneg t0 hn0
    generalize (amounts C fun r => -r.grid.cashflow / 1000) = A at *
    generalize (1 : ℚ) / 10 ^ 300 = τ at *
    linarith
  | false =>
    simp only [Bool.false_eq_true, if_false]
    refine ⟨_, RoundedKpi.total_ok h np _, ?_⟩
    have key := near_sum np hlen (C := C)
      (t := fun r => double.add (double.div (-r.grid.cashflow) 1000) (double.div r.aux.cost 1000))
      (v := fun r => -r.grid.cashflow / 1000 + r.aux.cost / 1000)
      (a := fun r => (3 / 10 ^ 15 * |-r.grid.cashflow / 1000| + 4 / 10 ^ 300 * 1) + (3 / 10 ^ 15 * |r.aux.cost / 1000| + 0 * 1))
      (fun r _ => by
        have k1 := double_err (-r.grid.cashflow / 1000)
        have k2 := double_err (r.aux.cost / 1000)
        change |double.rnd (double.rnd (-r.grid.cashflow / 1000) + double.rnd (r.aux.cost / 1000)) - _| ≤ _
        rw [show (4 : ℚ) / 10 ^ 300 * 1 = 4 * (1 / 10 ^ 300) by ring]
        generalize double.rnd (-r.grid.cashflow / 1000) = A at *
        generalize double.rnd (r.aux.cost / 1000) = B at *
        have k3 := double_err (A + B)
        generalize -r.grid.cashflow / 1000 = V at *
        generalize r.aux.cost / 1000 = W at *
        generalize (1 : ℚ) / 10 ^ 300 = τ at *
        have n1 := abs_nonneg V
        have n2 := abs_nonneg W
        have k4 : |A + B| ≤ |V| + |W| + (1 / 10 ^ 15 * |V| + τ) + (1 / 10 ^ 15 * |W| + τ) := by
          have a1 := abs_sub_abs_le_abs_sub A V
          have a2 := abs_sub_abs_le_abs_sub B W
          have a3 := abs_add_le A B
          linarith
        generalize |A + B| = S at *
        generalize |V| = v at *
        generalize |W| = w at *
        obtain ⟨x1, x2⟩ := abs_le.mp k1
        obtain ⟨y1, y2⟩ := abs_le.mp k2
        obtain ⟨z1, z2⟩ := abs_le.mp k3
        exact abs_le.mpr ⟨by linarith, by linarith⟩)
    rw [exactly_add C (fun r => 3 / 10 ^ 15 * |-r.grid.cashflow / 1000| + 4 / 10 ^ 300 * 1)
      (fun r => 3 / 10 ^ 15 * |r.aux.cost / 1000| + 0 * 1), hall _ _ fun r => -r.grid.cashflow / 1000,
      hall _ _ fun r => r.aux.cost / 1000, exactly_add C (fun r => -r.grid.cashflow / 1000) fun r => r.aux.cost / 1000] at key
    refine key.trans ?_
    have g := amounts_add_le C (fun r => -r.grid.cashflow / 1000) fun r => r.aux.cost / 1000
    rw [t1, show (4 : ℚ) / 10 ^ 300 = 4 * (1 / 10 ^ 300) by ring]
    have : (0 : ℚ) ≤ 1 / 10 ^ 300 * C.timesteps := mul_nonneg t0 hn0
    generalize (amounts C fun r => -r.grid.cashflow / 1000 + r.aux.cost / 1000) = Z at *
    generalize (amounts C fun r => -r.grid.cashflow / 1000) = A at *
    generalize (amounts C fun r => r.aux.cost / 1000) = B at *
    generalize (1 : ℚ) / 10 ^ 300 = τ at *
    linarith

/-- **The levelised cost of energy is right to two parts in a hundred thousand million** of the money behind it, per unit of
energy demanded. The power in the price of a store is taken as the library gives it. -/
theorem C124_levelised_energy_close (np : Numpy) {pow : ℚ → ℚ} (hpow : ∀ x, 0 ≤ pow x) {C : Calcs N} (h : AllHours C)
    (hn0 : 0 < C.timesteps) (hn : C.timesteps ≤ 8784) {hp ts : ℕ} (hname : C.name = Para.folderName (hp, ts))
    (hk : KnownScheme C.rhi) (hp0 : RatesNonneg C.rhi)
    (hd : ∀ r ∈ C.results, 0 ≤ r.heatDemand.heatDemand ∧ 0 ≤ r.elecDemand.elecDemand) {W : ℚ}
    (hW : W = (exactly C fun r => r.heatDemand.heatDemand) + exactly C fun r => r.elecDemand.elecDemand)
    (hg : 1 / 10 ^ 100 ≤ W) {f : ℚ} (hf : f = 8760 / C.timesteps) :
    ∃ x, RoundedKpi.levelisedCostOfEnergy double np pow C = .ok (some x) ∧
      |x - (priceOfPlant hp ts (pow (double.div ts 1000)) + 20 * f * (1000 * energyBill C) -
            subsidyYears C.rhi * subsidy C.rhi hp (pumpHeat C.results - pumpElec C.results)) / (20 * f * W)| ≤
        2 / 10 ^ 11 * ((priceOfPlant hp ts (pow (double.div ts 1000)) + 20 * f * (1000 * energyMoney C) +
            subsidyYears C.rhi * subsidyScale C) / (20 * f * W)) +
        1 / 10 ^ 178 * (3 + ts + C.timesteps + topRate C.rhi) := by
  obtain ⟨E', k1, k2⟩ := C124_energy_cost_close np h hn
  obtain ⟨s, s1, -, s2⟩ := C124_subsidy_close np h hn hname hk hp0
  obtain ⟨X, x1, x2⟩ := C124_year np h hn fun r => r.heatDemand.heatDemand
  obtain ⟨Y, y1, y2⟩ := C124_year np h hn fun r => r.elecDemand.elecDemand
  rw [amounts_eq fun r hr => (hd r hr).1] at x2
  rw [amounts_eq fun r hr => (hd r hr).2] at y2
  have pl := plant_near (hp := hp) (ts := ts) hpow
  have n0 : Para.numberAt C.name 0 = .ok hp := by rw [hname]; unfold Para.numberAt; rw [numbers_name]; rfl
  have n1 : Para.numberAt C.name 1 = .ok ts := by rw [hname]; unfold Para.numberAt; rw [numbers_name]; rfl
  have hρ := topRate_nonneg hp0
  have ts0 : (0 : ℚ) ≤ ts := by positivity
  have y7 : 0 ≤ subsidyYears C.rhi ∧ subsidyYears C.rhi ≤ 20 := by unfold subsidyYears; split <;> norm_num
  have bm := energy_le_money C
  have sm := subsidy_le_scale hk hp0 hp
  have pp : 0 ≤ priceOfPlant hp ts (pow (double.div ts 1000)) := by
    have := hpow (double.div ts 1000)
    unfold priceOfPlant
    positivity
  have c0 : (1 : ℚ) ≤ C.timesteps := by exact_mod_cast hn0
  have c1 : (C.timesteps : ℚ) ≤ 8784 := by exact_mod_cast hn
  have hnp : (0 : ℚ) < C.timesteps := by linarith
  have f1 : 9 / 10 ≤ f := by
    rw [hf, le_div_iff₀ hnp]
    linarith
  have f2 : f ≤ 8760 := by
    rw [hf, div_le_iff₀ hnp]
    linarith
  have fe : |double.rnd f - f| ≤ 2 / 10 ^ 15 * f := by
    have e := double_err f
    rw [abs_of_nonneg (by linarith : 0 ≤ f)] at e
    have t : (1 : ℚ) / 10 ^ 300 ≤ 1 / 10 ^ 15 * (9 / 10) := by decide +kernel
    generalize (1 : ℚ) / 10 ^ 300 = τ at *
    linarith
  have value : RoundedKpi.levelisedCostOfEnergy double np pow C = .ok (RoundedKpi.npDiv double
      (double.rnd (double.rnd (double.mul (double.div (double.add (double.mul hp 600)
        (double.div (double.mul ts (RoundedKpi.tsCalc double pow ts)) 1000)) 1000) 1000 +
          double.rnd (double.rnd (double.rnd (E' * 1000) * double.rnd f) * 20)) - s.total))
      (double.rnd (double.rnd (double.rnd (X + Y) * double.rnd f) * 20))) := by
    unfold RoundedKpi.levelisedCostOfEnergy RoundedKpi.capitalCost RoundedKpi.sumHd RoundedKpi.sumEd RoundedKpi.yearFactor
    rw [k1, n0, n1, s1, x1, y1, if_neg (by omega), hf]
    rfl
  have hM := (abs_nonneg _).trans bm
  have t0 : (0 : ℚ) ≤ 1 / 10 ^ 300 := by positivity
  have tn : (0 : ℚ) ≤ 1 / 10 ^ 300 * C.timesteps := mul_nonneg t0 hnp.le
  have e298 : (1 : ℚ) / 10 ^ 298 = 100 * (1 / 10 ^ 300) := by decide +kernel
  have e290 : (1 : ℚ) / 10 ^ 290 = 10 ^ 10 * (1 / 10 ^ 300) := by decide +kernel
  -- the money of a run
  have q : |double.rnd (E' * 1000) - 1000 * energyBill C| ≤
      2 / 10 ^ 12 * (1000 * energyMoney C) + 1 / 10 ^ 290 * (1 + C.timesteps + 0) := by
    have a := rnd_near (scale_near (c := 1000) k2 (by norm_num))
      (by rw [abs_mul, abs_of_nonneg (by norm_num : (0 : ℚ) ≤ 1000)]; exact mul_le_mul_of_nonneg_right bm (by norm_num))
      (by norm_num) (mul_nonneg (mul_nonneg (by positivity) (by linarith)) (by norm_num))
    rw [mul_comm 1000 (energyBill C)]
    refine a.trans ?_
    rw [e298, e290]
    generalize energyMoney C = M at *
    generalize (C.timesteps : ℚ) = m at *
    generalize (1 : ℚ) / 10 ^ 300 = τ at *
    linarith
  have qm : |1000 * energyBill C| ≤ 1000 * energyMoney C := by
    rw [abs_mul, abs_of_nonneg (by norm_num : (0 : ℚ) ≤ 1000)]
    exact mul_le_mul_of_nonneg_left bm (by norm_num)
  -- the demand
  have W0 : 0 ≤ W := le_trans (by norm_num) hg
  have tW : (1 : ℚ) / 10 ^ 300 ≤ 1 / 10 ^ 20 * (1 / 10 ^ 100) := by decide +kernel
  have tW' : (1 : ℚ) / 10 ^ 300 ≤ 1 / 10 ^ 20 * W := tW.trans (mul_le_mul_of_nonneg_left hg (by norm_num))
  have d0 : |(X + Y) - W| ≤ 1 / 10 ^ 12 * W + 2 * (1 / 10 ^ 300) := by
    rw [hW]
    generalize (exactly C fun r => r.heatDemand.heatDemand) = A at *
    generalize (exactly C fun r => r.elecDemand.elecDemand) = B at *
    generalize (1 : ℚ) / 10 ^ 300 = τ at *
    obtain ⟨u1, u2⟩ := abs_le.mp x2
    obtain ⟨v1, v2⟩ := abs_le.mp y2
    exact abs_le.mpr ⟨by linarith, by linarith⟩
  have d1 : |double.rnd (X + Y) - W| ≤ 2 / 10 ^ 12 * W + 0 := by
    refine (rnd_near d0 (by rw [abs_of_nonneg W0]) (by norm_num) (by linarith)).trans ?_
    generalize (1 : ℚ) / 10 ^ 300 = τ at *
    linarith
  obtain ⟨r1, r2⟩ := levelised_near pl pp ts0 hnp le_rfl hρ f1 f2 fe q qm y7 s2 sm hg d1
  rw [add_zero] at r2
  refine ⟨_, ?_, r2⟩
  rw [value]
  unfold RoundedKpi.npDiv
  rw [if_neg (ne_of_gt r1)]
  rfl

/-- The plant of `paidPlant` with a demand for electricity, a cash flow and a bill for fuel. -/
def Spec.fuelledPlant : Calcs Unit :=
  { sampleCalcs [{ hp := { heatTotalOutput := 60000 / 3 + 1 / 10, elecTotalUsage := 4000 }, grid := { cashflow := -3000 }, aux := { cost := 700 }, heatDemand := { heatDemand := 20000 }, elecDemand := { elecDemand := 500 } }] 1 with electric := false }

example : ∃ x, RoundedKpi.levelisedCostOfEnergy double oneByOne (fun _ => 1) fuelledPlant = .ok (some x) ∧
    |x - (146791 / 10 + 20 * 8760 * (1000 * (37 / 10)) -
        subsidyYears fuelledPlant.rhi * ((15768 * 10 + (160001 / 10 - 15768) * 2) / 100)) / (20 * 8760 * 20500)| ≤
      2 / 10 ^ 11 * ((146791 / 10 + 20 * 8760 * (1000 * (37 / 10)) + subsidyYears fuelledPlant.rhi * subsidyScale fuelledPlant) /
        (20 * 8760 * 20500)) + 1 / 10 ^ 178 * (3 + 1000 + 1 + 10) := by
  obtain ⟨x, h1, h2⟩ := C124_levelised_energy_close oneByOne (pow := fun _ => 1) (fun _ => by norm_num) (C := fuelledPlant) rfl
    (by decide) (by decide) (hp := 12) (ts := 1000) (by decide +kernel) sample_scheme.1 sample_scheme.2 (by
      intro r hr
      simp only [fuelledPlant, sampleCalcs, List.mem_cons, List.not_mem_nil, or_false] at hr
      rcases hr with rfl
      constructor <;> norm_num) (W := 20500) (by decide +kernel) (by decide +kernel) rfl
  refine ⟨x, h1, ?_⟩
  have e1 : energyBill fuelledPlant = 37 / 10 := by decide +kernel
  have e2 : subsidy fuelledPlant.rhi (12 : ℕ) (pumpHeat fuelledPlant.results - pumpElec fuelledPlant.results) =
      (15768 * 10 + (160001 / 10 - 15768) * 2) / 100 := by decide +kernel
  have e3 : energyMoney fuelledPlant = 37 / 10 := by decide +kernel
  have e4 : (3 : ℚ) + (1000 : ℕ) + fuelledPlant.timesteps + topRate fuelledPlant.rhi = 3 + 1000 + 1 + 10 := by decide +kernel
  have e5 : (8760 : ℚ) / fuelledPlant.timesteps = 8760 := by decide +kernel
  have e6 : priceOfPlant (12 : ℕ) (1000 : ℕ) 1 = 146791 / 10 := by decide +kernel
  rw [e1, e2, e3, e4, e5, e6] at h2
  exact h2

/-- **The lifetime cost is right to three parts in a million million** of the money behind it. -/
theorem C124_lifetime_close (np : Numpy) {pow : ℚ → ℚ} (hpow : ∀ x, 0 ≤ pow x) {C : Calcs N} (h : AllHours C)
    (hn0 : 0 < C.timesteps) (hn : C.timesteps ≤ 8784) {hp ts : ℕ} (hname : C.name = Para.folderName (hp, ts))
    {f : ℚ} (hf : f = 8760 / C.timesteps) :
    ∃ x, RoundedKpi.lifetimeCost double np pow C = .ok x ∧
      |x - (priceOfPlant hp ts (pow (double.div ts 1000)) / 1000 + 20 * f * energyBill C)| ≤
        3 / 10 ^ 12 * (priceOfPlant hp ts (pow (double.div ts 1000)) / 1000 + 20 * f * energyMoney C) +
        1 / 10 ^ 290 * (1 + ts + C.timesteps) := by
  obtain ⟨E', k1, k2⟩ := C124_energy_cost_close np h hn
  obtain ⟨c', p1, pl⟩ := C124_capital_cost_close hpow (C := C) hname
  have ts0 : (0 : ℚ) ≤ ts := by positivity
  have bm := energy_le_money C
  have pp : 0 ≤ priceOfPlant hp ts (pow (double.div ts 1000)) / 1000 := by
    have := hpow (double.div ts 1000)
    unfold priceOfPlant
    positivity
  have c0 : (1 : ℚ) ≤ C.timesteps := by exact_mod_cast hn0
  have c1 : (C.timesteps : ℚ) ≤ 8784 := by exact_mod_cast hn
  have hnp : (0 : ℚ) < C.timesteps := by linarith
  have f1 : 9 / 10 ≤ f := by
    rw [hf, le_div_iff₀ hnp]
    linarith
  have f2 : f ≤ 8760 := by
    rw [hf, div_le_iff₀ hnp]
    linarith
  have f0 : 0 ≤ f := by linarith
  have fe : |double.rnd f - f| ≤ 2 / 10 ^ 15 * f := by
    have e := double_err f
    rw [abs_of_nonneg f0] at e
    have t : (1 : ℚ) / 10 ^ 300 ≤ 1 / 10 ^ 15 * (9 / 10) := by decide +kernel
    generalize (1 : ℚ) / 10 ^ 300 = τ at *
    linarith
  have value : RoundedKpi.lifetimeCost double np pow C =
      .ok (double.rnd (c' + double.rnd (double.rnd (E' * double.rnd f) * 20))) := by
    unfold RoundedKpi.lifetimeCost RoundedKpi.yearFactor
    rw [k1, p1, if_neg (by omega), hf]
    rfl
  refine ⟨_, value, ?_⟩
  clear value k1 p1
  have hM := (abs_nonneg _).trans bm
  have t0 : (0 : ℚ) ≤ 1 / 10 ^ 300 := by positivity
  have e298 : (1 : ℚ) / 10 ^ 298 = 100 * (1 / 10 ^ 300) := by decide +kernel
  have e290 : (1 : ℚ) / 10 ^ 290 = 10 ^ 10 * (1 / 10 ^ 300) := by decide +kernel
  generalize priceOfPlant hp ts (pow (double.div ts 1000)) / 1000 = c at *
  generalize energyBill C = H at *
  generalize energyMoney C = M at *
  generalize double.rnd f = f' at *
  clear hname hn hn0 h hf
  generalize (C.timesteps : ℚ) = m at *
  generalize (ts : ℚ) = z at *
  have hη : (0 : ℚ) ≤ 1 / 10 ^ 298 * (1 + m) := mul_nonneg (by positivity) (by linarith)
  have hMf : 0 ≤ M * f := mul_nonneg hM f0
  have q1 := prod_near (k2.trans (by linarith : _ ≤ 2 / 10 ^ 12 * M + 1 / 10 ^ 298 * (1 + m))) bm hη f0 fe
  have q2 := rnd_near q1 (by rw [abs_mul, abs_of_nonneg f0]; exact mul_le_mul_of_nonneg_right bm f0) (by norm_num)
    (by have := mul_nonneg hη f0; linarith)
  have q3 := rnd_near (scale_near (c := 20) q2 (by norm_num))
    (by rw [abs_mul, abs_mul, abs_of_nonneg f0, abs_of_nonneg (by norm_num : (0 : ℚ) ≤ 20)]
        exact mul_le_mul_of_nonneg_right (mul_le_mul_of_nonneg_right bm f0) (by norm_num)) (by norm_num)
    (by have := mul_nonneg hη f0; exact mul_nonneg (by linarith) (by norm_num))
  have ηf : 1 / 10 ^ 298 * (1 + m) * f ≤ 1 / 10 ^ 298 * (1 + m) * 8760 := mul_le_mul_of_nonneg_left f2 hη
  have v1 : (0 : ℚ) ≤ 1 / 10 ^ 300 * z := mul_nonneg t0 ts0
  have v2 : (0 : ℚ) ≤ 1 / 10 ^ 300 * m := mul_nonneg t0 hnp.le
  have q4 : |(c' + double.rnd (double.rnd (E' * f') * 20)) - (c + 20 * f * H)| ≤
      22 / 10 ^ 13 * (c + 20 * f * M) + 10 ^ 9 * (1 / 10 ^ 300) * (1 + z + m) := by
    rw [e298] at q3 ηf
    generalize double.rnd (double.rnd (E' * f') * 20) = Y at *
    have u1 : H * f * 20 = 20 * f * H := by ring
    have u2 : M * f * 20 = 20 * (M * f) := by ring
    have u3 : 20 * f * M = 20 * (M * f) := by ring
    have u4 : 10 ^ 9 * (1 / 10 ^ 300) * (1 + z + m) = 10 ^ 9 * (1 / 10 ^ 300 + 1 / 10 ^ 300 * z + 1 / 10 ^ 300 * m) := by ring
    have u5 : 20 * (1 + z) * (1 / 10 ^ 300) = 20 * (1 / 10 ^ 300 + 1 / 10 ^ 300 * z) := by ring
    have u6 : 100 * (1 / 10 ^ 300) * (1 + m) * 8760 = 876000 * (1 / 10 ^ 300 + 1 / 10 ^ 300 * m) := by ring
    rw [u1, u2] at q3
    rw [u5] at pl
    rw [u6] at ηf
    rw [u3, u4]
    generalize 100 * (1 / 10 ^ 300) * (1 + m) * f = κ at *
    generalize M * f = B at *
    generalize 20 * f * H = E at *
    generalize (1 : ℚ) / 10 ^ 300 * z = σ at *
    generalize (1 : ℚ) / 10 ^ 300 * m = μ at *
    generalize (1 : ℚ) / 10 ^ 300 = τ at *
    obtain ⟨a1, a2⟩ := abs_le.mp pl
    obtain ⟨b1, b2⟩ := abs_le.mp q3
    exact abs_le.mpr ⟨by linarith, by linarith⟩
  have hKm : |c + 20 * f * H| ≤ c + 20 * f * M := by
    refine (abs_add_le _ _).trans ?_
    rw [abs_of_nonneg pp, abs_mul, abs_of_nonneg (by linarith : 0 ≤ 20 * f)]
    have := mul_le_mul_of_nonneg_left bm (by linarith : 0 ≤ 20 * f)
    linarith
  have q5 := rnd_near q4 hKm (by norm_num) (mul_nonneg (by positivity) (by linarith))
  refine q5.trans ?_
  have w := (abs_nonneg _).trans hKm
  rw [e290]
  generalize c + 20 * f * M = K at *
  have u4 : 10 ^ 9 * (1 / 10 ^ 300) * (1 + z + m) = 10 ^ 9 * (1 / 10 ^ 300 + 1 / 10 ^ 300 * z + 1 / 10 ^ 300 * m) := by ring
  have u5 : 10 ^ 10 * (1 / 10 ^ 300) * (1 + z + m) = 10 ^ 10 * (1 / 10 ^ 300 + 1 / 10 ^ 300 * z + 1 / 10 ^ 300 * m) := by ring
  rw [u4, u5]
  generalize (1 : ℚ) / 10 ^ 300 * z = σ at *
  generalize (1 : ℚ) / 10 ^ 300 * m = μ at *
  generalize (1 : ℚ) / 10 ^ 300 = τ at *
  linarith

example : ∃ x, RoundedKpi.lifetimeCost double oneByOne (fun _ => 1) fuelledPlant = .ok x ∧
    |x - (146791 / 10 / 1000 + 20 * 8760 * (37 / 10))| ≤
      3 / 10 ^ 12 * (146791 / 10 / 1000 + 20 * 8760 * (37 / 10)) + 1 / 10 ^ 290 * (1 + (1000 : ℕ) + fuelledPlant.timesteps) := by
  obtain ⟨x, h1, h2⟩ := C124_lifetime_close oneByOne (pow := fun _ => 1) (fun _ => by norm_num) (C := fuelledPlant) rfl
    (by decide) (by decide) (hp := 12) (ts := 1000) (by decide +kernel) rfl
  refine ⟨x, h1, ?_⟩
  have e1 : energyBill fuelledPlant = 37 / 10 := by decide +kernel
  have e3 : energyMoney fuelledPlant = 37 / 10 := by decide +kernel
  have e5 : (8760 : ℚ) / fuelledPlant.timesteps = 8760 := by decide +kernel
  have e6 : priceOfPlant (12 : ℕ) (1000 : ℕ) 1 = 146791 / 10 := by decide +kernel
  rw [e1, e3, e5, e6] at h2
  exact h2

/-- A shown total `s` is that of the hourly values `f`, to one part in a million million of the sum of the amounts. -/
def Spec.RightTotal (C : Calcs N) (f : Results N → ℚ) (s : Except PyErr ℚ) : Prop :=
  ∃ x, s = .ok x ∧ |x - exactly C f| ≤ 1 / 10 ^ 12 * amounts C f + 1 / 10 ^ 300

/-- **Every total is that of its own quantity.** -/
theorem C124_each_total (np : Numpy) {C : Calcs N} (h : AllHours C) (hn : C.timesteps ≤ 8784) :
    RightTotal C (fun r => r.aux.demand) (RoundedKpi.sumAuxOutput double np C) ∧
    RightTotal C (fun r => r.hp.heatTotalOutput) (RoundedKpi.sumHpOutput double np C) ∧
    RightTotal C (fun r => r.hp.elecTotalUsage) (RoundedKpi.sumHpUsage double np C) ∧
    RightTotal C (fun r => r.heatDemand.heatDemand) (RoundedKpi.sumHd double np C) ∧
    RightTotal C (fun r => r.elecDemand.elecDemand) (RoundedKpi.sumEd double np C) ∧
    RightTotal C (fun r => r.grid.totalImport) (RoundedKpi.sumImport double np C) ∧
    RightTotal C (fun r => r.grid.totalExport) (RoundedKpi.sumExport double np C) ∧
    RightTotal C (fun r => r.res.generationTotal) (RoundedKpi.sumRes double np C) :=
  ⟨C124_year np h hn _, C124_year np h hn _, C124_year np h hn _, C124_year np h hn _, C124_year np h hn _,
    C124_year np h hn _, C124_year np h hn _, C124_year np h hn _⟩

example : RightTotal fuelledPlant (fun r => r.heatDemand.heatDemand) (RoundedKpi.sumHd double oneByOne fuelledPlant) ∧
    (exactly fuelledPlant fun r => r.heatDemand.heatDemand) = 20000 :=
  ⟨(C124_each_total oneByOne (C := fuelledPlant) rfl (by decide)).2.2.2.1, by decide +kernel⟩

end Verif
