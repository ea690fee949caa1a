import Verif.Model.RoundedLevelised
import Verif.Props.RoundedSubsidy
import Verif.Props.KpiTables

/-! # The levelised cost of heat in floats (C124, continued) -/

set_option autoImplicit false

namespace Verif
open FixedOrder Kpi Spec Rounding
open RoundedKpi (Numpy)
variable {N : Type}

/-- Rounding a value that is near another. -/
theorem rnd_near {x' x s ε η : ℚ} (h : |x' - x| ≤ ε * s + η) (hx : |x| ≤ s) (hε : ε ≤ 1) (hη : 0 ≤ η) :
    |double.rnd x' - x| ≤ (ε + 2 / 10 ^ 15) * s + (2 * η + 1 / 10 ^ 300) := by
  have e := double_err x'
  have hs := (abs_nonneg x).trans hx
  have m : ε * s ≤ 1 * s := mul_le_mul_of_nonneg_right hε hs
  generalize (1 : ℚ) / 10 ^ 300 = τ at *
  obtain ⟨a, b⟩ := abs_le.mp h
  obtain ⟨c, d⟩ := abs_le.mp hx
  have k : |x'| ≤ 2 * s + η := abs_le.mpr ⟨by linarith, by linarith⟩
  obtain ⟨u, v⟩ := abs_le.mp e
  rw [add_mul]
  exact abs_le.mpr ⟨by linarith, by linarith⟩

/-- Scaling a value that is near another. -/
theorem scale_near {x' x s ε η c : ℚ} (h : |x' - x| ≤ ε * s + η) (hc : 0 ≤ c) :
    |x' * c - x * c| ≤ ε * (s * c) + η * c := by
  rw [← sub_mul, abs_mul, abs_of_nonneg hc]
  refine (mul_le_mul_of_nonneg_right h hc).trans (le_of_eq ?_)
  ring

/-- What the heat pump and the store cost, pounds: 600 for a kW, and 7479.1 times the power `p` for a cubic metre. -/
def Spec.priceOfPlant (hp ts p : ℚ) : ℚ := 600 * hp + 74791 / 10 * p * ts / 1000

theorem capital_near {hp ts : ℕ} {pow : ℚ → ℚ} (hpow : ∀ x, 0 ≤ pow x) :
    |double.div (double.add (double.mul hp 600)
        (double.div (double.mul ts (RoundedKpi.tsCalc double pow ts)) 1000)) 1000 -
      priceOfPlant hp ts (pow (double.div ts 1000)) / 1000| ≤
      12 / 10 ^ 15 * (priceOfPlant hp ts (pow (double.div ts 1000)) / 1000) + 20 * (1 + ts) * (1 / 10 ^ 300) := by
  have hp0 : (0 : ℚ) ≤ hp := by positivity
  have ts0 : (0 : ℚ) ≤ ts := by positivity
  have q0 := hpow (double.div ts 1000)
  have t0 : (0 : ℚ) ≤ 1 / 10 ^ 300 := by positivity
  have key : |RoundedKpi.tsCalc double pow ts * ts - 74791 / 10 * pow (double.div ts 1000) * ts| ≤
      4 / 10 ^ 15 * (74791 / 10 * pow (double.div ts 1000) * ts) + 1 / 10 ^ 300 * ts := by
    unfold RoundedKpi.tsCalc
    by_cases hz : (ts : ℚ) ≤ 0
    · have : (ts : ℚ) = 0 := le_antisymm hz ts0
      rw [this]
      simp
    · rw [if_neg hz]
      generalize pow (double.div ts 1000) = p at *
      refine scale_near ?_ ts0
      have l : |double.rnd (74791 / 10) - 74791 / 10| ≤ 2 / 10 ^ 15 * (74791 / 10) + 0 := by decide +kernel
      have l2 := rnd_near (scale_near l q0) (by rw [abs_of_nonneg (by positivity)]) (by norm_num) (by simp)
      refine l2.trans (le_of_eq ?_)
      ring
  generalize pow (double.div ts 1000) = p at *
  generalize RoundedKpi.tsCalc double pow ts = u' at *
  unfold priceOfPlant
  have hv : 0 ≤ 74791 / 10 * p * ts := by positivity
  generalize 74791 / 10 * p * (ts : ℚ) = v at *
  change |double.rnd (double.rnd (double.rnd (hp * 600) + double.rnd (double.rnd (ts * u') / 1000)) / 1000) - _| ≤ _
  rw [mul_comm (ts : ℚ) u']
  have hτ : ∀ k : ℚ, 0 ≤ k → 0 ≤ k * (1 / 10 ^ 300) := fun k hk => mul_nonneg hk t0
  have a1 := rnd_near (x' := (hp : ℚ) * 600) (x := (hp : ℚ) * 600) (s := hp * 600) (ε := 0) (η := 0) (by simp)
    (by rw [abs_of_nonneg (by positivity)]) (by norm_num) le_rfl
  have b1 := rnd_near key (by rw [abs_of_nonneg hv]) (by norm_num) (mul_nonneg t0 ts0)
  have b2 := rnd_near (scale_near (c := 1 / 1000) b1 (by norm_num))
    (by rw [abs_of_nonneg (mul_nonneg hv (by norm_num))]) (by norm_num)
    (mul_nonneg (add_nonneg (mul_nonneg (by norm_num) (mul_nonneg t0 ts0)) t0) (by norm_num))
  rw [mul_one_div, mul_one_div] at b2
  generalize double.rnd (hp * 600) = A' at *
  generalize double.rnd (double.rnd (u' * ts) / 1000) = B' at *
  generalize hT : (1 : ℚ) / 10 ^ 300 = τ at *
  have hτs := mul_nonneg t0 ts0
  have s1 : |(A' + B') - (600 * hp + v / 1000)| ≤ 8 / 10 ^ 15 * (600 * hp + v / 1000) + (4 * ts + 4) * τ := by
    obtain ⟨x1, x2⟩ := abs_le.mp a1
    obtain ⟨y1, y2⟩ := abs_le.mp b2
    exact abs_le.mpr ⟨by linarith, by linarith⟩
  have hS : 0 ≤ 600 * (hp : ℚ) + v / 1000 := by positivity
  generalize 600 * (hp : ℚ) + v / 1000 = S at *
  have s2 := rnd_near s1 (by rw [abs_of_nonneg hS]) (by norm_num) (by positivity)
  have s3 := rnd_near (scale_near (c := 1 / 1000) s2 (by norm_num))
    (by rw [abs_of_nonneg (mul_nonneg hS (by norm_num))]) (by norm_num) (by positivity)
  rw [mul_one_div, mul_one_div, hT] at s3
  refine s3.trans ?_
  have : (4 * (ts : ℚ) + 4) * τ = 4 * (τ * ts) + 4 * τ := by ring
  have e2 : 20 * (1 + (ts : ℚ)) * τ = 20 * τ + 20 * (τ * ts) := by ring
  rw [this, e2]
  linarith

/-- **The capital cost is right to twelve parts in a thousand million million.** The power in the price of a store is taken as
the library gives it. -/
theorem C124_capital_cost_close {pow : ℚ → ℚ} (hpow : ∀ x, 0 ≤ pow x) {C : Calcs N} {hp ts : ℕ}
    (hname : C.name = Para.folderName (hp, ts)) :
    ∃ x, RoundedKpi.capitalCost double pow C = .ok x ∧
      |x - priceOfPlant hp ts (pow (double.div ts 1000)) / 1000| ≤
        12 / 10 ^ 15 * (priceOfPlant hp ts (pow (double.div ts 1000)) / 1000) + 20 * (1 + ts) * (1 / 10 ^ 300) := by
  have n0 : Para.numberAt C.name 0 = .ok hp := by rw [hname]; unfold Para.numberAt; rw [numbers_name]; rfl
  have n1 : Para.numberAt C.name 1 = .ok ts := by rw [hname]; unfold Para.numberAt; rw [numbers_name]; rfl
  refine ⟨_, ?_, capital_near hpow⟩
  unfold RoundedKpi.capitalCost
  rw [n0, n1]
  rfl

theorem plant_near {hp ts : ℕ} {pow : ℚ → ℚ} (hpow : ∀ x, 0 ≤ pow x) :
    |double.mul (double.div (double.add (double.mul hp 600)
        (double.div (double.mul ts (RoundedKpi.tsCalc double pow ts)) 1000)) 1000) 1000 -
      priceOfPlant hp ts (pow (double.div ts 1000))| ≤
      2 / 10 ^ 14 * priceOfPlant hp ts (pow (double.div ts 1000)) + 10 ^ 6 * (1 + ts) * (1 / 10 ^ 300) := by
  have s3 := capital_near (hp := hp) (ts := ts) hpow
  have ts0 : (0 : ℚ) ≤ ts := by positivity
  have t0 : (0 : ℚ) ≤ 1 / 10 ^ 300 := by positivity
  have hS : 0 ≤ priceOfPlant hp ts (pow (double.div ts 1000)) := by
    have := hpow (double.div ts 1000)
    unfold priceOfPlant
    positivity
  generalize priceOfPlant hp ts (pow (double.div ts 1000)) = S at *
  have s4 := rnd_near (scale_near (c := 1000) s3 (by norm_num))
    (by rw [abs_of_nonneg (by positivity)]) (by norm_num) (by positivity)
  rw [show S / 1000 * 1000 = S by ring] at s4
  refine s4.trans ?_
  have hτs := mul_nonneg t0 ts0
  have e1 : 20 * (1 + (ts : ℚ)) * (1 / 10 ^ 300) = 20 * (1 / 10 ^ 300) + 20 * (1 / 10 ^ 300 * ts) := by ring
  have e2 : 10 ^ 6 * (1 + (ts : ℚ)) * (1 / 10 ^ 300) = 10 ^ 6 * (1 / 10 ^ 300) + 10 ^ 6 * (1 / 10 ^ 300 * ts) := by ring
  rw [e1, e2]
  generalize (1 : ℚ) / 10 ^ 300 * ts = σ at *
  generalize (1 : ℚ) / 10 ^ 300 = τ at *
  linarith

/-- A product of two values that are near others. -/
theorem prod_near {H' H M η f f' : ℚ} (h : |H' - H| ≤ 2 / 10 ^ 12 * M + η) (hH : |H| ≤ M) (hη : 0 ≤ η) (hf : 0 ≤ f)
    (h2 : |f' - f| ≤ 2 / 10 ^ 15 * f) : |H' * f' - H * f| ≤ 21 / 10 ^ 13 * (M * f) + 2 * (η * f) := by
  have hM := (abs_nonneg H).trans hH
  have e : H' * f' - H * f = (H' - H) * f + H' * (f' - f) := by ring
  have k : |H'| ≤ 2 * M + η := by
    obtain ⟨a, b⟩ := abs_le.mp h
    obtain ⟨c, d⟩ := abs_le.mp hH
    exact abs_le.mpr ⟨by linarith, by linarith⟩
  have m1 := mul_le_mul_of_nonneg_right h hf
  have m2 := mul_le_mul k h2 (abs_nonneg _) (by positivity)
  rw [e]
  refine (abs_add_le _ _).trans ?_
  rw [abs_mul, abs_mul, abs_of_nonneg hf]
  have x1 : 0 ≤ M * f := mul_nonneg hM hf
  have x2 : 0 ≤ η * f := mul_nonneg hη hf
  have e1 : (2 / 10 ^ 12 * M + η) * f = 2 / 10 ^ 12 * (M * f) + η * f := by ring
  have e2 : (2 * M + η) * (2 / 10 ^ 15 * f) = 4 / 10 ^ 15 * (M * f) + 2 / 10 ^ 15 * (η * f) := by ring
  rw [e1] at m1
  rw [e2] at m2
  linarith

/-- A levelised cost in floats: `c` is the price of the plant, `H` the money for a run, `n` years of a subsidy `F`, and `W`
the demand. -/
theorem levelised_near {c' c z f f' H' H M m P s n F G ρ X W : ℚ}
    (pl : |c' - c| ≤ 2 / 10 ^ 14 * c + 10 ^ 6 * (1 + z) * (1 / 10 ^ 300)) (pp : 0 ≤ c) (ts0 : 0 ≤ z) (hnp : 0 < m) (hP : 0 ≤ P)
    (hρ : 0 ≤ ρ) (f1 : 9 / 10 ≤ f) (f2 : f ≤ 8760) (fe : |f' - f| ≤ 2 / 10 ^ 15 * f)
    (k2 : |H' - H| ≤ 2 / 10 ^ 12 * M + 1 / 10 ^ 290 * (1 + m + P)) (bm : |H| ≤ M) (y7 : 0 ≤ n ∧ n ≤ 20)
    (s2 : |s - n * F| ≤ n * (6 / 10 ^ 12 * G + 1 / 10 ^ 289 * (1 + ρ))) (sm : |F| ≤ G) (hg : 1 / 10 ^ 100 ≤ W)
    (d1 : |X - W| ≤ 2 / 10 ^ 12 * W + 0) :
    0 < double.rnd (double.rnd (X * f') * 20) ∧
    |double.rnd (double.rnd (double.rnd (c' + double.rnd (double.rnd (H' * f') * 20)) - s) /
        double.rnd (double.rnd (X * f') * 20)) - (c + 20 * f * H - n * F) / (20 * f * W)| ≤
      2 / 10 ^ 11 * ((c + 20 * f * M + n * G) / (20 * f * W)) + 1 / 10 ^ 178 * (3 + z + m + P + ρ) := by
  have f0 : 0 ≤ f := by linarith
  have hM := (abs_nonneg H).trans bm
  have hG := (abs_nonneg F).trans sm
  have W0 : 0 ≤ W := le_trans (by norm_num) hg
  have e290 : (1 : ℚ) / 10 ^ 290 = 10 ^ 10 * (1 / 10 ^ 300) := by decide +kernel
  have e289 : (1 : ℚ) / 10 ^ 289 = 10 ^ 11 * (1 / 10 ^ 300) := by decide +kernel
  have e280 : (1 : ℚ) / 10 ^ 280 = 10 ^ 20 * (1 / 10 ^ 300) := by decide +kernel
  have t0 : (0 : ℚ) ≤ 1 / 10 ^ 300 := by positivity
  have tW : (1 : ℚ) / 10 ^ 300 ≤ 1 / 10 ^ 20 * (1 / 10 ^ 100) := by decide +kernel
  have tW' : (1 : ℚ) / 10 ^ 300 ≤ 1 / 10 ^ 20 * W := tW.trans (mul_le_mul_of_nonneg_left hg (by norm_num))
  have hW : 1 / 10 ^ 100 ≤ 20 * f * W := by
    refine hg.trans ?_
    have := mul_le_mul_of_nonneg_right (by linarith : (1 : ℚ) ≤ 20 * f) W0
    linarith
  clear tW
  -- the money
  have hη : (0 : ℚ) ≤ 1 / 10 ^ 290 * (1 + m + P) := mul_nonneg (by positivity) (by linarith)
  have q1 := prod_near k2 bm hη f0 fe
  have q2 := rnd_near q1 (by rw [abs_mul, abs_of_nonneg f0]; exact mul_le_mul_of_nonneg_right bm f0) (by norm_num)
    (by have := mul_nonneg hη f0; linarith)
  have q3 := rnd_near (scale_near (c := 20) q2 (by norm_num))
    (by rw [abs_mul, abs_mul, abs_of_nonneg f0, abs_of_nonneg (by norm_num : (0 : ℚ) ≤ 20)]
        exact mul_le_mul_of_nonneg_right (mul_le_mul_of_nonneg_right bm f0) (by norm_num)) (by norm_num)
    (by have := mul_nonneg hη f0; exact mul_nonneg (by linarith) (by norm_num))
  have hMf : 0 ≤ M * f := mul_nonneg hM f0
  have ηf : 1 / 10 ^ 290 * (1 + m + P) * f ≤ 1 / 10 ^ 290 * (1 + m + P) * 8760 := mul_le_mul_of_nonneg_left f2 hη
  have q4 : |(c' + double.rnd (double.rnd (H' * f') * 20)) - (c + 20 * f * H)| ≤
      3 / 10 ^ 12 * (c + 20 * f * M) + 10 ^ 18 * (1 / 10 ^ 300) * (2 + z + m + P) := by
    rw [e290] at q3 ηf
    rw [e290] at hη
    generalize (1 : ℚ) / 10 ^ 300 = τ at *
    generalize double.rnd (double.rnd (H' * f') * 20) = Y at *
    have u1 : H * f * 20 = 20 * f * H := by ring
    have u2 : M * f * 20 = 20 * (M * f) := by ring
    have u3 : 20 * f * M = 20 * (M * f) := by ring
    have u4 : 10 ^ 18 * τ * (2 + z + m + P) = 10 ^ 18 * (2 * τ + τ * z + τ * m + τ * P) := by ring
    have u5 : 10 ^ 6 * (1 + z) * τ = 10 ^ 6 * (τ + τ * z) := by ring
    have u6 : 10 ^ 10 * τ * (1 + m + P) * 8760 = 10 ^ 10 * 8760 * (τ + τ * m + τ * P) := by ring
    have v1 : 0 ≤ τ * z := mul_nonneg t0 ts0
    have v2 : 0 ≤ τ * m := mul_nonneg t0 hnp.le
    have v3 : 0 ≤ τ * P := mul_nonneg t0 hP
    rw [u1, u2] at q3
    rw [u5] at pl
    rw [u6] at ηf
    rw [u3, u4]
    generalize 10 ^ 10 * τ * (1 + m + P) * f = κ at *
    generalize M * f = B at *
    generalize 20 * f * H = E at *
    obtain ⟨a1, a2⟩ := abs_le.mp pl
    obtain ⟨b1, b2⟩ := abs_le.mp q3
    exact abs_le.mpr ⟨by linarith, by linarith⟩
  have hKm : |c + 20 * f * H| ≤ c + 20 * f * M := by
    refine (abs_add_le _ _).trans ?_
    rw [abs_of_nonneg pp, abs_mul, abs_of_nonneg (by linarith : 0 ≤ 20 * f)]
    have := mul_le_mul_of_nonneg_left bm (by linarith : 0 ≤ 20 * f)
    linarith
  have q5 := rnd_near q4 hKm (by norm_num) (by
    exact mul_nonneg (by positivity) (by linarith))
  -- the heat
  have d2 := prod_near d1 (by rw [abs_of_nonneg W0]) le_rfl f0 fe
  have hWf : 0 ≤ W * f := mul_nonneg W0 f0
  have d3 := rnd_near d2 (by rw [abs_of_nonneg hWf]) (by norm_num) (by simp)
  have d4 := rnd_near (scale_near (c := 20) d3 (by norm_num)) (by rw [abs_of_nonneg (by positivity)]) (by norm_num)
    (by refine mul_nonneg ?_ (by norm_num); simp)
  have d5 : |double.rnd (double.rnd (X * f') * 20) - 20 * f * W| ≤ 3 / 10 ^ 12 * (20 * f * W) := by
    have u1 : W * f * 20 = 20 * f * W := by ring
    have u2 : 20 * f * W = 20 * (W * f) := by ring
    have u3 : W * (9 / 10) ≤ W * f := mul_le_mul_of_nonneg_left f1 W0
    rw [u1, u2] at d4
    rw [u2]
    generalize (1 : ℚ) / 10 ^ 300 = τ at *
    generalize W * f = B at *
    refine d4.trans ?_
    linarith
  -- the share
  have hnF : |n * F| ≤ n * G := by
    rw [abs_mul, abs_of_nonneg y7.1]
    exact mul_le_mul_of_nonneg_left sm y7.1
  have hnG : 0 ≤ n * G := mul_nonneg y7.1 hG
  have hcM := (abs_nonneg _).trans hKm
  have t9 : (0 : ℚ) ≤ 1 / 10 ^ 280 := by positivity
  have τz : 0 ≤ 1 / 10 ^ 300 * z := mul_nonneg t0 ts0
  have τm : 0 ≤ 1 / 10 ^ 300 * m := mul_nonneg t0 hnp.le
  have τP : 0 ≤ 1 / 10 ^ 300 * P := mul_nonneg t0 hP
  have τρ : 0 ≤ 1 / 10 ^ 300 * ρ := mul_nonneg t0 hρ
  obtain ⟨r1, r2⟩ := quotient_near (a := 2 * (c + 20 * f * M)) (b := 2 * (n * G))
    (δ := 1 / 10 ^ 280 * (3 + z + m + P + ρ)) hW (hKm.trans (by linarith)) (hnF.trans (by linarith))
    (q5.trans (by
      rw [e280]
      have u : 10 ^ 18 * (1 / 10 ^ 300) * (2 + z + m + P) =
        10 ^ 18 * (2 * (1 / 10 ^ 300) + 1 / 10 ^ 300 * z + 1 / 10 ^ 300 * m + 1 / 10 ^ 300 * P) := by ring
      have v : 10 ^ 20 * (1 / 10 ^ 300) * (3 + z + m + P + ρ) =
        10 ^ 20 * (3 * (1 / 10 ^ 300) + 1 / 10 ^ 300 * z + 1 / 10 ^ 300 * m + 1 / 10 ^ 300 * P + 1 / 10 ^ 300 * ρ) := by ring
      rw [u, v]
      generalize (1 : ℚ) / 10 ^ 300 = τ at *
      linarith))
    (s2.trans (by
      rw [e280, e289]
      have v : 10 ^ 20 * (1 / 10 ^ 300) * (3 + z + m + P + ρ) =
        10 ^ 20 * (3 * (1 / 10 ^ 300) + 1 / 10 ^ 300 * z + 1 / 10 ^ 300 * m + 1 / 10 ^ 300 * P + 1 / 10 ^ 300 * ρ) := by ring
      have u : n * (6 / 10 ^ 12 * G + 10 ^ 11 * (1 / 10 ^ 300) * (1 + ρ)) =
        6 / 10 ^ 12 * (n * G) + n * (10 ^ 11 * (1 / 10 ^ 300 + 1 / 10 ^ 300 * ρ)) := by ring
      have w := mul_le_mul_of_nonneg_right y7.2 (by linarith : 0 ≤ 10 ^ 11 * ((1 : ℚ) / 10 ^ 300 + 1 / 10 ^ 300 * ρ))
      rw [u, v]
      generalize (1 : ℚ) / 10 ^ 300 = τ at *
      linarith))
    d5 (by
      have g := mul_le_mul_of_nonneg_left (by linarith : (1 : ℚ) ≤ 3 + z + m + P + ρ) t9
      have t : (1 : ℚ) / 10 ^ 300 ≤ 1 / 10 ^ 280 * 1 := by decide +kernel
      exact t.trans g)
  refine ⟨r1, r2.trans (add_le_add (le_of_eq ?_) (le_of_eq ?_))⟩
  · rw [← mul_add, mul_div_assoc]
    ring
  · have t : (10 : ℚ) ^ 102 * (1 / 10 ^ 280) = 1 / 10 ^ 178 := by decide +kernel
    rw [← mul_assoc, t]

/-- **The levelised cost of heat is right to two parts in a hundred thousand million** of the money behind it, the price of
the plant, twenty years of heating and the subsidies, per unit of heat demanded. The power in the price of a store is taken
as the library gives it. -/
theorem C124_levelised_heat_close (np : Numpy) {pow : ℚ → ℚ} (hpow : ∀ x, 0 ≤ pow x) {C : Calcs N} (h : AllHours C)
    (hn0 : 0 < C.timesteps) (hn : C.timesteps ≤ 8784) {hp ts : ℕ} (hname : C.name = Para.folderName (hp, ts))
    (hk : KnownScheme C.rhi) (hp0 : RatesNonneg C.rhi) (hd : ∀ r ∈ C.results, 0 ≤ r.heatDemand.heatDemand)
    (hg : 1 / 10 ^ 100 ≤ exactly C fun r => r.heatDemand.heatDemand) {f : ℚ} (hf : f = 8760 / C.timesteps) :
    ∃ x, RoundedKpi.levelisedCostOfHeat double np pow C = .ok (some x) ∧
      |x - (priceOfPlant hp ts (pow (double.div ts 1000)) + 20 * f * heatBill C.electric C.results -
            subsidyYears C.rhi * subsidy C.rhi hp (pumpHeat C.results - pumpElec C.results)) /
          (20 * f * exactly C fun r => r.heatDemand.heatDemand)| ≤
        2 / 10 ^ 11 * ((priceOfPlant hp ts (pow (double.div ts 1000)) + 20 * f * heatMoney C +
            subsidyYears C.rhi * subsidyScale C) / (20 * f * exactly C fun r => r.heatDemand.heatDemand)) +
        1 / 10 ^ 178 * (3 + ts + C.timesteps + (amounts C fun r => r.grid.importPrice) + topRate C.rhi) := by
  obtain ⟨H', k1, k2⟩ := C124_heat_cost_close np h hn
  obtain ⟨s, s1, -, s2⟩ := C124_subsidy_close np h hn hname hk hp0
  obtain ⟨X, x1, x2⟩ := C124_year np h hn fun r => r.heatDemand.heatDemand
  rw [amounts_eq fun r hr => hd r hr] at x2
  have pl := plant_near (hp := hp) (ts := ts) hpow
  have n0 : Para.numberAt C.name 0 = .ok hp := by rw [hname]; unfold Para.numberAt; rw [numbers_name]; rfl
  have n1 : Para.numberAt C.name 1 = .ok ts := by rw [hname]; unfold Para.numberAt; rw [numbers_name]; rfl
  have hP := amounts_nonneg C fun r => r.grid.importPrice
  have hρ := topRate_nonneg hp0
  have ts0 : (0 : ℚ) ≤ ts := by positivity
  have y7 : 0 ≤ subsidyYears C.rhi ∧ subsidyYears C.rhi ≤ 20 := by unfold subsidyYears; split <;> norm_num
  have bm := bill_le_money C
  have sm := subsidy_le_scale hk hp0 hp
  have pp : 0 ≤ priceOfPlant hp ts (pow (double.div ts 1000)) := by
    have := hpow (double.div ts 1000)
    unfold priceOfPlant
    positivity
  -- the factor for a year
  have c0 : (1 : ℚ) ≤ C.timesteps := by exact_mod_cast hn0
  have c1 : (C.timesteps : ℚ) ≤ 8784 := by exact_mod_cast hn
  have hnp : (0 : ℚ) < C.timesteps := by linarith
  have f1 : 9 / 10 ≤ f := by
    rw [hf, le_div_iff₀ hnp]
    linarith
  have f2 : f ≤ 8760 := by
    rw [hf, div_le_iff₀ hnp]
    linarith
  have fe : |double.rnd f - f| ≤ 2 / 10 ^ 15 * f := by
    have e := double_err f
    rw [abs_of_nonneg (by linarith : 0 ≤ f)] at e
    have t : (1 : ℚ) / 10 ^ 300 ≤ 1 / 10 ^ 15 * (9 / 10) := by decide +kernel
    generalize (1 : ℚ) / 10 ^ 300 = τ at *
    linarith
  -- the computed value
  have value : RoundedKpi.levelisedCostOfHeat double np pow C = .ok (RoundedKpi.npDiv double
      (double.rnd (double.rnd (double.mul (double.div (double.add (double.mul hp 600)
        (double.div (double.mul ts (RoundedKpi.tsCalc double pow ts)) 1000)) 1000) 1000 +
          double.rnd (double.rnd (H' * double.rnd f) * 20)) - s.total))
      (double.rnd (double.rnd (X * double.rnd f) * 20))) := by
    unfold RoundedKpi.levelisedCostOfHeat RoundedKpi.capitalCost RoundedKpi.sumHd RoundedKpi.yearFactor
    rw [k1, n0, n1, s1, x1, if_neg (by omega), hf]
    rfl
  generalize double.mul (double.div (double.add (double.mul hp 600)
        (double.div (double.mul ts (RoundedKpi.tsCalc double pow ts)) 1000)) 1000) 1000 = c' at *
  generalize priceOfPlant hp ts (pow (double.div ts 1000)) = c at *
  generalize double.rnd f = f' at *
  have f0 : 0 ≤ f := by linarith
  generalize heatBill C.electric C.results = H at *
  generalize heatMoney C = M at *
  generalize subsidy C.rhi hp (pumpHeat C.results - pumpElec C.results) = F at *
  generalize subsidyScale C = G at *
  generalize subsidyYears C.rhi = n at *
  generalize (exactly C fun r => r.heatDemand.heatDemand) = W at *
  generalize (amounts C fun r => r.grid.importPrice) = P at *
  generalize topRate C.rhi = ρ at *
  generalize (C.timesteps : ℚ) = m at *
  generalize (ts : ℚ) = z at *
  have tW : (1 : ℚ) / 10 ^ 300 ≤ 1 / 10 ^ 20 * (1 / 10 ^ 100) := by decide +kernel
  have tW' : (1 : ℚ) / 10 ^ 300 ≤ 1 / 10 ^ 20 * W := tW.trans (mul_le_mul_of_nonneg_left hg (by norm_num))
  have W0 : 0 ≤ W := le_trans (by norm_num) hg
  have d1 : |X - W| ≤ 2 / 10 ^ 12 * W + 0 := by
    refine x2.trans ?_
    generalize (1 : ℚ) / 10 ^ 300 = τ at *
    linarith
  obtain ⟨r1, r2⟩ := levelised_near pl pp ts0 hnp hP hρ f1 f2 fe k2 bm y7 s2 sm hg d1
  refine ⟨_, ?_, r2⟩
  rw [value]
  unfold RoundedKpi.npDiv
  rw [if_neg (ne_of_gt r1)]
  rfl

/-- One hour in which a heat pump of 12 kW with a store of 1000 litres meets a demand for heat. -/
def Spec.paidPlant : Calcs Unit :=
  sampleCalcs [{ hp := { heatTotalOutput := 60000 / 3 + 1 / 10, elecTotalUsage := 4000 }, grid := { totalImport := 5000, importForElecDemand := 1000, importPrice := 150 }, heatDemand := { heatDemand := 20000 } }] 1

example : ∃ x, RoundedKpi.capitalCost double (fun _ => 1) paidPlant = .ok x ∧
    |x - 146791 / 10 / 1000| ≤ 12 / 10 ^ 15 * (146791 / 10 / 1000) + 20 * (1 + 1000) * (1 / 10 ^ 300) := by
  obtain ⟨x, h1, h2⟩ := C124_capital_cost_close (pow := fun _ => 1) (fun _ => by norm_num) (C := paidPlant) (hp := 12)
    (ts := 1000) (by decide +kernel)
  refine ⟨x, h1, ?_⟩
  have e6 : priceOfPlant (12 : ℕ) (1000 : ℕ) 1 = 146791 / 10 := by decide +kernel
  rw [e6] at h2
  exact_mod_cast h2

example : ∃ x, RoundedKpi.levelisedCostOfHeat double oneByOne (fun _ => 1) paidPlant = .ok (some x) ∧
    |x - (146791 / 10 + 20 * 8760 * 600 - subsidyYears paidPlant.rhi * ((15768 * 10 + (160001 / 10 - 15768) * 2) / 100)) /
        (20 * 8760 * 20000)| ≤
      2 / 10 ^ 11 * ((146791 / 10 + 20 * 8760 * heatMoney paidPlant + subsidyYears paidPlant.rhi * subsidyScale paidPlant) /
        (20 * 8760 * 20000)) + 1 / 10 ^ 178 * (3 + 1000 + 1 + 150 + 10) := by
  obtain ⟨x, h1, h2⟩ := C124_levelised_heat_close oneByOne (pow := fun _ => 1) (fun _ => by norm_num) (C := paidPlant) rfl
    (by decide) (by decide) (hp := 12) (ts := 1000) (by decide +kernel) sample_scheme.1 sample_scheme.2 (by
      intro r hr
      simp only [paidPlant, sampleCalcs, List.mem_cons, List.not_mem_nil, or_false] at hr
      rcases hr with rfl
      norm_num) (by decide +kernel) rfl
  refine ⟨x, h1, ?_⟩
  have e1 : heatBill paidPlant.electric paidPlant.results = 600 := by decide +kernel
  have e2 : subsidy paidPlant.rhi (12 : ℕ) (pumpHeat paidPlant.results - pumpElec paidPlant.results) =
      (15768 * 10 + (160001 / 10 - 15768) * 2) / 100 := by decide +kernel
  have e3 : (exactly paidPlant fun r => r.heatDemand.heatDemand) = 20000 := by decide +kernel
  have e4 : (3 : ℚ) + (1000 : ℕ) + paidPlant.timesteps + (amounts paidPlant fun r => r.grid.importPrice) + topRate paidPlant.rhi =
      3 + 1000 + 1 + 150 + 10 := by decide +kernel
  have e5 : (8760 : ℚ) / paidPlant.timesteps = 8760 := by decide +kernel
  have e6 : priceOfPlant (12 : ℕ) (1000 : ℕ) 1 = 146791 / 10 := by decide +kernel
  rw [e1, e2, e3, e4, e5, e6] at h2
  exact h2

end Verif
