import Verif.Props.RoundedShares

/-!
# The subsidy and the cost of a unit of heat in floats (C124, continued)
-/

set_option autoImplicit false

namespace Verif
open FixedOrder Kpi Spec Rounding
open RoundedKpi (Numpy)
variable {N : Type} {R : Rounding}

/-- The year's subsidy for some heat, pounds: a fixed rate, or one rate up to 1314 hours of the capacity and another above. -/
def Spec.subsidy (i : Rhi) (capacity heat : ℚ) : ℚ :=
  if i.tariffType = "Fixed" then heat * i.fixedRate / 100 else tieredPay i.tier1 i.tier2 (1314 * capacity) heat

/-- The highest of the rates that matter, pence per kWh. -/
def Spec.topRate (i : Rhi) : ℚ := if i.tariffType = "Fixed" then i.fixedRate else max i.tier1 i.tier2

/-- No rate is negative. -/
def Spec.RatesNonneg (i : Rhi) : Prop := 0 ≤ i.fixedRate ∧ 0 ≤ i.tier1 ∧ 0 ≤ i.tier2

/-- The kind of tariff and of scheme are those the program knows. -/
def Spec.KnownScheme (i : Rhi) : Prop :=
  (i.tariffType = "Fixed" ∨ i.tariffType = "Tiered") ∧ (i.rhiType = "Domestic" ∨ i.rhiType = "Non-domestic")

/-- For how many years the subsidy is paid. -/
def Spec.subsidyYears (i : Rhi) : ℚ := if i.rhiType = "Domestic" then 7 else 20

theorem subsidy_of {i : Rhi} (hk : KnownScheme i) (e c : ℚ) : Kpi.rhiYear i e c = .ok (subsidy i c e) := by
  unfold subsidy
  rcases hk.1 with h | h
  · rw [if_pos h, (C45_rates i e c).2 h]
  · rw [if_neg (by rw [h]; decide), (C45_rates i e c).1 h]

theorem years_of {i : Rhi} (hk : KnownScheme i) : rhiYears i = .ok (subsidyYears i) := by
  unfold rhiYears subsidyYears
  split
  · rfl
  · rw [if_pos (hk.2.resolve_left ‹_›)]

theorem income_eq {np : Numpy} {C : Calcs N} (h : AllHours C) {hp ts : ℕ} (hn : C.name = Para.folderName (hp, ts))
    {year years : ℚ} (hy : RoundedKpi.rhiYear R C.rhi
      (R.sub (RoundedKpi.npSum R np (C.results.map (·.hp.heatTotalOutput)))
        (RoundedKpi.npSum R np (C.results.map (·.hp.elecTotalUsage)))) hp = .ok year) (hs : rhiYears C.rhi = .ok years) :
    RoundedKpi.rhiIncome R np C = .ok ⟨year, R.mul year years⟩ := by
  have hz := (C43_sizes_from_name (Int.natCast_nonneg hp) (Int.natCast_nonneg ts)).1
  unfold RoundedKpi.rhiIncome RoundedKpi.sumHpOutput RoundedKpi.sumHpUsage
  rw [RoundedKpi.total_ok h, RoundedKpi.total_ok h, hn, hz]
  show (do let y ← RoundedKpi.rhiYear R C.rhi (R.sub (RoundedKpi.npSum R np (C.results.map fun r : Results N => r.hp.heatTotalOutput))
        (RoundedKpi.npSum R np (C.results.map fun r : Results N => r.hp.elecTotalUsage))) hp; _) = _
  rw [hy, hs]
  rfl

/-! ## Order -/

theorem year_mono (hr : Rounds R) {i : Rhi} (hk : KnownScheme i) (hp : RatesNonneg i) {e e' c : ℚ} (h : e ≤ e') :
    ∃ x y, RoundedKpi.rhiYear R i e c = .ok x ∧ RoundedKpi.rhiYear R i e' c = .ok y ∧ x ≤ y := by
  obtain ⟨p0, p1, p2⟩ := hp
  have m1 : ∀ t : ℚ, 0 ≤ t → ∀ a b : ℚ, a ≤ b → R.div (R.mul a t) 100 ≤ R.div (R.mul b t) 100 := fun t ht a b hab =>
    hr.mono _ _ (div_le_div_of_nonneg_right (hr.mono _ _ (mul_le_mul_of_nonneg_right hab ht)) (by norm_num))
  have up : ∀ x, 0 ≤ x → 0 ≤ R.rnd x := fun x hx => by
    have := hr.mono 0 x hx; rwa [RoundedKpi.rounds_zero hr] at this
  unfold RoundedKpi.rhiYear
  rcases hk.1 with ht | ht
  · rw [if_pos ht, if_pos ht]
    exact ⟨_, _, rfl, rfl, m1 _ p0 _ _ h⟩
  have hf : i.tariffType ≠ "Fixed" := by rw [ht]; decide
  rw [if_neg hf, if_pos ht, if_neg hf, if_pos ht]
  dsimp only
  by_cases h1 : e' ≤ c * 1314
  · rw [if_pos h1, if_pos (h.trans h1)]
    exact ⟨_, _, rfl, rfl, m1 _ p1 _ _ h⟩
  rw [if_neg h1]
  have h1' := (not_le.mp h1).le
  by_cases h2 : e ≤ c * 1314
  · rw [if_pos h2]
    refine ⟨_, _, rfl, rfl, (m1 _ p1 _ _ h2).trans (hr.mono _ _ (div_le_div_of_nonneg_right ?_ (by norm_num)))⟩
    have h3 : R.mul (c * 1314) i.tier1 ≤
        R.mul (c * 1314) i.tier1 + R.mul (R.sub e' (c * 1314)) i.tier2 :=
      le_add_of_nonneg_right (up _ (mul_nonneg (up _ (by linarith)) p2))
    calc R.mul (c * 1314) i.tier1 = R.rnd (R.mul (c * 1314) i.tier1) := (hr.idem _).symm
      _ ≤ _ := hr.mono _ _ h3
  · rw [if_neg h2]
    refine ⟨_, _, rfl, rfl, hr.mono _ _ (div_le_div_of_nonneg_right (hr.mono _ _ ?_) (by norm_num))⟩
    exact (add_le_add_iff_left _).mpr (hr.mono _ _ (mul_le_mul_of_nonneg_right (hr.mono _ _ (by linarith)) p2))

/-- **More heat from less electricity never earns less**, not even by a rounding, on either side of the limit between the
rates: of two runs with the same size and the same scheme, the one whose heat pump gives as much or more heat and takes as
much or less electricity in every hour has the higher or equal subsidy. -/
theorem C124_subsidy_order (hr : Rounds R) (np : Numpy) {C D : Calcs N} (hC : AllHours C) (hD : AllHours D) {hp ts ts' : ℕ}
    (hn : C.name = Para.folderName (hp, ts)) (hn' : D.name = Para.folderName (hp, ts')) (hi : D.rhi = C.rhi)
    (hk : KnownScheme C.rhi) (hp0 : RatesNonneg C.rhi)
    (h : List.Forall₂ (fun a b => a.hp.heatTotalOutput ≤ b.hp.heatTotalOutput ∧
      b.hp.elecTotalUsage ≤ a.hp.elecTotalUsage) C.results D.results) :
    ∃ x y, RoundedKpi.rhiIncome R np C = .ok x ∧ RoundedKpi.rhiIncome R np D = .ok y ∧
      x.year ≤ y.year ∧ x.total ≤ y.total := by
  have a := RoundedKpi.npSum_mono hr np (xs := C.results.map (·.hp.heatTotalOutput)) (ys := D.results.map (·.hp.heatTotalOutput))
    (List.forall₂_map_left_iff.mpr (List.forall₂_map_right_iff.mpr (h.imp fun _ _ x => x.1)))
  have b := RoundedKpi.npSum_mono hr np (xs := D.results.map (·.hp.elecTotalUsage)) (ys := C.results.map (·.hp.elecTotalUsage))
    (List.forall₂_map_left_iff.mpr (List.forall₂_map_right_iff.mpr (h.flip.imp fun _ _ x => x.2)))
  obtain ⟨x, y, hx, hy, hxy⟩ := year_mono hr hk hp0 (c := hp) (hr.mono _ _ (sub_le_sub a b))
  have hs := years_of hk
  have y0 : 0 ≤ subsidyYears C.rhi := by unfold subsidyYears; split <;> norm_num
  exact ⟨_, _, income_eq hC hn hx hs, income_eq hD hn' (by rw [hi]; exact hy) (by rw [hi]; exact hs), hxy,
    hr.mono _ _ (mul_le_mul_of_nonneg_right hxy y0)⟩

/-- A heat pump of 12 kW below its limit, which is 15768 kWh. -/
def Spec.belowLimit : Calcs Unit :=
  sampleCalcs [{ hp := { heatTotalOutput := 20000, elecTotalUsage := 30001 / 7 } }] 1

/-- The same pump beyond the limit. -/
def Spec.beyondLimit : Calcs Unit :=
  sampleCalcs [{ hp := { heatTotalOutput := 60000 / 3 + 1 / 10, elecTotalUsage := 4000 } }] 1

theorem sample_scheme : KnownScheme belowLimit.rhi ∧ RatesNonneg belowLimit.rhi :=
  ⟨⟨.inr rfl, .inl rfl⟩, by decide +kernel, by decide +kernel, by decide +kernel⟩

example : ∃ x y, RoundedKpi.rhiIncome double oneByOne belowLimit = .ok x ∧
    RoundedKpi.rhiIncome double oneByOne beyondLimit = .ok y ∧ x.year ≤ y.year ∧ x.total ≤ y.total :=
  C124_subsidy_order double_rounds oneByOne (C := belowLimit) (D := beyondLimit) rfl rfl (hp := 12) (ts := 1000) (ts' := 1000)
    (by decide +kernel) (by decide +kernel) rfl sample_scheme.1 sample_scheme.2
    (.cons ⟨by decide +kernel, by decide +kernel⟩ .nil)

/-! ## Closeness -/

theorem subsidy_moves {i : Rhi} (hk : KnownScheme i) (hp : RatesNonneg i) (c e e' : ℚ) :
    |subsidy i c e' - subsidy i c e| ≤ topRate i / 100 * |e' - e| := by
  obtain ⟨p0, p1, p2⟩ := hp
  have one : ∀ a b : ℚ, a ≤ b → 0 ≤ subsidy i c b - subsidy i c a ∧
      subsidy i c b - subsidy i c a ≤ topRate i / 100 * (b - a) := fun a b hab => by
    refine ⟨sub_nonneg.mpr (C45_monotone p1 p2 p0 hab (subsidy_of hk a c) (subsidy_of hk b c)), ?_⟩
    rcases hk.1 with h | h
    · unfold subsidy topRate
      rw [if_pos h, if_pos h, if_pos h]
      linarith
    · have := C45_no_jump h (d := b - a) (sub_nonneg.mpr hab) (subsidy_of hk a c)
        (by rw [add_sub_cancel]; exact subsidy_of hk b c)
      unfold topRate
      rw [if_neg (by rw [h]; decide)]
      linarith
  rcases le_total e e' with h | h
  · obtain ⟨a, b⟩ := one e e' h
    rwa [abs_of_nonneg a, abs_of_nonneg (by linarith)]
  · obtain ⟨a, b⟩ := one e' e h
    rw [abs_sub_comm, abs_of_nonneg a, abs_sub_comm, abs_of_nonneg (by linarith)]
    exact b

theorem subsidy_zero {i : Rhi} {c : ℚ} (hc : 0 ≤ c) : subsidy i c 0 = 0 := by
  unfold subsidy tieredPay
  split
  · ring
  · rw [min_eq_left (by linarith), max_eq_right (by linarith)]; ring

/-- One rate on some heat, in floats. -/
theorem rate_near (e t : ℚ) :
    |double.div (double.mul e t) 100 - e * t / 100| ≤ 3 / 10 ^ 15 * |e * t| + 2 * (1 / 10 ^ 300) := by
  have e1 := double_err (e * t)
  have e2 := double_err (double.rnd (e * t) / 100)
  change |double.rnd (double.rnd (e * t) / 100) - _| ≤ _
  rw [show |double.rnd (e * t) / 100| = |double.rnd (e * t)| / 100 by rw [abs_div]; norm_num] at e2
  have b1 := abs_sub_abs_le_abs_sub (double.rnd (e * t)) (e * t)
  have b0 := abs_nonneg (e * t)
  have t0 : (0 : ℚ) ≤ 1 / 10 ^ 300 := by positivity
  generalize (1 : ℚ) / 10 ^ 300 = τ at *
  generalize |double.rnd (e * t)| = Y at *
  generalize |e * t| = X at *
  obtain ⟨x1, x2⟩ := abs_le.mp e1
  obtain ⟨y1, y2⟩ := abs_le.mp e2
  exact abs_le.mpr ⟨by linarith, by linarith⟩

/-- Two rates on two parts of some heat, in floats. -/
theorem tiers_near {l d t t' m : ℚ} (hl : 0 ≤ l) (hd : 0 ≤ d) (ht : 0 ≤ t) (ht' : 0 ≤ t') (hm : l * t + d * t' ≤ m) :
    |double.div (double.add (double.mul l t) (double.mul (double.rnd d) t')) 100 - (l * t + d * t') / 100| ≤
      1 / 10 ^ 14 * m + 4 * (1 / 10 ^ 300) * (1 + t') := by
  have a := double_err (l * t)
  have b := double_err d
  have b' : |double.rnd d * t' - d * t'| ≤ 1 / 10 ^ 15 * (d * t') + 1 / 10 ^ 300 * t' := by
    rw [← sub_mul, abs_mul, abs_of_nonneg ht']
    refine (mul_le_mul_of_nonneg_right b ht').trans (le_of_eq ?_)
    rw [abs_of_nonneg hd]
    ring
  have c := double_err (double.rnd d * t')
  have f := double_err (double.rnd (l * t) + double.rnd (double.rnd d * t'))
  have g := double_err (double.rnd (double.rnd (l * t) + double.rnd (double.rnd d * t')) / 100)
  change |double.rnd (double.rnd (double.rnd (l * t) + double.rnd (double.rnd d * t')) / 100) - _| ≤ _
  have p1 : 0 ≤ l * t := mul_nonneg hl ht
  have p2 : 0 ≤ d * t' := mul_nonneg hd ht'
  rw [abs_of_nonneg p1] at a
  rw [show (4 : ℚ) * (1 / 10 ^ 300) * (1 + t') = 4 * (1 / 10 ^ 300) + 4 * (1 / 10 ^ 300 * t') by ring]
  have t0 : (0 : ℚ) ≤ 1 / 10 ^ 300 := by positivity
  have t1 : (0 : ℚ) ≤ 1 / 10 ^ 300 * t' := by positivity
  generalize (1 : ℚ) / 10 ^ 300 * t' = σ at *
  generalize (1 : ℚ) / 10 ^ 300 = τ at *
  generalize double.rnd (double.rnd (double.rnd (l * t) + double.rnd (double.rnd d * t')) / 100) = Q at *
  generalize double.rnd (double.rnd (l * t) + double.rnd (double.rnd d * t')) = S at *
  generalize double.rnd (double.rnd d * t') = B at *
  generalize double.rnd (l * t) = A at *
  generalize double.rnd d * t' = E at *
  generalize d * t' = Y at *
  generalize l * t = X at *
  obtain ⟨a1, a2⟩ := abs_le.mp a
  obtain ⟨b1, b2⟩ := abs_le.mp b'
  have hE : |E| ≤ 2 * Y + σ := abs_le.mpr ⟨by linarith, by linarith⟩
  obtain ⟨c1, c2⟩ := abs_le.mp c
  have hAB : |A + B| ≤ 2 * X + 4 * Y + 3 * τ + 4 * σ := abs_le.mpr ⟨by linarith, by linarith⟩
  obtain ⟨f1, f2⟩ := abs_le.mp f
  have hS : |S / 100| ≤ X + Y + τ + σ := abs_le.mpr ⟨by linarith, by linarith⟩
  obtain ⟨g1, g2⟩ := abs_le.mp g
  exact abs_le.mpr ⟨by linarith, by linarith⟩

theorem year_near {i : Rhi} (hk : KnownScheme i) (hp : RatesNonneg i) {c : ℚ} (hc : 0 ≤ c) (e : ℚ) :
    ∃ x, RoundedKpi.rhiYear double i e c = .ok x ∧
      |x - subsidy i c e| ≤ 1 / 10 ^ 14 * (topRate i * |e|) + 4 * (1 / 10 ^ 300) * (1 + topRate i) := by
  obtain ⟨p0, p1, p2⟩ := hp
  have t0 : (0 : ℚ) ≤ 1 / 10 ^ 300 := by positivity
  have low : ∀ t, 0 ≤ t → t ≤ topRate i → |double.div (double.mul e t) 100 - e * t / 100| ≤
      1 / 10 ^ 14 * (topRate i * |e|) + 4 * (1 / 10 ^ 300) * (1 + topRate i) := fun t h0 h1 => by
    refine (rate_near e t).trans ?_
    have h2 : |e * t| ≤ topRate i * |e| := by
      rw [abs_mul, abs_of_nonneg h0, mul_comm]
      exact mul_le_mul_of_nonneg_right h1 (abs_nonneg e)
    have h3 : 0 ≤ 1 / 10 ^ 300 * topRate i := mul_nonneg t0 (h0.trans h1)
    have h4 := abs_nonneg (e * t)
    generalize (1 : ℚ) / 10 ^ 300 = τ at *
    linarith
  unfold RoundedKpi.rhiYear subsidy
  rcases hk.1 with h | h
  · rw [if_pos h, if_pos h]
    exact ⟨_, rfl, low _ p0 (by unfold topRate; rw [if_pos h])⟩
  have hf : i.tariffType ≠ "Fixed" := by rw [h]; decide
  have hr : topRate i = max i.tier1 i.tier2 := by unfold topRate; rw [if_neg hf]
  have l1 : i.tier1 ≤ topRate i := hr ▸ le_max_left _ _
  have l2 : i.tier2 ≤ topRate i := hr ▸ le_max_right _ _
  rw [if_neg hf, if_neg hf, if_pos h]
  dsimp only
  unfold tieredPay
  rw [mul_comm 1314 c]
  by_cases hl : e ≤ c * 1314
  · rw [if_pos hl, min_eq_left hl, max_eq_right (by linarith), zero_mul, add_zero]
    exact ⟨_, rfl, low _ p1 l1⟩
  · have hl' := (not_le.mp hl).le
    have hc' : 0 ≤ c * 1314 := by linarith
    rw [if_neg hl, min_eq_right hl', max_eq_left (by linarith)]
    refine ⟨_, rfl, (tiers_near (m := topRate i * |e|) hc' (by linarith) p1 p2 ?_).trans ?_⟩
    · rw [abs_of_nonneg (hc'.trans hl')]
      have q1 := mul_le_mul_of_nonneg_left l1 hc'
      have q2 := mul_le_mul_of_nonneg_left l2 (sub_nonneg.mpr hl')
      linarith
    · have q3 := mul_le_mul_of_nonneg_left l2 t0
      generalize (1 : ℚ) / 10 ^ 300 = τ at *
      linarith

/-- What the subsidy would be if all the energy of the heat pump, heat and electricity, earned the highest rate. -/
def Spec.subsidyScale (C : Calcs N) : ℚ :=
  topRate C.rhi / 100 * ((amounts C fun r => r.hp.heatTotalOutput) + amounts C fun r => r.hp.elecTotalUsage)

theorem topRate_nonneg {i : Rhi} (hp : RatesNonneg i) : 0 ≤ topRate i := by
  unfold topRate
  split
  · exact hp.1
  · exact hp.2.1.trans (le_max_left _ _)

theorem subsidyScale_nonneg {C : Calcs N} (hp : RatesNonneg C.rhi) : 0 ≤ subsidyScale C :=
  mul_nonneg (div_nonneg (topRate_nonneg hp) (by norm_num)) (add_nonneg (amounts_nonneg _ _) (amounts_nonneg _ _))

/-- **The subsidy is right to some parts in a million million** of what the highest rate would pay for all the energy of the
heat pump, although the limit between the rates may be passed by rounding; for one year and over the years it is paid. -/
theorem C124_subsidy_close (np : Numpy) {C : Calcs N} (h : AllHours C) (hn : C.timesteps ≤ 8784) {hp ts : ℕ}
    (hname : C.name = Para.folderName (hp, ts)) (hk : KnownScheme C.rhi) (hp0 : RatesNonneg C.rhi) :
    ∃ x, RoundedKpi.rhiIncome double np C = .ok x ∧
      |x.year - subsidy C.rhi hp (pumpHeat C.results - pumpElec C.results)| ≤
        5 / 10 ^ 12 * subsidyScale C + 1 / 10 ^ 290 * (1 + topRate C.rhi) ∧
      |x.total - subsidyYears C.rhi * subsidy C.rhi hp (pumpHeat C.results - pumpElec C.results)| ≤
        subsidyYears C.rhi * (6 / 10 ^ 12 * subsidyScale C + 1 / 10 ^ 289 * (1 + topRate C.rhi)) := by
  have hlen : C.results.length ≤ 8784 := by rw [show C.results.length = C.timesteps from h]; exact hn
  have a := RoundedKpi.npSum_year np (xs := C.results.map (·.hp.heatTotalOutput)) (by rwa [List.length_map])
  have b := RoundedKpi.npSum_year np (xs := C.results.map (·.hp.elecTotalUsage)) (by rwa [List.length_map])
  rw [amounts_map] at a b
  have a0 := RoundedKpi.abs_sum_le (C.results.map (·.hp.heatTotalOutput))
  have b0 := RoundedKpi.abs_sum_le (C.results.map (·.hp.elecTotalUsage))
  rw [amounts_map] at a0 b0
  change |_ - pumpHeat C.results| ≤ _ at a
  change |_ - pumpElec C.results| ≤ _ at b
  change |pumpHeat C.results| ≤ _ at a0
  change |pumpElec C.results| ≤ _ at b0
  have hc : (0 : ℚ) ≤ hp := by positivity
  obtain ⟨x, hx, hxn⟩ := year_near hk hp0 hc (double.sub (RoundedKpi.npSum double np (C.results.map (·.hp.heatTotalOutput)))
    (RoundedKpi.npSum double np (C.results.map (·.hp.elecTotalUsage))))
  refine ⟨_, income_eq h hname hx (years_of hk), ?_⟩
  have hρ := topRate_nonneg hp0
  have mv := subsidy_moves hk hp0 (hp : ℚ) (pumpHeat C.results - pumpElec C.results)
    (double.sub (RoundedKpi.npSum double np (C.results.map (·.hp.heatTotalOutput)))
      (RoundedKpi.npSum double np (C.results.map (·.hp.elecTotalUsage))))
  have mz := subsidy_moves hk hp0 (hp : ℚ) 0 (pumpHeat C.results - pumpElec C.results)
  rw [subsidy_zero hc, sub_zero, sub_zero] at mz
  have hs := double_err (RoundedKpi.npSum double np (C.results.map (·.hp.heatTotalOutput)) -
    RoundedKpi.npSum double np (C.results.map (·.hp.elecTotalUsage)))
  change |double.sub _ _ - _| ≤ _ at hs
  have ty := double_err (x * subsidyYears C.rhi)
  have y7 : 7 ≤ subsidyYears C.rhi := by unfold subsidyYears; split <;> norm_num
  dsimp only
  change _ ∧ |double.rnd (x * subsidyYears C.rhi) - _| ≤ _
  unfold subsidyScale
  have t1 : (1 : ℚ) / 10 ^ 290 = 10 ^ 10 * (1 / 10 ^ 300) := by decide +kernel
  have t2 : (1 : ℚ) / 10 ^ 289 = 10 ^ 11 * (1 / 10 ^ 300) := by decide +kernel
  rw [t1, t2]
  have t0 : (0 : ℚ) ≤ 1 / 10 ^ 300 := by positivity
  generalize (1 : ℚ) / 10 ^ 300 = τ at *
  generalize subsidyYears C.rhi = n at *
  generalize subsidy C.rhi hp (pumpHeat C.results - pumpElec C.results) = F at *
  generalize subsidy C.rhi hp (double.sub (RoundedKpi.npSum double np (C.results.map (·.hp.heatTotalOutput)))
      (RoundedKpi.npSum double np (C.results.map (·.hp.elecTotalUsage)))) = F' at *
  generalize (double.sub (RoundedKpi.npSum double np (C.results.map (·.hp.heatTotalOutput)))
      (RoundedKpi.npSum double np (C.results.map (·.hp.elecTotalUsage)))) = e' at *
  generalize RoundedKpi.npSum double np (C.results.map (·.hp.heatTotalOutput)) = H' at *
  generalize RoundedKpi.npSum double np (C.results.map (·.hp.elecTotalUsage)) = U' at *
  generalize pumpHeat C.results = H at *
  generalize pumpElec C.results = U at *
  generalize topRate C.rhi = ρ at *
  have nA := amounts_nonneg C fun r => r.hp.heatTotalOutput
  have nB := amounts_nonneg C fun r => r.hp.elecTotalUsage
  generalize (amounts C fun r => r.hp.heatTotalOutput) = A at *
  generalize (amounts C fun r => r.hp.elecTotalUsage) = B at *
  obtain ⟨a1, a2⟩ := abs_le.mp a
  obtain ⟨b1, b2⟩ := abs_le.mp b
  obtain ⟨a3, a4⟩ := abs_le.mp a0
  obtain ⟨b3, b4⟩ := abs_le.mp b0
  have k1 : |H' - U'| ≤ 2 * (A + B) + 2 * τ := abs_le.mpr ⟨by linarith, by linarith⟩
  obtain ⟨s1, s2⟩ := abs_le.mp hs
  have k2 : |e' - (H - U)| ≤ 2 / 10 ^ 12 * (A + B) + 4 * τ := abs_le.mpr ⟨by linarith, by linarith⟩
  have k3 : |e'| ≤ 3 * (A + B) + 4 * τ := abs_le.mpr ⟨by linarith, by linarith⟩
  have k4 : |H - U| ≤ A + B := abs_le.mpr ⟨by linarith, by linarith⟩
  have r1 : ρ / 100 * |e' - (H - U)| ≤ ρ / 100 * (2 / 10 ^ 12 * (A + B) + 4 * τ) := mul_le_mul_of_nonneg_left k2 (by linarith)
  have r2 : ρ * |e'| ≤ ρ * (3 * (A + B) + 4 * τ) := mul_le_mul_of_nonneg_left k3 hρ
  have r3 : ρ / 100 * |H - U| ≤ ρ / 100 * (A + B) := mul_le_mul_of_nonneg_left k4 (by linarith)
  have z1 : 0 ≤ ρ * (A + B) := mul_nonneg hρ (by linarith)
  have z2 : 0 ≤ τ * ρ := mul_nonneg t0 hρ
  have r4 := mz.trans r3
  obtain ⟨m1, m2⟩ := abs_le.mp (mv.trans r1)
  obtain ⟨x1, x2⟩ := abs_le.mp hxn
  obtain ⟨f1, f2⟩ := abs_le.mp r4
  have e1 : ρ / 100 * (2 / 10 ^ 12 * (A + B) + 4 * τ) = 2 / 10 ^ 14 * (ρ * (A + B)) + 4 / 100 * (τ * ρ) := by ring
  have e2 : ρ * (3 * (A + B) + 4 * τ) = 3 * (ρ * (A + B)) + 4 * (τ * ρ) := by ring
  have e3 : ρ / 100 * (A + B) = 1 / 100 * (ρ * (A + B)) := by ring
  have e4 : τ * (1 + ρ) = τ + τ * ρ := by ring
  have e5 : 4 * τ * (1 + ρ) = 4 * τ + 4 * (τ * ρ) := by ring
  have e6 : (10 : ℚ) ^ 10 * τ * (1 + ρ) = 10 ^ 10 * τ + 10 ^ 10 * (τ * ρ) := by ring
  have e7 : (10 : ℚ) ^ 11 * τ * (1 + ρ) = 10 ^ 11 * τ + 10 ^ 11 * (τ * ρ) := by ring
  rw [e2] at r2
  rw [e1] at m1 m2
  rw [e5] at x1 x2
  rw [e3] at f1 f2 ⊢
  rw [e6, e7]
  generalize τ * ρ = σ at *
  generalize ρ * (A + B) = M at *
  generalize ρ * |e'| = Z at *
  have fin : |x - F| ≤ 5 / 10 ^ 12 * (1 / 100 * M) + (10 ^ 10 * τ + 10 ^ 10 * σ) :=
    abs_le.mpr ⟨by linarith, by linarith⟩
  refine ⟨fin, ?_⟩
  have hxa : |x| ≤ 2 / 100 * M + (10 ^ 10 * τ + 10 ^ 10 * σ) := by
    obtain ⟨g1, g2⟩ := abs_le.mp fin
    exact abs_le.mpr ⟨by linarith, by linarith⟩
  have n0 : 0 ≤ n := by linarith
  have w1 : |x * n - n * F| ≤ n * (5 / 10 ^ 12 * (1 / 100 * M) + (10 ^ 10 * τ + 10 ^ 10 * σ)) := by
    rw [mul_comm x n, ← mul_sub, abs_mul, abs_of_nonneg n0]
    exact mul_le_mul_of_nonneg_left fin n0
  have w2 : |x * n| ≤ n * (2 / 100 * M + (10 ^ 10 * τ + 10 ^ 10 * σ)) := by
    rw [mul_comm x n, abs_mul, abs_of_nonneg n0]
    exact mul_le_mul_of_nonneg_left hxa n0
  have w3 : τ ≤ n * τ := le_mul_of_one_le_left t0 (by linarith)
  have w4 : 0 ≤ n * M := mul_nonneg n0 z1
  have w5 : 0 ≤ n * σ := mul_nonneg n0 z2
  obtain ⟨u1, u2⟩ := abs_le.mp w1
  obtain ⟨v1, v2⟩ := abs_le.mp ty
  exact abs_le.mpr ⟨by linarith, by linarith⟩

example : ∃ x, RoundedKpi.rhiIncome double oneByOne beyondLimit = .ok x ∧
    |x.year - (15768 * 10 + (160001 / 10 - 15768) * 2) / 100| ≤
      5 / 10 ^ 12 * subsidyScale beyondLimit + 1 / 10 ^ 290 * (1 + 10) := by
  obtain ⟨x, h1, h2, -⟩ := C124_subsidy_close oneByOne (C := beyondLimit) rfl (by decide) (hp := 12) (ts := 1000)
    (by decide +kernel) sample_scheme.1 sample_scheme.2
  refine ⟨x, h1, ?_⟩
  have e : subsidy beyondLimit.rhi (12 : ℕ) (pumpHeat beyondLimit.results - pumpElec beyondLimit.results) =
      (15768 * 10 + (160001 / 10 - 15768) * 2) / 100 := by decide +kernel
  have e2 : topRate beyondLimit.rhi = 10 := by decide +kernel
  rw [e, e2] at h2
  exact h2

/-! ## The cost of a unit of heat -/

theorem bill_le_money (C : Calcs N) : |heatBill C.electric C.results| ≤ heatMoney C := by
  have ab : ∀ f : Results N → ℚ, |(C.results.map f).sum| ≤ amounts C f := fun f => by
    have := RoundedKpi.abs_sum_le (C.results.map f)
    rwa [amounts_map] at this
  unfold heatBill heatMoney
  rw [← sum_map_div', ← sum_map_div']
  split
  · rw [add_zero, add_zero]
    exact ab _
  · exact (abs_add_le _ _).trans (add_le_add (ab _) (ab _))

theorem subsidy_le_scale {C : Calcs N} (hk : KnownScheme C.rhi) (hp0 : RatesNonneg C.rhi) (hp : ℕ) :
    |subsidy C.rhi hp (pumpHeat C.results - pumpElec C.results)| ≤ subsidyScale C := by
  have mz := subsidy_moves hk hp0 (hp : ℚ) 0 (pumpHeat C.results - pumpElec C.results)
  rw [subsidy_zero (by positivity), sub_zero, sub_zero] at mz
  refine mz.trans (mul_le_mul_of_nonneg_left ?_ (div_nonneg (topRate_nonneg hp0) (by norm_num)))
  have a0 := RoundedKpi.abs_sum_le (C.results.map (·.hp.heatTotalOutput))
  have b0 := RoundedKpi.abs_sum_le (C.results.map (·.hp.elecTotalUsage))
  rw [amounts_map] at a0 b0
  exact (abs_sub _ _).trans (add_le_add a0 b0)

theorem quotient_near {K S W K' S' D' a b δ : ℚ} (hW : 1 / 10 ^ 100 ≤ W) (hK : |K| ≤ a) (hS : |S| ≤ b)
    (h1 : |K' - K| ≤ 2 / 10 ^ 12 * a + δ) (h2 : |S' - S| ≤ 5 / 10 ^ 12 * b + δ) (h3 : |D' - W| ≤ 3 / 10 ^ 12 * W)
    (hδ : 1 / 10 ^ 300 ≤ δ) :
    0 < D' ∧ |double.rnd (double.rnd (K' - S') / D') - (K - S) / W| ≤ 1 / 10 ^ 11 * ((a + b) / W) + 10 ^ 102 * δ := by
  have hWp : 0 < W := lt_of_lt_of_le (by norm_num) hW
  obtain ⟨d1, d2⟩ := abs_le.mp h3
  have hlow : (1 - 3 / 10 ^ 12) * W ≤ D' := by linarith
  have hDp : 0 < D' := lt_of_lt_of_le (mul_pos (by norm_num) hWp) hlow
  refine ⟨hDp, ?_⟩
  have t0 : (0 : ℚ) ≤ 1 / 10 ^ 300 := by positivity
  have e1 := double_err (K' - S')
  have e2 := double_err (double.rnd (K' - S') / D')
  have a0 := (abs_nonneg K).trans hK
  have b0 := (abs_nonneg S).trans hS
  generalize (1 : ℚ) / 10 ^ 300 = τ at *
  have δ0 : 0 ≤ δ := t0.trans hδ
  obtain ⟨k1, k2⟩ := abs_le.mp h1
  obtain ⟨s1, s2⟩ := abs_le.mp h2
  obtain ⟨k3, k4⟩ := abs_le.mp hK
  obtain ⟨s3, s4⟩ := abs_le.mp hS
  have n0 : |K' - S'| ≤ 2 * (a + b) + 2 * δ := abs_le.mpr ⟨by linarith, by linarith⟩
  obtain ⟨r1, r2⟩ := abs_le.mp e1
  generalize double.rnd (K' - S') = Q at *
  have n1 : |Q - (K - S)| ≤ 6 / 10 ^ 12 * (a + b) + 4 * δ := abs_le.mpr ⟨by linarith, by linarith⟩
  have n2 : |K - S| ≤ a + b := abs_le.mpr ⟨by linarith, by linarith⟩
  have hab : 0 ≤ a + b := by linarith
  have q1 : |Q / D' - (K - S) / W| ≤ 95 / 10 ^ 13 * ((a + b) / W) + 5 * (δ / W) := by
    have e : Q / D' - (K - S) / W = ((Q - (K - S)) - (K - S) / W * (D' - W)) / D' := by
      field_simp
      ring
    rw [e, abs_div, abs_of_pos hDp, div_le_iff₀ hDp]
    have m1 : |(Q - (K - S)) - (K - S) / W * (D' - W)| ≤ (6 / 10 ^ 12 * (a + b) + 4 * δ) + 3 / 10 ^ 12 * (a + b) := by
      refine (abs_sub _ _).trans (add_le_add n1 ?_)
      rw [abs_mul, abs_div, abs_of_pos hWp]
      calc |K - S| / W * |D' - W| ≤ (a + b) / W * (3 / 10 ^ 12 * W) :=
            mul_le_mul (div_le_div_of_nonneg_right n2 hWp.le) h3 (abs_nonneg _) (div_nonneg hab hWp.le)
        _ = 3 / 10 ^ 12 * (a + b) := by field_simp
    refine m1.trans ?_
    have p0 : 0 ≤ 95 / 10 ^ 13 * ((a + b) / W) + 5 * (δ / W) := by positivity
    have m2 := mul_le_mul_of_nonneg_left hlow p0
    have m3 : (95 / 10 ^ 13 * ((a + b) / W) + 5 * (δ / W)) * ((1 - 3 / 10 ^ 12) * W) =
        (1 - 3 / 10 ^ 12) * (95 / 10 ^ 13 * (a + b) + 5 * δ) := by
      field_simp
    rw [m3] at m2
    linarith
  have q2 : |(K - S) / W| ≤ (a + b) / W := by
    rw [abs_div, abs_of_pos hWp]
    exact div_le_div_of_nonneg_right n2 hWp.le
  have q3 : δ / W ≤ 10 ^ 100 * δ := by
    rw [div_le_iff₀ hWp]
    have := mul_le_mul_of_nonneg_left hW (by positivity : (0 : ℚ) ≤ 10 ^ 100 * δ)
    refine le_trans (le_of_eq ?_) this
    field_simp
  have q4 : 0 ≤ (a + b) / W := div_nonneg hab hWp.le
  have q5 : (10 : ℚ) ^ 102 * δ = 100 * (10 ^ 100 * δ) := by ring
  have q6 : δ ≤ 10 ^ 100 * δ := le_mul_of_one_le_left δ0 (by norm_num)
  rw [q5]
  generalize (10 : ℚ) ^ 100 * δ = ε at *
  generalize δ / W = γ at *
  generalize (a + b) / W = m at *
  generalize (K - S) / W = c at *
  generalize Q / D' = d at *
  obtain ⟨x1, x2⟩ := abs_le.mp q1
  obtain ⟨y1, y2⟩ := abs_le.mp q2
  have q7 : |d| ≤ 2 * m + 5 * ε := abs_le.mpr ⟨by linarith, by linarith⟩
  obtain ⟨z1, z2⟩ := abs_le.mp e2
  exact abs_le.mpr ⟨by linarith, by linarith⟩

/-- **The cost of a unit of heat is right to one part in a hundred thousand million** of the money behind it, the bill for
heating and the subsidy, per unit of heat, over at most a year with any heat worth the name. -/
theorem C124_cost_of_heat_close (np : Numpy) {C : Calcs N} (h : AllHours C) (hn : C.timesteps ≤ 8784) {hp ts : ℕ}
    (hname : C.name = Para.folderName (hp, ts)) (hk : KnownScheme C.rhi) (hp0 : RatesNonneg C.rhi)
    (he : ∀ r ∈ C.results, 0 ≤ r.aux.demand ∧ 0 ≤ r.hp.heatTotalOutput)
    (hg : 1 / 10 ^ 100 ≤ (exactly C fun r => r.aux.demand) + exactly C fun r => r.hp.heatTotalOutput) :
    ∃ x, RoundedKpi.costOfHeat double np C = .ok (some x) ∧
      |x - (heatBill C.electric C.results - subsidy C.rhi hp (pumpHeat C.results - pumpElec C.results)) /
          ((exactly C fun r => r.aux.demand) + exactly C fun r => r.hp.heatTotalOutput)| ≤
        1 / 10 ^ 11 * ((heatMoney C + subsidyScale C) /
          ((exactly C fun r => r.aux.demand) + exactly C fun r => r.hp.heatTotalOutput)) +
        1 / 10 ^ 188 * (2 + C.timesteps + (amounts C fun r => r.grid.importPrice) + topRate C.rhi) := by
  obtain ⟨K', k1, k2⟩ := C124_heat_cost_close np h hn
  obtain ⟨s, s1, s2, -⟩ := C124_subsidy_close np h hn hname hk hp0
  obtain ⟨X, x1, x2⟩ := C124_year np h hn fun r => r.aux.demand
  obtain ⟨Y, y1, y2⟩ := C124_year np h hn fun r => r.hp.heatTotalOutput
  rw [amounts_eq fun r hr => (he r hr).1] at x2
  rw [amounts_eq fun r hr => (he r hr).2] at y2
  have hX0 : 0 ≤ exactly C fun r => r.aux.demand := List.sum_nonneg fun x hx => by
    obtain ⟨r, hr, rfl⟩ := List.mem_map.mp hx; exact (he r hr).1
  have hY0 : 0 ≤ exactly C fun r => r.hp.heatTotalOutput := List.sum_nonneg fun x hx => by
    obtain ⟨r, hr, rfl⟩ := List.mem_map.mp hx; exact (he r hr).2
  have hP := amounts_nonneg C fun r => r.grid.importPrice
  have hρ := topRate_nonneg hp0
  have hn0 : (0 : ℚ) ≤ C.timesteps := by positivity
  have hD : |double.rnd (X + Y) - ((exactly C fun r => r.aux.demand) + exactly C fun r => r.hp.heatTotalOutput)| ≤
      3 / 10 ^ 12 * ((exactly C fun r => r.aux.demand) + exactly C fun r => r.hp.heatTotalOutput) := by
    have e := double_err (X + Y)
    have t : (1 : ℚ) / 10 ^ 300 ≤ 1 / 10 ^ 13 * (1 / 10 ^ 100) := by decide +kernel
    have t0 : (0 : ℚ) ≤ 1 / 10 ^ 300 := by positivity
    generalize (1 : ℚ) / 10 ^ 300 = τ at *
    generalize (exactly C fun r => r.aux.demand) = x at *
    generalize (exactly C fun r => r.hp.heatTotalOutput) = y at *
    have t' : τ ≤ 1 / 10 ^ 13 * (x + y) := t.trans (mul_le_mul_of_nonneg_left hg (by norm_num))
    obtain ⟨a1, a2⟩ := abs_le.mp x2
    obtain ⟨b1, b2⟩ := abs_le.mp y2
    have m : |X + Y| ≤ 2 * (x + y) + 2 * τ := abs_le.mpr ⟨by linarith, by linarith⟩
    obtain ⟨c1, c2⟩ := abs_le.mp e
    exact abs_le.mpr ⟨by linarith, by linarith⟩
  have t9 : (0 : ℚ) ≤ 1 / 10 ^ 290 := by positivity
  have grow : ∀ u v : ℚ, u ≤ v → 1 / 10 ^ 290 * u ≤ 1 / 10 ^ 290 * v := fun u v huv => mul_le_mul_of_nonneg_left huv t9
  obtain ⟨q1, q2⟩ := quotient_near hg (bill_le_money C) (subsidy_le_scale hk hp0 hp)
    (δ := 1 / 10 ^ 290 * (2 + C.timesteps + (amounts C fun r => r.grid.importPrice) + topRate C.rhi))
    (k2.trans (by
      have := grow (1 + C.timesteps + amounts C fun r => r.grid.importPrice)
        (2 + C.timesteps + (amounts C fun r => r.grid.importPrice) + topRate C.rhi) (by linarith)
      exact (add_le_add_iff_left _).mpr this))
    (s2.trans (by
      have := grow (1 + topRate C.rhi)
        (2 + C.timesteps + (amounts C fun r => r.grid.importPrice) + topRate C.rhi) (by linarith)
      exact (add_le_add_iff_left _).mpr this)) hD (by
      have g := grow 1 (2 + C.timesteps + (amounts C fun r => r.grid.importPrice) + topRate C.rhi) (by linarith)
      have t : (1 : ℚ) / 10 ^ 300 ≤ 1 / 10 ^ 290 * 1 := by decide +kernel
      exact t.trans g)
  refine ⟨double.rnd (double.rnd (K' - s.year) / double.rnd (X + Y)), ?_, ?_⟩
  · unfold RoundedKpi.costOfHeat RoundedKpi.sumAuxOutput RoundedKpi.sumHpOutput
    rw [k1, s1, x1, y1]
    show Except.ok (RoundedKpi.npDiv double (double.sub K' s.year) (double.add X Y)) = _
    unfold RoundedKpi.npDiv
    have q1' : double.add X Y ≠ 0 := ne_of_gt q1
    rw [if_neg q1']
    rfl
  · refine q2.trans ((add_le_add_iff_left _).mpr (le_of_eq ?_))
    have t : (10 : ℚ) ^ 102 * (1 / 10 ^ 290) = 1 / 10 ^ 188 := by decide +kernel
    rw [← mul_assoc, t]

/-- 20000.1 kWh of heat from 4000 kWh, bought at 15 pence. -/
def Spec.paidHeat : Calcs Unit :=
  sampleCalcs [{ hp := { heatTotalOutput := 60000 / 3 + 1 / 10, elecTotalUsage := 4000 }, grid := { totalImport := 5000, importForElecDemand := 1000, importPrice := 150 } }] 1

example : ∃ x, RoundedKpi.costOfHeat double oneByOne paidHeat = .ok (some x) ∧
    |x - (600 - (15768 * 10 + (160001 / 10 - 15768) * 2) / 100) / (200001 / 10)| ≤
      1 / 10 ^ 11 * ((heatMoney paidHeat + subsidyScale paidHeat) / (200001 / 10)) + 1 / 10 ^ 188 * (2 + 1 + 150 + 10) := by
  obtain ⟨x, h1, h2⟩ := C124_cost_of_heat_close oneByOne (C := paidHeat) rfl (by decide) (hp := 12) (ts := 1000)
    (by decide +kernel) sample_scheme.1 sample_scheme.2 (by
      intro r hr
      simp only [paidHeat, sampleCalcs, List.mem_cons, List.not_mem_nil, or_false] at hr
      rcases hr with rfl
      constructor <;> norm_num) (by decide +kernel)
  refine ⟨x, h1, ?_⟩
  have e1 : heatBill paidHeat.electric paidHeat.results = 600 := by decide +kernel
  have e2 : subsidy paidHeat.rhi (12 : ℕ) (pumpHeat paidHeat.results - pumpElec paidHeat.results) =
      (15768 * 10 + (160001 / 10 - 15768) * 2) / 100 := by decide +kernel
  have e3 : (exactly paidHeat fun r => r.aux.demand) + (exactly paidHeat fun r => r.hp.heatTotalOutput) = 200001 / 10 := by
    decide +kernel
  have e4 : (2 : ℚ) + paidHeat.timesteps + (amounts paidHeat fun r => r.grid.importPrice) + topRate paidHeat.rhi =
      2 + 1 + 150 + 10 := by decide +kernel
  rw [e1, e2, e3, e4] at h2
  exact h2

end Verif
