import Verif.Lemmas.Kpi
import Verif.Props.Run
import Verif.Props.Para
import Verif.Props.Grid
import Mathlib.Data.List.GetD

/-!
# C44-C46, C69-C72: performance indicators
-/

set_option autoImplicit false

namespace Verif
open FixedOrder Kpi Spec
variable {N : Type}

/-- The indicators of a fixed order run of `n` hours. -/
def Spec.OfRun (S : RunIn N) (first n : ℕ) (C : Calcs N) : Prop :=
  runTimesteps S first n = .ok C.results ∧ C.timesteps = n

theorem Spec.OfRun.all {S : RunIn N} {first n : ℕ} {C : Calcs N} (h : OfRun S first n C) : AllHours C := by
  unfold AllHours
  rw [C27_one_result_per_hour h.1, h.2]

/-- Indicators of the sample run of a given length. -/
def Spec.sampleCalcs (rs : List (Results N)) (n : ℕ) : Calcs N :=
  { results := rs, timesteps := n, name := "hp_12_ts_1000".toList, electric := true
    rhi := { tariffType := "Tiered", rhiType := "Domestic", fixedRate := 5, tier1 := 10, tier2 := 2 }
    tariff := "Flat rates", lowerPercent := 1 / 4, higherPercent := 1 / 2, farmPower := [] }

theorem sampleCalcs_ofRun (first n : ℕ) (h : first + n ≤ 8760) : ∃ rs,
    OfRun sampleRun first n (sampleCalcs rs n) := by
  obtain ⟨rs, hrs⟩ := sampleRun_runs first n h
  exact ⟨rs, hrs, rfl⟩

theorem sampleRun_energy : EnergyNonneg sampleRun where
  windUser := fun x hx => by rw [List.eq_of_mem_replicate hx]; norm_num
  windData := fun x hx => by rw [List.eq_of_mem_replicate hx]
  pv := fun x hx => by rw [List.eq_of_mem_replicate hx]; norm_num
  elecDemand := fun x hx => by rw [List.eq_of_mem_replicate hx]; norm_num

/-! ## C44 self-consumption -/

/-- Self-consumption is 100 × (1 − exported / generated), and 0 without generation. -/
theorem C44_formula {C : Calcs N} (h : AllHours C) :
    (0 < generated C.results →
      resSelfConsumption C = .ok (100 * (1 - exported C.results / generated C.results))) ∧
    (generated C.results ≤ 0 → resSelfConsumption C = .ok 0) := by
  have e : resSelfConsumption C = .ok ((if generated C.results > 0 then
      1 - exported C.results / generated C.results else 0) * 100) := by
    unfold resSelfConsumption Kpi.sumRes sumExport
    rw [total_ok h, total_ok h]
    rfl
  rw [e]
  refine ⟨fun hg => by rw [if_pos hg, mul_comm], fun hg => by rw [if_neg (not_lt.mpr hg), zero_mul]⟩

example : resSelfConsumption (sampleCalcs (N := Unit) [{ res := { generationTotal := 6 }, grid := { totalExport := 5 } },
    { res := { generationTotal := 4 } }] 2) = .ok (100 * (1 - 5 / 10)) :=
  ((C44_formula (C := sampleCalcs (N := Unit) [{ res := { generationTotal := 6 }, grid := { totalExport := 5 } },
    { res := { generationTotal := 4 } }] 2) rfl).1 (by decide +kernel)).trans (by decide +kernel)

/-- Fewer results than hours: every indicator that adds up an amount raises `IndexError`. -/
theorem C44_missing_hours {C : Calcs N} (h : C.results.length < C.timesteps) :
    resSelfConsumption C = .error .indexError ∧ sumImport C = .error .indexError ∧
    sumHpOutput C = .error .indexError := by
  refine ⟨?_, total_short h _, total_short h _⟩
  unfold resSelfConsumption Kpi.sumRes
  rw [total_short h]
  rfl

example : sumImport (sampleCalcs (N := Unit) [{}] 2) = .error .indexError :=
  (C44_missing_hours (by decide)).2.1

/-- What one hour of a run generates, uses and sells. -/
theorem hour_export {S : RunIn N} (H : RunOk S) (hord : OrdersOk S) (hE : EnergyNonneg S)
    {first n : ℕ} {rs : List (Results N)} (h : runTimesteps S first n = .ok rs) {r : Results N}
    (hr : r ∈ rs) : 0 ≤ r.grid.totalExport ∧ r.grid.totalExport ≤ r.res.generationTotal ∧
      0 ≤ r.res.elecDemand := by
  have hf := C21_run_flows_nonneg H hord h hr
  have hg := C19_run_within_generation H hord h hr
  obtain ⟨_, t, _, _, heat, price, row, perf, gen, wnd, pv, elec, r0, ho, hsp, hst⟩ :=
    run_mem H h hr
  obtain ⟨hnd, -⟩ := hour_order hord price
  obtain ⟨c, r1, hd, hm⟩ := step_ok ho.stepEq
  have hexp := (C24_import_parts_match_devices hst hnd hd).2.2.2
  have hx : r.grid.totalExport = r.res.exp := by
    rw [ho.resultEq]
    rcases rule_outcome hm with ⟨rfl, _⟩ | ⟨_, _, rfl⟩ | ⟨_, _, _, rfl⟩ | ⟨_, _, _, _, _, rfl⟩ <;>
      exact hexp
  have hgen : 0 ≤ gen := by
    have h1 := ho.genEq
    have h2 := ho.pvEq
    simp only [generation, wind, List.getElem?_zipWith] at h1
    rw [h2] at h1
    cases hu : S.windUser[t]? with
    | none => rw [hu] at h1; simp at h1
    | some u =>
      cases hv : S.windData[t]? with
      | none => rw [hu, hv] at h1; simp at h1
      | some v =>
        rw [hu, hv] at h1
        simp only [Option.some.injEq] at h1
        have a1 := hE.windUser _ (List.mem_of_getElem? hu)
        have a2 := hE.windData _ (List.mem_of_getElem? hv)
        have a3 := hE.pv _ (List.mem_of_getElem? h2)
        linarith
  have hel : 0 ≤ elec := hE.elecDemand _ (List.mem_of_getElem? ho.elecEq)
  have hused : 0 ≤ r.res.elecDemand := by
    rw [ho.resultEq]
    show 0 ≤ row.resUsed
    have := hsp.generation
    have := hsp.demand
    rcases hsp.exclusive with h0 | h0 <;> linarith
  have h1 := hf.res
  have h2 : 0 ≤ r.res.hp := by
    have : r.res.hp = r.hp.elecResUsage := by rw [ho.resultEq]; rfl
    rw [this]
    exact hf.hpElec.2.1
  have h3 : 0 ≤ r.res.aux := by
    have : r.res.aux = r.aux.resToDemand + r.aux.resToTs := by rw [ho.resultEq]; rfl
    rw [this]
    have := hf.aux
    linarith [this.2.1, this.2.2]
  refine ⟨hf.grid.2.1, ?_, hused⟩
  rw [hx]
  linarith [h1.2.2.1]

/-- Self-consumption of a run is a percentage, for safe orders (`C44_unsafe_order_negative` for others). -/
theorem C44_percentage_partial {S : RunIn N} (H : RunOk S) (hord : OrdersOk S) (hE : EnergyNonneg S)
    {first n : ℕ} {C : Calcs N} (h : OfRun S first n C) :
    ∃ x, resSelfConsumption C = .ok x ∧ 0 ≤ x ∧ x ≤ 100 := by
  have h1 : 0 ≤ exported C.results := sum_map_nonneg fun r hr => (hour_export H hord hE h.1 hr).1
  have h2 : exported C.results ≤ generated C.results :=
    sum_le_sum_map fun r hr => (hour_export H hord hE h.1 hr).2.1
  obtain ⟨f1, f2⟩ := C44_formula h.all
  by_cases hg : 0 < generated C.results
  · refine ⟨_, f1 hg, ?_, ?_⟩
    · have : exported C.results / generated C.results ≤ 1 := (div_le_one hg).mpr h2
      linarith
    · have : 0 ≤ exported C.results / generated C.results := div_nonneg h1 hg.le
      linarith
  · exact ⟨0, f2 (not_lt.mp hg), le_refl _, by norm_num⟩

/-- The energy kept is what was generated less what was sold, never negative in a run. -/
theorem C44_energy_kept {S : RunIn N} (H : RunOk S) (hord : OrdersOk S) (hE : EnergyNonneg S)
    {first n : ℕ} {C : Calcs N} (h : OfRun S first n C) :
    ∃ x, totalResSelfConsumption C = .ok x ∧ 0 ≤ x ∧
      x = generated C.results - exported C.results := by
  have h2 : exported C.results ≤ generated C.results :=
    sum_le_sum_map fun r hr => (hour_export H hord hE h.1 hr).2.1
  refine ⟨generated C.results - exported C.results, ?_, by linarith, rfl⟩
  unfold totalResSelfConsumption Kpi.sumRes sumExport
  rw [total_ok h.all, total_ok h.all]
  rfl

example : ∃ rs, OfRun sampleRun 0 8760 (sampleCalcs rs 8760) ∧
    ∃ x, resSelfConsumption (sampleCalcs rs 8760) = .ok x ∧ 0 ≤ x ∧ x ≤ 100 := by
  obtain ⟨rs, h⟩ := sampleCalcs_ofRun 0 8760 (by norm_num)
  exact ⟨rs, h, C44_percentage_partial sampleRun_ok sampleRun_orders sampleRun_energy h⟩

/-- One hour, cheap import, a battery that holds 9 of 10 kWh. -/
def Spec.overfillRun : RunIn Unit :=
  { sampleRun with windUser := [5], windData := [0], pv := [0], elecDemand := [0], heatDemand := [4],
                   importPrice := [10], perf := [⟨3, 12⟩], setpoint := 80, orderBelow := [14, 13, 15] }

/-- **Against C44.** One hour in which the battery is overfilled from the grid, the excess is taken back
as renewable surplus and sold: more is sold than was generated. -/
theorem C44_unsafe_order_negative : ∃ rs,
    runFrom overfillRun [Tools.splitHourFixed 5 0] 0 1 () 9 = .ok rs ∧
    ∃ x, resSelfConsumption (sampleCalcs rs 1) = .ok x ∧ x < 0 := by
  obtain ⟨rs, h, hc⟩ := exists_of_checks (x := runFrom overfillRun [Tools.splitHourFixed 5 0] 0 1 () 9)
    (p := fun rs => checks (resSelfConsumption (sampleCalcs rs 1)) (fun x => decide (x < 0)) = true)
    (by decide +kernel)
  exact ⟨rs, h, exists_of_checks hc⟩

/-- Half of what was generated in two hours was sold. -/
example : resSelfConsumption (sampleCalcs (N := Unit)
    [{ res := { generationTotal := 6 }, grid := { totalExport := 5 } },
     { res := { generationTotal := 4 } }] 2) = .ok 50 := by decide +kernel

/-! ## C45 subsidy -/

/-- A tiered tariff pays tier 1 for the first 1314 hours at full capacity and tier 2 above; a fixed
tariff pays one rate. -/
theorem C45_rates (i : Rhi) (heat capacity : ℚ) :
    (i.tariffType = "Tiered" →
      rhiYear i heat capacity = .ok (tieredPay i.tier1 i.tier2 (1314 * capacity) heat)) ∧
    (i.tariffType = "Fixed" → rhiYear i heat capacity = .ok (heat * i.fixedRate / 100)) := by
  refine ⟨fun ht => ?_, fun ht => ?_⟩
  · unfold rhiYear tieredPay
    rw [if_neg (by rw [ht]; decide), if_pos ht]
    dsimp only
    by_cases h : heat ≤ capacity * 1314
    · rw [if_pos h, min_eq_left (by linarith), max_eq_right (by linarith)]
      congr 1; ring
    · rw [if_neg h, min_eq_right (by linarith), max_eq_left (by linarith)]
      congr 1; ring
  · unfold rhiYear
    rw [if_pos ht]

/-- More eligible heat never earns less. -/
theorem C45_monotone {i : Rhi} (h1 : 0 ≤ i.tier1) (h2 : 0 ≤ i.tier2) (h0 : 0 ≤ i.fixedRate)
    {heat heat' capacity x x' : ℚ} (hh : heat ≤ heat') (hx : rhiYear i heat capacity = .ok x)
    (hx' : rhiYear i heat' capacity = .ok x') : x ≤ x' := by
  by_cases ht : i.tariffType = "Tiered"
  · rw [(C45_rates i _ _).1 ht] at hx hx'
    cases hx; cases hx'
    unfold tieredPay
    have a : min heat (1314 * capacity) ≤ min heat' (1314 * capacity) := min_le_min_right _ hh
    have b : max (heat - 1314 * capacity) 0 ≤ max (heat' - 1314 * capacity) 0 :=
      max_le_max_right _ (by linarith)
    have := mul_le_mul_of_nonneg_right a h1
    have := mul_le_mul_of_nonneg_right b h2
    linarith
  · by_cases hf : i.tariffType = "Fixed"
    · rw [(C45_rates i _ _).2 hf] at hx hx'
      cases hx; cases hx'
      have := mul_le_mul_of_nonneg_right hh h0
      linarith
    · unfold rhiYear at hx
      rw [if_neg hf, if_neg ht] at hx
      cases hx

example : ∃ x x', rhiYear ⟨"Tiered", "Domestic", 5, 10, 2⟩ 10000 12 = .ok x ∧
    rhiYear ⟨"Tiered", "Domestic", 5, 10, 2⟩ 20000 12 = .ok x' ∧ x ≤ x' := by
  obtain ⟨x, h, -⟩ : ∃ x, rhiYear ⟨"Tiered", "Domestic", 5, 10, 2⟩ 10000 12 = .ok x ∧ True :=
    exists_of_checks (by decide +kernel)
  obtain ⟨x', h', -⟩ : ∃ x, rhiYear ⟨"Tiered", "Domestic", 5, 10, 2⟩ 20000 12 = .ok x ∧ True :=
    exists_of_checks (by decide +kernel)
  exact ⟨x, x', h, h', C45_monotone (by norm_num) (by norm_num) (by norm_num) (by norm_num) h h'⟩

/-- The income has no jump at the tier limit or anywhere else: a further `d` kWh earns at most `d`
times the higher rate. -/
theorem C45_no_jump {i : Rhi} (ht : i.tariffType = "Tiered") {heat d capacity x x' : ℚ} (hd : 0 ≤ d)
    (hx : rhiYear i heat capacity = .ok x) (hx' : rhiYear i (heat + d) capacity = .ok x') :
    x' - x ≤ d * max i.tier1 i.tier2 / 100 := by
  rw [(C45_rates i _ _).1 ht] at hx hx'
  cases hx; cases hx'
  unfold tieredPay
  have m1 := le_max_left i.tier1 i.tier2
  have m2 := le_max_right i.tier1 i.tier2
  set m := max i.tier1 i.tier2
  set l := 1314 * capacity
  rcases le_total (heat + d) l with h | h
  · rw [min_eq_left h, min_eq_left (by linarith), max_eq_right (by linarith),
      max_eq_right (by linarith)]
    nlinarith
  · rcases le_total heat l with h' | h'
    · rw [min_eq_right h, min_eq_left h', max_eq_left (by linarith), max_eq_right (by linarith)]
      nlinarith
    · rw [min_eq_right h, min_eq_right h', max_eq_left (by linarith), max_eq_left (by linarith)]
      nlinarith

example : ∃ x x', rhiYear ⟨"Tiered", "Domestic", 5, 10, 2⟩ 15768 12 = .ok x ∧
    rhiYear ⟨"Tiered", "Domestic", 5, 10, 2⟩ (15768 + 1) 12 = .ok x' ∧ x' - x ≤ 1 * max 10 2 / 100 := by
  obtain ⟨x, h, -⟩ : ∃ x, rhiYear ⟨"Tiered", "Domestic", 5, 10, 2⟩ 15768 12 = .ok x ∧ True :=
    exists_of_checks (by decide +kernel)
  obtain ⟨x', h', -⟩ : ∃ x, rhiYear ⟨"Tiered", "Domestic", 5, 10, 2⟩ (15768 + 1) 12 = .ok x ∧ True :=
    exists_of_checks (by decide +kernel)
  exact ⟨x, x', h, h', C45_no_jump (i := ⟨"Tiered", "Domestic", 5, 10, 2⟩) rfl (by norm_num : (0 : ℚ) ≤ 1) h h'⟩

/-- The income of a combination: yearly pay for the heat of the heat pump less its electricity, for 7
years (domestic) or 20 years (non-domestic). -/
theorem C45_income {C : Calcs N} (h : AllHours C) {hp ts : ℕ} (hn : C.name = Para.folderName (hp, ts))
    {year : ℚ} (hy : rhiYear C.rhi (pumpHeat C.results - pumpElec C.results) hp = .ok year) :
    (C.rhi.rhiType = "Domestic" → rhiIncome C = .ok ⟨year, year * 7⟩) ∧
    (C.rhi.rhiType = "Non-domestic" → rhiIncome C = .ok ⟨year, year * 20⟩) := by
  have hs := (C43_sizes_from_name (Int.natCast_nonneg hp) (Int.natCast_nonneg ts)).1
  have e : rhiIncome C = (do let years ← rhiYears C.rhi; return ⟨year, year * years⟩) := by
    unfold rhiIncome sumHpOutput sumHpUsage
    rw [total_ok h, total_ok h, hn, hs]
    show (do let y ← rhiYear C.rhi (pumpHeat C.results - pumpElec C.results) hp; _) = _
    rw [hy]
    rfl
  rw [e]
  unfold rhiYears
  exact ⟨fun ht => by rw [if_pos ht]; rfl, fun ht => by rw [if_neg (by rw [ht]; decide), if_pos ht]; rfl⟩

example : ∃ year, rhiIncome (sampleCalcs (N := Unit)
    [{ hp := { heatTotalOutput := 30000, elecTotalUsage := 10000 } }] 1) = .ok ⟨year, year * 7⟩ := by
  obtain ⟨x, h, -⟩ : ∃ x, rhiYear (sampleCalcs (N := Unit) [] 1).rhi
      (pumpHeat (N := Unit) [{ hp := { heatTotalOutput := 30000, elecTotalUsage := 10000 } }] -
        pumpElec (N := Unit) [{ hp := { heatTotalOutput := 30000, elecTotalUsage := 10000 } }]) (12 : ℕ) = .ok x ∧ True :=
    exists_of_checks (by decide +kernel)
  exact ⟨x, (C45_income (C := sampleCalcs (N := Unit) [{ hp := { heatTotalOutput := 30000, elecTotalUsage := 10000 } }] 1)
    rfl (hp := 12) (ts := 1000) (by decide +kernel) h).1 rfl⟩

/-- Other words for the tariff or scheme: a variable is used without a value. -/
theorem C45_unknown_words (i : Rhi) (heat capacity : ℚ) :
    (i.tariffType ≠ "Fixed" → i.tariffType ≠ "Tiered" →
      rhiYear i heat capacity = .error .unboundLocalError) ∧
    (i.rhiType ≠ "Domestic" → i.rhiType ≠ "Non-domestic" →
      rhiYears i = .error .unboundLocalError) := by
  refine ⟨fun a b => ?_, fun a b => ?_⟩
  · unfold rhiYear; rw [if_neg a, if_neg b]
  · unfold rhiYears; rw [if_neg a, if_neg b]

/-- 20000 kWh of eligible heat with 12 kW: 15768 kWh at 10 p and 4232 kWh at 2 p. -/
example : checks (rhiIncome (sampleCalcs (N := Unit)
    [{ hp := { heatTotalOutput := 30000, elecTotalUsage := 10000 } }] 1))
    (fun r => r.year = (1576800 / 1000 + 84640 / 1000) ∧ r.total = 7 * r.year) = true := by
  decide +kernel

/-! ## C46 running cost -/

/-- `operating_cost` is the running cost, in thousand pounds. -/
theorem C46_operating_cost {C : Calcs N} (h : AllHours C) :
    operatingCost C = .ok (runningCost C.electric C.results / 1000) := by
  unfold operatingCost
  rw [series_ok h, series_ok h]
  show Except.ok _ = _
  congr 1
  unfold runningCost
  rw [List.map_map]
  cases C.electric
  · simp only [Bool.false_eq_true, if_false, sum_map_div']
    rfl
  · simp only [if_true, add_zero]
    rfl

example : operatingCost (sampleCalcs (N := Unit) [{ grid := { cashflow := -50 } }, {}] 2) = .ok (1 / 20) :=
  (C46_operating_cost (C := sampleCalcs (N := Unit) [{ grid := { cashflow := -50 } }, {}] 2) rfl).trans (by decide +kernel)

/-- What `lifetime_cost` and `levelised_cost_of_energy` charge: the running cost in thousand pounds,
plus the fuel 999 times over. -/
theorem energyCost_eq {C : Calcs N} (h : AllHours C) :
    energyCost C = .ok (runningCost C.electric C.results / 1000 +
      if C.electric then 0 else 999 / 1000000 * (C.results.map (·.aux.cost)).sum) := by
  unfold energyCost runningCost
  rw [total_ok h, total_ok h]
  have e : ∀ r : Results N, -r.grid.cashflow / 1000 = (-r.grid.cashflow) / 1000 := fun r => rfl
  cases C.electric
  · simp only [Bool.false_eq_true, if_false, sum_map_add', sum_map_div']
    congr 1; ring
  · simp only [if_true, sum_map_div', add_zero]

/-- Capital cost of a combination. -/
theorem capitalCost_eq {C : Calcs N} {hp ts : ℕ} (hn : C.name = Para.folderName (hp, ts)) :
    capitalCost C = .ok (capex hp ts) := by
  obtain ⟨h1, h2⟩ := C43_sizes_from_name (Int.natCast_nonneg hp) (Int.natCast_nonneg ts)
  unfold capitalCost
  rw [hn, h1, h2]
  rfl

/-- Lifetime cost, whatever the auxiliary. -/
theorem lifetimeCost_eq {C : Calcs N} (h : AllHours C) {hp ts : ℕ}
    (hn : C.name = Para.folderName (hp, ts)) (h0 : C.timesteps ≠ 0) :
    lifetimeCost C = .ok (capex hp ts + (((runningCost C.electric C.results / 1000 +
      if C.electric then 0 else 999 / 1000000 * (C.results.map (·.aux.cost)).sum)
        * (8760 / C.timesteps) * 20 : ℚ) : ℝ)) := by
  unfold lifetimeCost
  rw [energyCost_eq h, capitalCost_eq hn, yearFactor, if_neg h0]
  rfl

/-- With electric heating, or no fuel bill, the lifetime cost is the capital cost and twenty years of
the running cost. -/
theorem C46_lifetime_cost_partial {C : Calcs N} (h : AllHours C) {hp ts : ℕ}
    (hn : C.name = Para.folderName (hp, ts)) (h0 : C.timesteps ≠ 0)
    (he : C.electric = true ∨ (C.results.map (·.aux.cost)).sum = 0) :
    lifetimeCost C = .ok (capex hp ts +
      ((runningCost C.electric C.results / 1000 * (8760 / C.timesteps) * 20 : ℚ) : ℝ)) := by
  rw [lifetimeCost_eq h hn h0]
  rcases he with he | he
  · rw [he]; simp
  · rw [he]; simp

example : lifetimeCost (sampleCalcs (N := Unit) [{ grid := { cashflow := -50 } }, {}] 2) =
    .ok (capex 12 1000 + ((4380 : ℚ) : ℝ)) := by
  have h := C46_lifetime_cost_partial (C := sampleCalcs (N := Unit) [{ grid := { cashflow := -50 } }, {}] 2) rfl
    (hp := 12) (ts := 1000) (by decide +kernel) (by decide) (Or.inl rfl)
  rw [show runningCost (sampleCalcs (N := Unit) [{ grid := { cashflow := -50 } }, {}] 2).electric
    (sampleCalcs (N := Unit) [{ grid := { cashflow := -50 } }, {}] 2).results = 50 by decide +kernel] at h
  exact h.trans (by norm_num [sampleCalcs])

/-- With a fuel bill it is not. -/
theorem C46_fuel_charged_thousandfold {C : Calcs N} (h : AllHours C) {hp ts : ℕ}
    (hn : C.name = Para.folderName (hp, ts)) (h0 : C.timesteps ≠ 0)
    (he : C.electric = false) (hc : 0 < (C.results.map (·.aux.cost)).sum) : ∃ x,
    lifetimeCost C = .ok x ∧ x > capex hp ts +
      ((runningCost C.electric C.results / 1000 * (8760 / C.timesteps) * 20 : ℚ) : ℝ) := by
  refine ⟨_, lifetimeCost_eq h hn h0, ?_⟩
  rw [he]
  simp only [Bool.false_eq_true, if_false]
  have hpos : (0 : ℚ) < C.timesteps := by exact_mod_cast Nat.pos_of_ne_zero h0
  have hf : (0 : ℚ) < 8760 / C.timesteps := by positivity
  have : ((runningCost false C.results / 1000 * (8760 / C.timesteps) * 20 : ℚ) : ℝ) <
      (((runningCost false C.results / 1000 + 999 / 1000000 * (C.results.map (·.aux.cost)).sum)
        * (8760 / C.timesteps) * 20 : ℚ) : ℝ) := by
    exact_mod_cast by
      have : 0 < 999 / 1000000 * (C.results.map (·.aux.cost)).sum * (8760 / C.timesteps) * 20 := by
        positivity
      linarith
  linarith

example : ∃ C : Calcs Unit, AllHours C ∧ C.name = Para.folderName (12, 1000) ∧ C.timesteps ≠ 0 ∧
    C.electric = false ∧ 0 < (C.results.map (·.aux.cost)).sum :=
  ⟨{ sampleCalcs [{ aux := { cost := 50 } }, {}] 2 with electric := false },
    rfl, by decide +kernel, by decide, rfl, by decide +kernel⟩

end Verif
