import Verif.Model.Renewables
import Verif.Lemmas.ListM
import Verif.Model.Grid

/-!
# Properties of the wind and solar power (C59, C80)
-/

set_option autoImplicit false

namespace Verif
open Renewables

/-! ## C59: solar power -/

/-- C59: without panels there is no power, in any of the 8760 hours, whatever the weather. -/
theorem C59_no_panels (ac : List (Option ℚ)) :
    ∃ ps, pvPower 0 ac = .ok ps ∧ ps.length = 8760 ∧ ∀ p ∈ ps, p = 0 := by
  refine ⟨List.replicate 8760 0, by unfold pvPower; rw [if_pos rfl], List.length_replicate, ?_⟩
  intro p hp
  exact List.eq_of_mem_replicate hp

theorem cf_pos : ∀ c ∈ cf, 0 < c := by decide +kernel

theorem cf_get {hour : ℕ} (h : hour < 8760) : ∃ c, cf[monthIndex hour]? = some c ∧ 0 < c := by
  have hlt : monthIndex hour < cf.length := by
    show hour / 730 < 12
    omega
  exact ⟨_, List.getElem?_eq_getElem hlt, cf_pos _ (List.getElem_mem hlt)⟩

/-- C59: with a full year of power from the library the calculation succeeds, gives 8760 values, none
negative, and a missing value counts as no power. -/
theorem C59_never_negative (multiplier : ℚ) (ac : List (Option ℚ)) (hl : ac.length = 8760) :
    ∃ ps, pvPower multiplier ac = .ok ps ∧ ps.length = 8760 ∧ (∀ p ∈ ps, 0 ≤ p) ∧
      ∀ t : ℕ, ac[t]? = some none → ps[t]? = some 0 := by
  by_cases hm : multiplier = 0
  · subst hm
    obtain ⟨ps, h1, h2, h3⟩ := C59_no_panels ac
    refine ⟨ps, h1, h2, fun p hp => (h3 p hp).ge, fun t ht => ?_⟩
    have hlt : t < ps.length := by
      rw [h2, ← hl]
      exact (List.getElem?_eq_some_iff.mp ht).1
    rw [List.getElem?_eq_getElem hlt, h3 _ (List.getElem_mem hlt)]
  · have htot : ∀ x ∈ List.range 8760, ∃ y, corrected (ac.map (pvRaw multiplier)) x = .ok y := by
      intro x hx
      rw [List.mem_range] at hx
      obtain ⟨c, hc, _⟩ := cf_get hx
      unfold corrected
      rw [List.getElem?_map, List.getElem?_eq_getElem (by rw [hl]; exact hx), hc]
      exact ⟨_, rfl⟩
    obtain ⟨ps, hps⟩ := mapM_total htot
    refine ⟨ps, by unfold pvPower; rw [if_neg hm, hps], by rw [mapM_length hps, List.length_range], ?_, ?_⟩
    · intro p hp
      obtain ⟨i, hi, rfl⟩ := List.getElem_of_mem hp
      have hi' : i < 8760 := by rw [mapM_length hps, List.length_range] at hi; exact hi
      obtain ⟨y, h1, h2⟩ := mapM_range_get hps hi'
      rw [List.getElem?_eq_getElem hi] at h1
      replace h1 := Option.some.inj h1
      rw [h1]
      obtain ⟨c, hc, hpos⟩ := cf_get hi'
      unfold corrected at h2
      rw [List.getElem?_map, List.getElem?_eq_getElem (by rw [hl]; exact hi'), hc] at h2
      simp only [Option.map_some] at h2
      replace h2 := Except.ok.inj h2
      rw [← h2]
      refine mul_nonneg ?_ hpos.le
      unfold pvRaw
      dsimp only
      split_ifs with h
      · exact le_refl _
      · exact not_lt.mp h
    · intro t ht
      have hlt : t < 8760 := by rw [← hl]; exact (List.getElem?_eq_some_iff.mp ht).1
      obtain ⟨y, h1, h2⟩ := mapM_range_get hps hlt
      obtain ⟨c, hc, _⟩ := cf_get hlt
      unfold corrected at h2
      rw [List.getElem?_map, ht, hc] at h2
      simp only [Option.map_some] at h2
      replace h2 := Except.ok.inj h2
      rw [h1, ← h2]
      have h0 : pvRaw multiplier none = 0 := by
        have hr : pyRound 0 2 = 0 := by decide +kernel
        unfold pvRaw
        simp only [Option.getD_none, hr]
        norm_num
      rw [h0, zero_mul]

example : ∃ ac : List (Option ℚ), ac.length = 8760 ∧ some 1234 ∈ ac :=
  ⟨List.replicate 8760 (some 1234), List.length_replicate, List.mem_replicate.mpr ⟨by norm_num, rfl⟩⟩

/-- C59: the value of an hour. A library value `w` watts (not negative, at most two decimals) becomes `w/1000 × panels × 0.7225`
kWh times the factor of the hour's twelfth of the year. -/
theorem C59_value {multiplier : ℚ} (hm : 0 < multiplier) {ac : List (Option ℚ)} {ps : List ℚ}
    (h : pvPower multiplier ac = .ok ps) {t : ℕ} (ht : t < 8760) {w : ℚ} (hw : ac[t]? = some (some w))
    (h0 : 0 ≤ w) (hr : pyRound w 2 = w) :
    ∃ c, cf[t / 730]? = some c ∧ ps[t]? = some (w / 1000 * multiplier * (7225 / 10000) * c) := by
  unfold pvPower at h
  rw [if_neg (ne_of_gt hm)] at h
  obtain ⟨y, h1, h2⟩ := mapM_range_get h ht
  obtain ⟨c, hc, _⟩ := cf_get ht
  refine ⟨c, hc, ?_⟩
  unfold corrected at h2
  rw [List.getElem?_map, hw, hc] at h2
  simp only [Option.map_some] at h2
  replace h2 := Except.ok.inj h2
  rw [h1, ← h2]
  have hpos : ¬ (w * multiplier * (1 / 1000) * (85 / 100) * (85 / 100) < 0) := by
    have : 0 ≤ w * multiplier := mul_nonneg h0 hm.le
    push Not
    positivity
  unfold pvRaw
  simp only [Option.getD_some, hr]
  rw [if_neg hpos]
  exact congrArg some (by ring)

example : (0 : ℚ) ≤ 1234.5 ∧ pyRound 1234.5 2 = 1234.5 := by decide +kernel

/-- The month (0 is January) of hour `t` of a year of 365 days. -/
def Spec.monthOf (t : ℕ) : ℕ :=
  ((List.range 12).filter fun m => Tariff.daysBeforeMonth 2019 (m + 1) ≤ t / 24).length - 1

/-- C59 is false of the month factors: they are applied to twelfths of the year, not to months. At
10:00 on 31 January the factor of February is used, at 00:00 on 1 December still that of November. -/
theorem C59_wrong_month :
    Spec.monthOf 730 = 0 ∧ monthIndex 730 = 1 ∧
    Spec.monthOf 8016 = 11 ∧ monthIndex 8016 = 10 ∧ cf[0]? ≠ cf[1]? ∧ cf[10]? ≠ cf[11]? := by
  decide +kernel

/-- C59: the factor is never more than one month off, and each factor serves 730 hours. -/
theorem C59_month_close_partial (t : ℕ) (h : t < 8760) :
    (monthIndex t ≤ Spec.monthOf t + 1 ∧ Spec.monthOf t ≤ monthIndex t + 1) ∧ monthIndex t < 12 := by
  have key : ∀ d < 365, ∀ h < 24,
      (monthIndex (24 * d + h) ≤ Spec.monthOf (24 * d) + 1 ∧ Spec.monthOf (24 * d) ≤ monthIndex (24 * d + h) + 1) ∧
        monthIndex (24 * d + h) < 12 := by decide +kernel
  have := key (t / 24) (by omega) (t % 24) (by omega)
  have e : 24 * (t / 24) + t % 24 = t := Nat.div_add_mod t 24
  have e2 : Spec.monthOf (24 * (t / 24)) = Spec.monthOf t := by
    unfold Spec.monthOf
    rw [Nat.mul_div_cancel_left _ (by norm_num)]
  rwa [e, e2] at this

/-! ## C80: wind power -/

/-- C80: the wind power of a run is the sum of the two turbines hour by hour, each zero if there is no
turbine of the kind, and never negative if the library's power is not and turbines are not counted
negatively. -/
theorem C80_wind {mU mD : ℚ} {pU pD : List ℚ} (hU : pU.length = 8760) (hD : pD.length = 8760) :
    ∃ ws, windTotal mU pU mD pD = .ok ws ∧ ws.length = 8760 ∧
      (mU = 0 → mD = 0 → ∀ w ∈ ws, w = 0) ∧
      (0 ≤ mU → 0 ≤ mD → (∀ p ∈ pU, 0 ≤ p) → (∀ p ∈ pD, 0 ≤ p) → ∀ w ∈ ws, 0 ≤ w) := by
  have hu : (userPower mU pU).get "wind_user" = .ok (userPower mU pU).values := by
    have : "wind_user" = (userPower mU pU).column := by unfold userPower; split_ifs <;> rfl
    exact if_pos this
  have hd : (databasePower mD pD).get "wind_database" = .ok (databasePower mD pD).values := by
    have : "wind_database" = (databasePower mD pD).column := by unfold databasePower; split_ifs <;> rfl
    exact if_pos this
  have lu : (userPower mU pU).values.length = 8760 := by
    unfold userPower
    split_ifs
    · exact List.length_replicate
    · rw [List.length_map, hU]
  have ld : (databasePower mD pD).values.length = 8760 := by
    unfold databasePower
    split_ifs
    · exact List.length_replicate
    · rw [List.length_map, hD]
  have hmem : ∀ w ∈ List.zipWith (· + ·) (userPower mU pU).values (databasePower mD pD).values,
      ∃ a ∈ (userPower mU pU).values, ∃ b ∈ (databasePower mD pD).values, a + b = w := by
    intro w hw
    obtain ⟨i, hi, rfl⟩ := List.getElem_of_mem hw
    rw [List.length_zipWith] at hi
    rw [List.getElem_zipWith]
    exact ⟨_, List.getElem_mem _, _, List.getElem_mem _, rfl⟩
  refine ⟨List.zipWith (· + ·) (userPower mU pU).values (databasePower mD pD).values, ?_, ?_, ?_, ?_⟩
  · unfold windTotal
    rw [hu, hd]
    rfl
  · rw [List.length_zipWith, lu, ld, min_self]
  · rintro rfl rfl w hw
    obtain ⟨a, ha, b, hb, rfl⟩ := hmem w hw
    unfold userPower at ha
    unfold databasePower at hb
    rw [if_pos rfl] at ha hb
    rw [List.eq_of_mem_replicate ha, List.eq_of_mem_replicate hb, add_zero]
  · intro h1 h2 h3 h4 w hw
    obtain ⟨a, ha, b, hb, rfl⟩ := hmem w hw
    refine add_nonneg ?_ ?_
    · unfold userPower at ha
      split_ifs at ha
      · rw [List.eq_of_mem_replicate ha]
      · obtain ⟨p, hp, rfl⟩ := List.mem_map.mp ha
        have := h3 p hp
        exact FixedOrder.pyRound_nonneg (by positivity) 2
    · unfold databasePower at hb
      split_ifs at hb
      · rw [List.eq_of_mem_replicate hb]
      · obtain ⟨p, hp, rfl⟩ := List.mem_map.mp hb
        have := h4 p hp
        exact FixedOrder.pyRound_nonneg (by positivity) 2

/-- C80: hour `t` in kWh: a thousandth of the library's watts times the number of turbines, halved for a
turbine of the database, each to the nearest hundredth. -/
theorem C80_wind_value {mU mD : ℚ} {pU pD ws : List ℚ} (hU : mU ≠ 0) (hD : mD ≠ 0)
    (h : windTotal mU pU mD pD = .ok ws) {t : ℕ} {u d : ℚ} (hu : pU[t]? = some u) (hd : pD[t]? = some d) :
    ∃ w, ws[t]? = some w ∧ |w - (u * mU / 1000 + d * mD / 2000)| ≤ 1 / 100 := by
  have e : ws = List.zipWith (· + ·) (pU.map fun p => pyRound (p * mU / 1000) 2) (pD.map fun p => pyRound (p * mD * (1/2) / 1000) 2) := by
    unfold windTotal userPower databasePower at h
    rw [if_neg hU, if_neg hD] at h
    injection h with h
    exact h.symm
  refine ⟨pyRound (u * mU / 1000) 2 + pyRound (d * mD * (1/2) / 1000) 2, ?_, ?_⟩
  · rw [e, List.getElem?_zipWith, List.getElem?_map, List.getElem?_map, hu, hd]
    rfl
  · have h1 := FixedOrder.pyRound_bounds (u * mU / 1000) 2
    have h2 := FixedOrder.pyRound_bounds (d * mD * (1/2) / 1000) 2
    norm_num at h1 h2
    rw [abs_le]
    constructor <;> linarith [h1.1, h1.2, h2.1, h2.2]

example : ∃ ws, windTotal 2 [1000, 2000] 1 [500, 700] = .ok ws ∧ ws = [9/4, 87/20] := by
  apply exists_of_checks; decide +kernel

/-- C80: hour `t` of the wind farm in kWh: half a thousandth of the library's watts for the whole farm, to
the nearest hundredth; a farm without turbines gives nothing in 8760 hours. -/
theorem C80_farm_value (m : ℚ) (farm : List ℚ) :
    ∃ ws, (windFarmPower m farm).get "wind_farm" = .ok ws ∧
      (m = 0 → ws.length = 8760 ∧ ∀ w ∈ ws, w = 0) ∧
      (m ≠ 0 → ws.length = farm.length ∧ ∀ (t : ℕ) (p : ℚ), farm[t]? = some p → ∃ w, ws[t]? = some w ∧ |w - p / 2000| ≤ 1 / 200) := by
  by_cases hm : m = 0
  · refine ⟨List.replicate 8760 0, ?_, fun _ => ⟨List.length_replicate, fun w hw => List.eq_of_mem_replicate hw⟩, fun h => absurd hm h⟩
    unfold windFarmPower
    rw [if_pos hm]
    rfl
  · refine ⟨farm.map fun p => pyRound (p * (1/2) / 1000) 2, ?_, fun h => absurd h hm, fun _ => ⟨List.length_map .., fun t p hp => ?_⟩⟩
    · unfold windFarmPower
      rw [if_neg hm]
      rfl
    · refine ⟨_, by rw [List.getElem?_map, hp]; rfl, ?_⟩
      have := FixedOrder.pyRound_bounds (p * (1/2) / 1000) 2
      norm_num at this
      rw [abs_le]
      constructor <;> linarith

/-- A farm of two hours. -/
example : (windFarmPower 5 [1000, 2001]).get "wind_farm" = .ok [1/2, 1] := by decide +kernel

/-- C80 is false of the helper functions: `wind_user_power` and `wind_database_power` fail for every input, and
`sum_renewable_generation` always. -/
theorem C80_helpers_fail (m : ℚ) (p : List ℚ) :
    windUserHelper m p = .error .keyError ∧ windDatabaseHelper m p = .error .keyError ∧
      sumRenewableGeneration = .error .typeError := by
  refine ⟨?_, ?_, rfl⟩
  · have : (userPower m p).column = "wind_user" := by unfold userPower; split_ifs <;> rfl
    exact if_neg (by rw [this]; decide)
  · have : (databasePower m p).column = "wind_database" := by unfold databasePower; split_ifs <;> rfl
    exact if_neg (by rw [this]; decide)

end Verif
