import Verif.Spec.Battery

/-!
# C01-C07: electrical storage
-/

set_option autoImplicit false

namespace Verif
open Spec

/-! ## C01 -/

/-- One step keeps the state of charge inside the battery, whatever the state and match. -/
theorem C01_step_within_capacity (b : Battery) (hcap : 0 ≤ b.capacity) (m soc : ℚ) :
    0 ≤ b.newSoc m soc ∧ b.newSoc m soc ≤ b.capacity := by
  unfold Battery.newSoc
  dsimp only
  split_ifs <;> constructor <;> linarith

example : 0 ≤ sampleBattery.newSoc 30 9 ∧ sampleBattery.newSoc 30 9 ≤ sampleBattery.capacity :=
  C01_step_within_capacity sampleBattery sampleBattery_ok.capacity_nonneg 30 9

/-- C01: after any history of matches, of any length, the state of charge is in
`[0, capacity]`. -/
theorem C01_soc_within_capacity (b : Battery) (hcap : 0 ≤ b.capacity)
    (h0 : 0 ≤ b.initialState) (h1 : b.initialState ≤ 1) (ms : List ℚ) :
    0 ≤ b.history b.initState ms ∧ b.history b.initState ms ≤ b.capacity := by
  have key : ∀ (ms : List ℚ) (soc : ℚ), 0 ≤ soc → soc ≤ b.capacity →
      0 ≤ b.history soc ms ∧ b.history soc ms ≤ b.capacity := by
    intro ms
    induction ms with
    | nil => intro soc ha hb; exact ⟨ha, hb⟩
    | cons m ms ih =>
      intro soc _ _
      obtain ⟨ha, hb⟩ := C01_step_within_capacity b hcap m soc
      exact ih _ ha hb
  exact key ms _ (mul_nonneg h0 hcap) (by
    unfold Battery.initState
    nlinarith)

example : 0 ≤ sampleBattery.capacity ∧ 0 ≤ sampleBattery.initialState ∧
    sampleBattery.initialState ≤ 1 ∧ sampleBattery.history sampleBattery.initState [3, -2] ≠
      sampleBattery.initState := by
  simp only [sampleBattery, Battery.history, Battery.newSoc, Battery.maxCharging,
    Battery.maxDischarging, Battery.selfLoss, Battery.initState]
  norm_num

/-- The step is exactly the energy balance, clamped to the battery. -/
theorem C01_step_is_clamped_balance (b : Battery) (hcap : 0 ≤ b.capacity) (m soc : ℚ) :
    b.newSoc m soc = clampSoc b.capacity
      (soc + b.maxCharging m soc + b.maxDischarging m soc - soc * b.selfDischarge) := by
  unfold Battery.newSoc clampSoc Battery.selfLoss
  dsimp only
  split_ifs with h1 h2
  · rw [min_eq_left h1, max_eq_right hcap]
  · rw [min_eq_right (by linarith), max_eq_left h2]
  · rw [min_eq_right (by linarith), max_eq_right (by linarith)]

example := C01_step_is_clamped_balance sampleBattery sampleBattery_ok.capacity_nonneg 30 9

/-! ## C02 -/

/-- C02: `max_charging` is the smallest of the surplus offered, the rating and the room. -/
theorem C02_max_charging_eq (b : Battery) (hr : 0 ≤ b.chargeMax) (m soc : ℚ) :
    b.maxCharging m soc = min (min (max m 0) b.chargeMax) (b.capacity - soc) := by
  unfold Battery.maxCharging
  dsimp only
  congr 1
  split_ifs with h1 h2
  · rw [max_eq_left h1.1, min_eq_left h1.2]
  · rw [max_eq_left h2.1, min_eq_right h2.2]
  · have hm : m < 0 := by
      by_contra hc
      push Not at hc
      rcases le_total m b.chargeMax with h | h
      · exact h1 ⟨hc, h⟩
      · exact h2 ⟨hc, h⟩
    rw [max_eq_right hm.le, min_eq_left hr]

example := C02_max_charging_eq sampleBattery sampleBattery_ok.chargeMax_nonneg 7 8

/-- C02: it is admissible and no admissible charge is larger. -/
theorem C02_max_charging_greatest (b : Battery) (hr : 0 ≤ b.chargeMax) (m soc : ℚ) :
    IsGreatest {c | AdmissibleCharge m b.chargeMax (b.capacity - soc) c} (b.maxCharging m soc) := by
  rw [C02_max_charging_eq b hr]
  constructor
  · exact ⟨(min_le_left _ _).trans (min_le_left _ _),
      (min_le_left _ _).trans (min_le_right _ _), min_le_right _ _⟩
  · rintro c ⟨h1, h2, h3⟩
    exact le_min (le_min h1 h2) h3

example := C02_max_charging_greatest sampleBattery sampleBattery_ok.chargeMax_nonneg 7 8

/-- C02: nothing is accepted without surplus when the state of charge is within capacity. -/
theorem C02_no_surplus_no_charge (b : Battery) (hr : 0 ≤ b.chargeMax) (m soc : ℚ)
    (hs : soc ≤ b.capacity) (hm : m ≤ 0) : b.maxCharging m soc = 0 := by
  rw [C02_max_charging_eq b hr, max_eq_right hm, min_eq_left hr, min_eq_left (by linarith)]

example : 0 ≤ sampleBattery.chargeMax ∧ sampleBattery.maxCharging 7 8 = 2 ∧
    sampleBattery.maxCharging 7 1 = 4 ∧ sampleBattery.maxCharging 3 1 = 3 ∧
    sampleBattery.maxCharging (-3) 1 = 0 := by
  simp only [sampleBattery, Battery.maxCharging]
  norm_num

/-! ## C03 -/

/-- C03 (rating): the discharge is never positive and at most the rating in magnitude, and is
exactly the smaller of the scaled deficit and the rating. -/
theorem C03_discharge_rating_partial (b : Battery) (hd : 0 ≤ b.dischargeMax)
    (m soc : ℚ) (hs : 0 ≤ soc) :
    b.maxDischarging m soc = - min (max (-(m * b.dischargeEff)) 0) b.dischargeMax ∧
    -b.dischargeMax ≤ b.maxDischarging m soc ∧ b.maxDischarging m soc ≤ 0 := by
  have key : b.maxDischarging m soc = - min (max (-(m * b.dischargeEff)) 0) b.dischargeMax := by
    unfold Battery.maxDischarging
    dsimp only
    split_ifs with h1 h2
    · rw [max_eq_left (by linarith), min_eq_left (by linarith), min_eq_left (by linarith)]
      ring
    · rw [min_eq_left (show -1 * b.dischargeMax ≤ soc by linarith),
        max_eq_left (by linarith), min_eq_right (by linarith)]
      ring
    · have : 0 ≤ m * b.dischargeEff := by
        by_contra hc
        push Not at hc h2
        exact h1 ⟨hc, by linarith⟩
      rw [max_eq_right (by linarith), min_eq_left hd, min_eq_left hs]
      ring
  refine ⟨key, ?_, ?_⟩
  · rw [key]; exact neg_le_neg (min_le_right _ _)
  · rw [key]; exact neg_nonpos.mpr (le_min (le_max_right _ _) hd)

example := C03_discharge_rating_partial sampleBattery sampleBattery_ok.dischargeMax_nonneg (-9) 5 (by norm_num)

/-- C03 fails for the stored energy: an empty battery offers to discharge 1 kWh. -/
theorem C03_not_bounded_by_stored_energy :
    ¬ ∀ (b : Battery) (m soc : ℚ), BatteryOk b → 0 ≤ soc → soc ≤ b.capacity →
      -(b.maxDischarging m soc) ≤ soc := by
  intro h
  have h1 := h { sampleBattery with dischargeEff := 1 } (-1) 0
    (by constructor <;> norm_num [sampleBattery]) le_rfl (by norm_num [sampleBattery])
  norm_num [Battery.maxDischarging, sampleBattery] at h1

/-- C03 (what holds instead): the energy that actually leaves in one step never exceeds the
energy stored, and without surplus never exceeds rating plus self-discharge. -/
theorem C03_energy_removed_partial (b : Battery) (hb : BatteryOk b) (m soc : ℚ)
    (hs : 0 ≤ soc) (hc : soc ≤ b.capacity) :
    soc - b.newSoc m soc ≤ soc ∧
    soc - b.newSoc m soc ≤ b.dischargeMax + soc * b.selfDischarge := by
  have h0 := (C01_step_within_capacity b hb.capacity_nonneg m soc).1
  refine ⟨by linarith, ?_⟩
  obtain ⟨_, h1, _⟩ := C03_discharge_rating_partial b hb.dischargeMax_nonneg m soc hs
  have h2 : 0 ≤ b.maxCharging m soc := by
    rw [C02_max_charging_eq b hb.chargeMax_nonneg]
    exact le_min (le_min (le_max_right _ _) hb.chargeMax_nonneg) (by linarith)
  have h3 := mul_nonneg hs hb.selfDischarge_nonneg
  unfold Battery.newSoc Battery.selfLoss
  dsimp only
  have := hb.dischargeMax_nonneg
  split_ifs <;> linarith

example := C03_energy_removed_partial sampleBattery sampleBattery_ok (-9) 5 (by norm_num) (by norm_num [sampleBattery])

/-- C03: with enough energy stored for the scaled deficit, `max_discharging` is bounded by the
stored energy as well. -/
theorem C03_bounded_by_stored_energy_partial (b : Battery) (hd : 0 ≤ b.dischargeMax)
    (m soc : ℚ) (hs : 0 ≤ soc) (h : b.dischargeMax ≤ soc ∨ -(m * b.dischargeEff) ≤ soc) :
    -(b.maxDischarging m soc) ≤ soc := by
  rw [(C03_discharge_rating_partial b hd m soc hs).1, neg_neg]
  rcases h with h | h
  · exact (min_le_right _ _).trans h
  · exact (min_le_left _ _).trans (max_le h hs)

example : 0 ≤ sampleBattery.dischargeMax ∧ sampleBattery.dischargeMax ≤ 5 ∧
    sampleBattery.maxDischarging (-2) 5 = -9/5 := by
  simp only [sampleBattery, Battery.maxDischarging]
  norm_num

/-! ## C04 -/

/-- C04: exactly when `discharging` and `total_losses` return a value. -/
theorem C04_reports_return_iff (b : Battery) (m soc : ℚ) :
    ((∃ v, b.discharging m soc = .ok v) ↔ 0 ≤ m) ∧
    ((∃ v, b.totalLosses m soc = .ok v) ↔ 0 ≤ m) ∧
    (m < 0 → b.discharging m soc = .error .typeError ∧
      b.totalLosses m soc = .error .typeError) := by
  unfold Battery.totalLosses Battery.discharging
  refine ⟨?_, ?_, ?_⟩
  · by_cases h : m ≥ 0 <;> simp [h]
  · by_cases h : m ≥ 0
    · simp only [h, if_true, iff_true]
      exact ⟨_, rfl⟩
    · simp only [h, if_false, iff_false, not_exists]
      intro v hv
      cases hv
  · intro h
    have : ¬ m ≥ 0 := not_le.mpr h
    simp only [this, if_false]
    exact ⟨trivial, rfl⟩

/-- C04 fails: a discharging step raises for every battery and state of charge. -/
theorem C04_not_total : ¬ ∀ (b : Battery) (m soc : ℚ), ∃ v, b.discharging m soc = .ok v := by
  intro h
  have := ((C04_reports_return_iff sampleBattery (-1) 5).1).mp (h sampleBattery (-1) 5)
  norm_num at this

/-- C04 (what holds): charging and idle steps report, and report no discharge. -/
theorem C04_reports_partial (b : Battery) (m soc : ℚ) (hm : 0 ≤ m) :
    b.discharging m soc = .ok 0 ∧
    b.totalLosses m soc = .ok ((1 - b.chargeEff) * b.charging m soc - soc * b.selfDischarge) := by
  have h : m ≥ 0 := hm
  constructor
  · simp [Battery.discharging, h]
  · simp only [Battery.totalLosses, Battery.discharging, h, if_true]
    show Except.ok _ = Except.ok _
    congr 1
    simp [Battery.selfLoss]

example : (0:ℚ) ≤ 3 ∧ (1 - sampleBattery.chargeEff) * sampleBattery.charging 3 5
    - 5 * sampleBattery.selfDischarge = 49/200 := by
  norm_num [Battery.charging, Battery.newSoc, Battery.maxCharging, Battery.maxDischarging,
    Battery.selfLoss, sampleBattery]

/-! ## C05 -/

/-- C05 (what holds): when the state of charge rises, the report is the rise; otherwise the
report is the match itself. -/
theorem C05_charging_report_partial (b : Battery) (m soc : ℚ) :
    (soc < b.newSoc m soc → b.charging m soc = b.newSoc m soc - soc) ∧
    (b.newSoc m soc ≤ soc → b.charging m soc = m) := by
  unfold Battery.charging
  constructor <;> intro h
  · rw [if_neg (by linarith)]
  · rw [if_pos (by linarith)]

/-- C05 fails: a full battery offered 5 kWh reports charging 5 kWh. -/
theorem C05_not_rise_in_soc :
    ¬ ∀ (b : Battery) (m soc : ℚ), BatteryOk b → 0 ≤ soc → soc ≤ b.capacity →
      b.charging m soc = max 0 (b.newSoc m soc - soc) := by
  intro h
  have h1 := h { sampleBattery with selfDischarge := 0 } 5 10
    (by constructor <;> norm_num [sampleBattery]) (by norm_num) (by norm_num [sampleBattery])
  norm_num [Battery.charging, Battery.newSoc, Battery.maxCharging, Battery.maxDischarging,
    Battery.selfLoss, sampleBattery] at h1

/-- C05: at full charge the report equals the whole surplus, however large. -/
theorem C05_full_battery_reports_match (b : Battery) (hb : BatteryOk b) (m : ℚ) :
    b.charging m b.capacity = m := by
  apply (C05_charging_report_partial b m b.capacity).2
  exact (C01_step_within_capacity b hb.capacity_nonneg m b.capacity).2

example : sampleBattery.charging 3 5 = 59/20 ∧ (5:ℚ) < sampleBattery.newSoc 3 5 := by
  norm_num [Battery.charging, Battery.newSoc, Battery.maxCharging, Battery.maxDischarging,
    Battery.selfLoss, sampleBattery]

/-! ## C06 -/

/-- C06 (rating): never more than the charge rating. -/
theorem C06_charge_to_capacity_rating_partial (b : Battery) (soc : ℚ) :
    b.chargeToCapacity soc ≤ b.chargeMax := min_le_right _ _

/-- C06: exactly when charging to capacity overfills. -/
theorem C06_overfill_iff (b : Battery) (soc : ℚ) :
    b.capacity < soc + b.chargeToCapacity soc ↔
      b.capacity - soc < b.chargeMax ∧
      0 < soc * b.selfDischarge + (b.capacity - soc) * b.chargeEff := by
  unfold Battery.chargeToCapacity Battery.selfLoss
  dsimp only
  constructor
  · intro h
    have h1 := min_le_left (b.capacity - soc +
      (soc * b.selfDischarge + (b.capacity - soc) * b.chargeEff)) b.chargeMax
    have h2 := min_le_right (b.capacity - soc +
      (soc * b.selfDischarge + (b.capacity - soc) * b.chargeEff)) b.chargeMax
    constructor <;> linarith
  · rintro ⟨h1, h2⟩
    have : b.capacity - soc < min (b.capacity - soc +
      (soc * b.selfDischarge + (b.capacity - soc) * b.chargeEff)) b.chargeMax :=
      lt_min (by linarith) h1
    linarith

/-- C06 fails: a 10 kWh battery holding 9 kWh asks for more than 1 kWh. -/
theorem C06_not_within_capacity :
    ¬ ∀ (b : Battery) (soc : ℚ), BatteryOk b → 0 ≤ soc → soc ≤ b.capacity →
      soc + b.chargeToCapacity soc ≤ b.capacity := by
  intro h
  have h1 := h sampleBattery 9 sampleBattery_ok (by norm_num) (by norm_num [sampleBattery])
  have h2 := (C06_overfill_iff sampleBattery 9).mpr (by norm_num [sampleBattery])
  linarith

/-- C06 (what holds): no overfill without self-discharge and with a zero loss fraction, and no
overfill when the rating is the binding limit. The charge is never negative. -/
theorem C06_charge_to_capacity_partial (b : Battery) (hb : BatteryOk b) (soc : ℚ)
    (hs : 0 ≤ soc) (hc : soc ≤ b.capacity)
    (h : (b.selfDischarge = 0 ∧ b.chargeEff = 0) ∨ b.chargeMax ≤ b.capacity - soc) :
    soc + b.chargeToCapacity soc ≤ b.capacity ∧ 0 ≤ b.chargeToCapacity soc := by
  constructor
  · by_contra hlt
    push Not at hlt
    obtain ⟨h1, h2⟩ := (C06_overfill_iff b soc).mp hlt
    rcases h with ⟨ha, hb'⟩ | h
    · rw [ha, hb'] at h2; linarith
    · linarith
  · unfold Battery.chargeToCapacity Battery.selfLoss
    dsimp only
    have := mul_nonneg hs hb.selfDischarge_nonneg
    have := mul_nonneg (sub_nonneg.mpr hc) hb.chargeEff_nonneg
    exact le_min (by linarith) hb.chargeMax_nonneg

example : BatteryOk sampleBattery ∧ sampleBattery.chargeMax ≤ sampleBattery.capacity - 2 ∧
    sampleBattery.chargeToCapacity 2 = 4 :=
  ⟨sampleBattery_ok, by norm_num [sampleBattery],
   by norm_num [sampleBattery, Battery.chargeToCapacity, Battery.selfLoss]⟩

/-! ## C07 -/

/-- C07: `n` idle steps leave `soc * (1 - self_discharge)^n`. -/
theorem C07_idle_self_discharge (b : Battery) (hb : BatteryOk b) (n : ℕ) :
    ∀ soc : ℚ, 0 ≤ soc → soc ≤ b.capacity →
      b.history soc (List.replicate n 0) = soc * (1 - b.selfDischarge) ^ n := by
  induction n with
  | zero => intro soc _ _; simp [Battery.history]
  | succ n ih =>
    intro soc hs hc
    have hr : (0:ℚ) ≤ 1 - b.selfDischarge := by linarith [hb.selfDischarge_le_one]
    have hx := mul_nonneg hs hr
    have hx2 : soc * (1 - b.selfDischarge) ≤ soc := by
      nlinarith [hb.selfDischarge_nonneg]
    have hstep : b.newSoc 0 soc = soc * (1 - b.selfDischarge) := by
      rw [C01_step_is_clamped_balance b hb.capacity_nonneg,
        C02_no_surplus_no_charge b hb.chargeMax_nonneg 0 soc hc le_rfl,
        (C03_discharge_rating_partial b hb.dischargeMax_nonneg 0 soc hs).1]
      simp only [zero_mul, neg_zero, max_self, min_eq_left hb.dischargeMax_nonneg, clampSoc]
      rw [min_eq_right (by linarith), max_eq_right (by linarith)]
      ring
    rw [List.replicate_succ, Battery.history, hstep, ih _ hx (by linarith)]
    ring

example : sampleBattery.history 5 (List.replicate 100 0) = 5 * (1 - sampleBattery.selfDischarge) ^ 100 :=
  C07_idle_self_discharge sampleBattery sampleBattery_ok 100 5 (by norm_num) (by norm_num [sampleBattery])

/-- C07: hence an idle battery never gains energy. -/
theorem C07_idle_never_gains (b : Battery) (hb : BatteryOk b) (n : ℕ) (soc : ℚ)
    (hs : 0 ≤ soc) (hc : soc ≤ b.capacity) :
    b.history soc (List.replicate n 0) ≤ soc := by
  rw [C07_idle_self_discharge b hb n soc hs hc]
  have h1 : (0:ℚ) ≤ 1 - b.selfDischarge := by linarith [hb.selfDischarge_le_one]
  have h2 : (1 - b.selfDischarge) ^ n ≤ 1 :=
    pow_le_one₀ h1 (by linarith [hb.selfDischarge_nonneg])
  nlinarith

example : BatteryOk sampleBattery ∧ (0:ℚ) ≤ 5 ∧ 5 ≤ sampleBattery.capacity :=
  ⟨sampleBattery_ok, by norm_num, by norm_num [sampleBattery]⟩

/-- The state of charge after a step is monotone in the net power offered. -/
theorem C07_newSoc_monotone_in_match (b : Battery) (hb : BatteryOk b) (soc m₁ m₂ : ℚ)
    (hs : 0 ≤ soc) (h : m₁ ≤ m₂) : b.newSoc m₁ soc ≤ b.newSoc m₂ soc := by
  rw [C01_step_is_clamped_balance b hb.capacity_nonneg,
    C01_step_is_clamped_balance b hb.capacity_nonneg,
    C02_max_charging_eq b hb.chargeMax_nonneg, C02_max_charging_eq b hb.chargeMax_nonneg,
    (C03_discharge_rating_partial b hb.dischargeMax_nonneg m₁ soc hs).1,
    (C03_discharge_rating_partial b hb.dischargeMax_nonneg m₂ soc hs).1]
  have h1 : min (min (max m₁ 0) b.chargeMax) (b.capacity - soc) ≤
      min (min (max m₂ 0) b.chargeMax) (b.capacity - soc) :=
    min_le_min (min_le_min (max_le_max h le_rfl) le_rfl) le_rfl
  have h2 : min (max (-(m₂ * b.dischargeEff)) 0) b.dischargeMax ≤
      min (max (-(m₁ * b.dischargeEff)) 0) b.dischargeMax :=
    min_le_min (max_le_max (neg_le_neg
      (mul_le_mul_of_nonneg_right h hb.dischargeEff_nonneg)) le_rfl) le_rfl
  unfold clampSoc
  exact max_le_max le_rfl (min_le_min le_rfl (by linarith))

example : sampleBattery.newSoc (-2) 5 ≤ sampleBattery.newSoc 3 5 :=
  C07_newSoc_monotone_in_match sampleBattery sampleBattery_ok 5 (-2) 3 (by norm_num) (by norm_num)

end Verif
