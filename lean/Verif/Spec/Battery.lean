import Verif.Model.Battery

/-!
# What a battery should do, stated without the model's methods
-/

set_option autoImplicit false

namespace Verif.Spec

/-- A physically meaningful battery: non-negative ratings, fractions in `[0,1]`. -/
structure BatteryOk (b : Battery) : Prop where
  capacity_nonneg : 0 ≤ b.capacity
  chargeMax_nonneg : 0 ≤ b.chargeMax
  dischargeMax_nonneg : 0 ≤ b.dischargeMax
  init_nonneg : 0 ≤ b.initialState
  init_le_one : b.initialState ≤ 1
  chargeEff_nonneg : 0 ≤ b.chargeEff
  chargeEff_le_one : b.chargeEff ≤ 1
  dischargeEff_nonneg : 0 ≤ b.dischargeEff
  dischargeEff_le_one : b.dischargeEff ≤ 1
  selfDischarge_nonneg : 0 ≤ b.selfDischarge
  selfDischarge_le_one : b.selfDischarge ≤ 1

/-- A charge `c` is admissible when power `offered` is available, the rating is `rating`
and there is room for `room` more energy. -/
def AdmissibleCharge (offered rating room c : ℚ) : Prop :=
  c ≤ max offered 0 ∧ c ≤ rating ∧ c ≤ room

/-- State of charge after one step, as an energy balance clamped to the battery. -/
def clampSoc (capacity x : ℚ) : ℚ := max 0 (min capacity x)

/-- A concrete 10 kWh battery used in the satisfiability examples. -/
def sampleBattery : Battery :=
  { capacity := 10, initialState := 1/2, chargeMax := 4, dischargeMax := 3,
    chargeEff := 9/10, dischargeEff := 9/10, selfDischarge := 1/100 }

theorem sampleBattery_ok : BatteryOk sampleBattery := by
  constructor <;> norm_num [sampleBattery]

end Verif.Spec
