import Verif.Base

/-!
# Electrical storage (`/repo/pylesa/storage/electrical_storage.py`)

Floats are exact rationals. Every method of `ElectricalStorage` is modelled.
-/

set_option autoImplicit false

namespace Verif

/-- `ElectricalStorage.__init__`, electrical_storage.py L12-35: the seven attributes. -/
structure Battery where
  capacity : ℚ
  initialState : ℚ
  chargeMax : ℚ
  dischargeMax : ℚ
  chargeEff : ℚ
  dischargeEff : ℚ
  selfDischarge : ℚ
  deriving DecidableEq

namespace Battery

/-- `init_state`, electrical_storage.py L37-39. -/
def initState (b : Battery) : ℚ := b.initialState * b.capacity

/-- `max_charging`, electrical_storage.py L41-68. The final `else` stands for the third
`elif`, whose test `max_p_charge <= 0` is implied by the failure of the first two. -/
def maxCharging (b : Battery) (m soc : ℚ) : ℚ :=
  let maxChangeSoc := b.capacity - soc
  let maxCharge :=
    if m ≥ 0 ∧ m ≤ b.chargeMax then m
    else if m ≥ 0 ∧ m ≥ b.chargeMax then b.chargeMax
    else 0
  min maxCharge maxChangeSoc

/-- `max_discharging`, electrical_storage.py L70-93. Negative numbers mean discharge. The
final `else` stands for the third `elif`, implied by the failure of the first two. -/
def maxDischarging (b : Battery) (m soc : ℚ) : ℚ :=
  let p := m * b.dischargeEff
  let discharge :=
    if p < 0 ∧ p ≥ -1 * b.dischargeMax then p
    else if p ≤ -1 * b.dischargeMax then -1 * b.dischargeMax
    else 0
  min discharge soc

/-- `self_loss`, electrical_storage.py L95-107. -/
def selfLoss (b : Battery) (soc : ℚ) : ℚ := soc * b.selfDischarge

/-- `new_soc`, electrical_storage.py L109-138. -/
def newSoc (b : Battery) (m soc : ℚ) : ℚ :=
  let x := soc + b.maxCharging m soc + b.maxDischarging m soc - b.selfLoss soc
  if x ≥ b.capacity then b.capacity
  else if x ≤ 0 then 0
  else x

/-- `charging`, electrical_storage.py L140-156. -/
def charging (b : Battery) (m soc : ℚ) : ℚ :=
  let d := b.newSoc m soc - soc
  if d ≤ 0 then m else d

/-- `discharging`, electrical_storage.py L158-175. The call `self.new_soc(match)` on L173
misses an argument, which raises `TypeError`. -/
def discharging (_b : Battery) (m _soc : ℚ) : Except PyErr ℚ :=
  if m ≥ 0 then .ok 0 else .error .typeError

/-- `charge_to_capacity`, electrical_storage.py L177-190. -/
def chargeToCapacity (b : Battery) (soc : ℚ) : ℚ :=
  let c := b.capacity - soc
  let losses := b.selfLoss soc + c * b.chargeEff
  min (c + losses) b.chargeMax

/-- `total_losses`, electrical_storage.py L192-211. -/
def totalLosses (b : Battery) (m soc : ℚ) : Except PyErr ℚ := do
  let d ← b.discharging m soc
  return (1 - b.chargeEff) * b.charging m soc + (1 - b.dischargeEff) * d - b.selfLoss soc

/-- A caller's history: `soc = new_soc(match, soc)` for each match in turn, as the
controllers do (fixed_order.py L59-164 chains `final_soc` from step to step). -/
def history (b : Battery) : ℚ → List ℚ → ℚ
  | soc, [] => soc
  | soc, m :: ms => history b (b.newSoc m soc) ms

end Battery
end Verif
