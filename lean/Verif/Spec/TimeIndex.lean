import Verif.Model.TimeIndex
import Verif.Spec.Grid

/-!
# Specification vocabulary for the time labels
-/

set_option autoImplicit false

namespace Verif.Spec
open TimeIndex Tariff

/-- The label says this hour of this day. -/
def Shows (s : Stamp) (D : Date) (hour : ℕ) : Prop := (⟨s.year, s.month, s.day⟩ : Date) = D ∧ s.hour = hour

/-- A Sunday with no other Sunday after it in its month. -/
def LastSunday (n : ℕ) : Prop :=
  weekdayAt n = .sunday ∧ monthLength (dateAt n).year (dateAt n).month < (dateAt n).day + 7

end Verif.Spec
