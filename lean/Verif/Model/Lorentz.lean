import Mathlib.Analysis.SpecialFunctions.Log.Deriv
import Mathlib.Analysis.Convex.SpecificFunctions.Basic

/-!
# Lorentz model (`/repo/pylesa/heat/models/lorentz.py`), over the reals
-/

set_option autoImplicit false

namespace Verif

noncomputable section
namespace Lorentz

/-- `ABS_ZERO`, heat/models/constants.py. -/
def absZero : ℝ := 273.15

/-- `t_high_mean` and `t_low_mean`, lorentz.py L57-63. Equal temperatures give numpy's 0/0 = nan,
which is outside the model. -/
def logMean (a b : ℝ) : ℝ := (a - b) / Real.log ((a + absZero) / (b + absZero))

/-- `_cop_lorentz`, lorentz.py L49-66. -/
def copLorentz (flow ret ambIn ambOut : ℝ) : ℝ :=
  logMean flow ret / (logMean flow ret - logMean ambIn ambOut)

/-- `Lorentz.__init__` arguments, lorentz.py L12-32. -/
structure Spec where
  cop : ℝ
  flow : ℝ
  ret : ℝ
  ambIn : ℝ
  ambOut : ℝ
  elecCapacity : ℝ

/-- `_set_efficiency`, lorentz.py L68-91. -/
def efficiency (s : Spec) : ℝ := s.cop / copLorentz s.flow s.ret s.ambIn s.ambOut

/-- `cop`, lorentz.py L93-116. -/
def cop (s : Spec) (flow ret ambIn ambOut : ℝ) : ℝ :=
  efficiency s * copLorentz flow ret ambIn ambOut

/-- `duty`, lorentz.py L118-129. -/
def duty (s : Spec) (capacity : ℝ) : ℝ := min (s.cop * s.elecCapacity) capacity

end Lorentz
end
end Verif
