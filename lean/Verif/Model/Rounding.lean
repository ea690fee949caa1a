import Verif.Base
import Mathlib.Algebra.Order.Field.Power

/-!
# Arithmetic with rounding

Python's floats are the binary64 numbers of IEEE 754: every `+`, `-`, `*`, `/` returns the exact result rounded to
the nearest such number, ties to the even one; comparisons, `min`, `max` and the change of sign are exact.
`Rounding` is any way to round, `double` is that of binary64. Overflow, infinities and NaN are not modelled.
-/

set_option autoImplicit false

namespace Verif

/-- A way to round exact numbers to representable ones. -/
structure Rounding where
  rnd : ℚ → ℚ

namespace Rounding

/-- Exact arithmetic. -/
def exact : Rounding := ⟨fun x => x⟩

variable (R : Rounding)

/-- `x + y` -/
def add (x y : ℚ) : ℚ := R.rnd (x + y)

/-- `x - y` -/
def sub (x y : ℚ) : ℚ := R.rnd (x - y)

/-- `x * y` -/
def mul (x y : ℚ) : ℚ := R.rnd (x * y)

/-- `x / y`, for `y` not zero -/
def div (x y : ℚ) : ℚ := R.rnd (x / y)

/-- `round(x, n)`: the decimal closest to `x`, as a float. -/
def round (x : ℚ) (n : ℕ) : ℚ := R.rnd (pyRound x n)

/-- The exponent `e` with `2 ^ e ≤ |x| < 2 ^ (e + 1)`, for `x` not zero. -/
def exponent (x : ℚ) : ℤ :=
  let e : ℤ := (Nat.log2 x.num.natAbs : ℤ) - (Nat.log2 x.den : ℤ)
  if (2 : ℚ) ^ e ≤ |x| then e else e - 1

/-- The exponent of the last binary digit of the binary64 numbers around `x`: 53 digits, and none beyond
`2 ^ (-1074)`. -/
def lastDigit (x : ℚ) : ℤ := max (exponent x - 52) (-1074)

/-- Rounding to binary64. -/
def double : Rounding :=
  ⟨fun x => if x = 0 then 0 else roundHalfEven (x / 2 ^ lastDigit x) * 2 ^ lastDigit x⟩

end Rounding
end Verif
