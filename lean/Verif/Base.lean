import Mathlib.Data.Rat.Floor
import Mathlib.Algebra.Order.Field.Basic
import Mathlib.Tactic.Linarith
import Mathlib.Tactic.Ring
import Mathlib.Tactic.FieldSimp
import Mathlib.Tactic.Positivity
import Mathlib.Tactic.NormNum

/-!
# Shared vocabulary of the model

Python exceptions as values, Python's `round`, Python's `range`.
-/

set_option autoImplicit false

namespace Verif

/-- The Python exception classes raised (explicitly or implicitly) by the modelled code.
Messages are not modelled. -/
inductive PyErr where
  | valueError
  | keyError
  | indexError
  | typeError
  | attributeError
  | unboundLocalError
  | zeroDivisionError
  | systemError
  | systemExit
  | fileNotFoundError
  | fileExistsError
  | other
  deriving DecidableEq, Repr

/-- Python's integer rounding of an exact number: nearest integer, ties to even.
(`round(x)` for a `float`; here on exact rationals.) -/
def roundHalfEven (q : ℚ) : ℤ :=
  let f := ⌊q⌋
  let r := q - f
  if r < 1 / 2 then f
  else if 1 / 2 < r then f + 1
  else if f % 2 = 0 then f else f + 1

/-- Python's `round(x, n)` for `n ≥ 0` decimals, on exact rationals. -/
def pyRound (q : ℚ) (n : ℕ) : ℚ :=
  (roundHalfEven (q * 10 ^ n) : ℚ) / 10 ^ n

/-- Python's `round(x, -1)`: to the nearest ten, ties to the even multiple. -/
def pyRoundTens (q : ℚ) : ℤ :=
  10 * roundHalfEven (q / 10)

/-- Evaluate a concrete computation and check a decidable fact about its value; used for the
examples and counterexamples. -/
def checks {α : Type} (x : Except PyErr α) (p : α → Bool) : Bool :=
  match x with
  | .ok r => p r
  | .error _ => false

theorem exists_of_checks {α : Type} {x : Except PyErr α} {p : α → Prop} [DecidablePred p]
    (h : checks x (fun r => decide (p r)) = true) : ∃ r, x = .ok r ∧ p r := by
  cases x with
  | ok r => exact ⟨r, rfl, of_decide_eq_true h⟩
  | error e => cases h

end Verif
