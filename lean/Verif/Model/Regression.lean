import Verif.Model.Enums

/-!
# Regression models (`/repo/pylesa/heat/models/generic_regression.py`,
`standard_regression.py`)
-/

set_option autoImplicit false

namespace Verif

namespace Generic

/-- Defrosting factor, generic_regression.py L44-46. -/
def factor (ambient : ℚ) : ℚ := if ambient ≤ 5 then 9 / 10 else 1

/-- `GenericRegression.cop` for one hour, generic_regression.py L31-60. -/
def cop (pump : HPType) (flow ambient : ℚ) : ℚ :=
  match pump with
  | .ashp => (681 / 100 - 121 / 1000 * (flow - ambient)
      + 63 / 100000 * (flow - ambient) ^ 2) * factor ambient
  | _ => (877 / 100 - 15 / 100 * (flow - ambient)
      + 734 / 1000000 * (flow - ambient) ^ 2) * factor ambient

/-- `GenericRegression.duty` for one hour, generic_regression.py L62-75. -/
def duty (pump : HPType) (ambient : ℚ) : ℚ :=
  match pump with
  | .ashp => 580 / 100 + 21 / 100 * ambient
  | _ => 937 / 100 + 30 / 100 * ambient

end Generic

namespace Standard

/-- Shape checks of `_train`, standard_regression.py L61-83, on the array shapes; a one-dimensional
cop or duty array counts as one column (L72-73, L77-78). The last check is scikit-learn's, which
rejects empty data and more than two dimensions with `ValueError`. -/
def trainCheck (x cop duty : List ℕ) : Except PyErr Unit :=
  match x with
  | [rows, cols] =>
    if cols ≠ 2 then .error .indexError
    else
      match cop, duty with
      | c :: cs, d :: ds =>
        if rows ≠ c ∨ rows ≠ d then .error .indexError
        else if rows = 0 ∨ cs.length > 1 ∨ ds.length > 1 ∨ 0 ∈ cs ∨ 0 ∈ ds then .error .valueError
        else .ok ()
      | _, _ => .error .indexError
  | _ => .error .indexError

/-- `PolynomialFeatures(degree=2, include_bias=False)` of two columns, as used on the
temperatures (standard_regression.py L59, L85, L98-100). -/
def features (ambient flow : ℚ) : List ℚ :=
  [ambient, flow, ambient ^ 2, ambient * flow, flow ^ 2]

/-- `PolynomialFeatures(degree=2, include_bias=False)` of one column, as used on the cop and duty
data (L86-87). -/
def target (y : ℚ) : List ℚ := [y, y ^ 2]

/-- A fitted `LinearRegression`: one row of coefficients and one intercept per output column. -/
structure Linear where
  rows : List (List ℚ × ℚ)

/-- Prediction of one output column: intercept plus coefficients times features. -/
def predictRow (c : List ℚ × ℚ) (x : List ℚ) : ℚ :=
  (List.zipWith (· * ·) c.1 x).sum + c.2

/-- `LinearRegression.predict` for one sample. -/
def Linear.predict (m : Linear) (x : List ℚ) : List ℚ := m.rows.map (predictRow · x)

/-- One measured point. -/
structure Point where
  ambient : ℚ
  flow : ℚ
  cop : ℚ
  duty : ℚ

/-- `cop` for one hour, L102-115: column 0 of the prediction (L115 `pred_cop[:, 0]`). -/
def cop (copModel : Linear) (ambient flow : ℚ) : ℚ :=
  (copModel.predict (features ambient flow)).headD 0

/-- `duty` for one hour, L117-130. -/
def duty (dutyModel : Linear) (ambient flow : ℚ) : ℚ :=
  (dutyModel.predict (features ambient flow)).headD 0

/-- The samples given to the two `LinearRegression.fit` calls (L85-93): features and targets. -/
def copSamples (ps : List Point) : List (List ℚ × List ℚ) :=
  ps.map (fun p => (features p.ambient p.flow, target p.cop))

/-- See `copSamples`. -/
def dutySamples (ps : List Point) : List (List ℚ × List ℚ) :=
  ps.map (fun p => (features p.ambient p.flow, target p.duty))

end Standard
end Verif
