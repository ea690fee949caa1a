import Verif.Model.Mpc
import Mathlib.Algebra.BigOperators.Group.Finset.Basic
import Mathlib.Order.Interval.Finset.Nat

/-!
# The planning problem of the predictive controller (`/repo/pylesa/controllers/mpc.py`, L119-341)

`Model/Mpc.lean` takes the optimiser as a parameter and reads the second point of its plan. Here is the whole problem
posed to it: a plan has one `Point` for every hour of the horizon, counted from the hour being planned. The values of
the first point are given (`value=prev_result[…]`) and fixed in GEKKO's dynamic modes; equations and inequalities hold
at the later ones (`Posted`), and the objective is added up over them.

How GEKKO turns a differential equation into equations between the points is a parameter, `Dynamics`. The solver's
options (L322-341: tolerances, branching, `minlp_as_nlp 1`, which drops the demand that `HP_status` be whole) are not
modelled.
-/

set_option autoImplicit false

namespace Verif.Mpc
variable {N : Type}

/-- One value of every variable for each hour of the horizon. -/
abbrev Plan := ℕ → Point

/-- `Dynamics n x v`: the values `x 0 … x (n - 1)` of a variable go with the rates `v 0 … v (n - 1)`. -/
abbrev Dynamics := ℕ → (ℕ → ℚ) → (ℕ → ℚ) → Prop

/-- Right-hand side of the equation of the battery, L270 and L288, with `loss_ES` of L237. -/
def batteryRate (S : MpcIn N) (p : Point) : ℚ :=
  p.esc * S.es.chargeEff - p.esd - S.es.selfDischarge * p.socEs

/-- Right-hand side of the equation of the tank, L275 and L293, with `loss` of L218. -/
def tankRate (p : Point) : ℚ := p.tsc - p.tsd - 1 / 100 * p.soc

/-- `aux_cost`, L258-262. -/
def auxCost (S : MpcIn N) (t : ℕ) : ℚ := if S.aux.electric then S.importCost t else S.aux.cost

/-- The objective, L316-320, in hour `t`. -/
def objective (S : MpcIn N) (t : ℕ) (p : Point) : ℚ :=
  S.importCost t / 1000 * ((p.hpt - p.hptrd - p.hptesd - p.hptrs) / (S.perf t).cop + p.impEd + p.escImp)
    + (p.aux - p.auxRs - p.auxRd - p.esdAux) * auxCost S t / 1000
    - p.exp * S.exportPrice / 1000 + 1 / 100000 * p.escRes

/-- The objective of a plan of `n` points made in `hour`: the sum over the points after the first. -/
def planCost (S : MpcIn N) (hour n : ℕ) (plan : Plan) : ℚ :=
  ∑ k ∈ Finset.Ico 1 n, objective S (hour + k) (plan k)

/-- What the first point is given, L155-256, as far as it matters later: the battery's charge and the tank's, and
`max_capacity` over the horizon (L204). -/
structure Start where
  socEs : ℚ
  soc : ℚ
  maxCap : ℕ → ℚ

/-- A plan of `n` points that satisfies everything posted, L265-311. -/
structure Feasible (S : MpcIn N) (D : Dynamics) (hour n : ℕ) (s : Start) (plan : Plan) : Prop where
  socEs : (plan 0).socEs = s.socEs
  soc : (plan 0).soc = s.soc
  posted : ∀ k, 1 ≤ k → k < n → Posted S (hour + k) (s.maxCap k) (plan k)
  battery : D n (fun k => (plan k).socEs) (fun k => batteryRate S (plan k))
  tank : D n (fun k => (plan k).soc) (fun k => tankRate (plan k))

/-- A feasible plan of least objective. -/
structure Cheapest (S : MpcIn N) (D : Dynamics) (hour n : ℕ) (s : Start) (plan : Plan) : Prop where
  feasible : Feasible S D hour n s plan
  least : ∀ q, Feasible S D hour n s q → planCost S hour n plan ≤ planCost S hour n q

/-- The implicit Euler rule with steps of one hour, an example of `Dynamics`. -/
def euler : Dynamics := fun n x v => ∀ k, k + 1 < n → x (k + 1) = x k + v (k + 1)

end Verif.Mpc
