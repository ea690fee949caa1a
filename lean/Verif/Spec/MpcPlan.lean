import Verif.Model.MpcPlan

/-!
# Specification vocabulary for plans
-/

set_option autoImplicit false

namespace Verif.Spec
open Mpc
variable {N : Type}

/-- What a plan buys from the grid in an hour: for the demand, the battery, the heat pump and an electric heater. -/
def bought (S : MpcIn N) (t : ℕ) (p : Point) : ℚ :=
  p.impEd + p.escImp + (p.hptid + p.hptis) / (S.perf t).cop + (if S.aux.electric then p.auxD + p.auxS else 0)

/-- What it burns, in kWh of heat. -/
def burnt (S : MpcIn N) (p : Point) : ℚ := if S.aux.electric then 0 else p.auxD + p.auxS

/-- Money spent in an hour, less money earned, with prices per MWh. -/
def spent (S : MpcIn N) (t : ℕ) (p : Point) : ℚ :=
  (bought S t p * S.importCost t + burnt S p * S.aux.cost - p.exp * S.exportPrice) / 1000

/-- Money a plan of `n` points spends after its first point. -/
def planSpent (S : MpcIn N) (hour n : ℕ) (plan : Plan) : ℚ := ∑ k ∈ Finset.Ico 1 n, spent S (hour + k) (plan k)

/-- Data as a workbook means them, over the horizon. -/
structure Plannable (S : MpcIn N) (hour n : ℕ) : Prop where
  es : 0 ≤ S.es.capacity ∧ 0 ≤ S.es.chargeMax ∧ 0 ≤ S.es.dischargeMax ∧ 0 ≤ S.es.chargeEff ∧
    0 ≤ S.es.dischargeEff ∧ 0 ≤ S.es.selfDischarge
  generation : ∀ k, 1 ≤ k → k < n → 0 ≤ S.generation (hour + k)
  elecDemand : ∀ k, 1 ≤ k → k < n → 0 ≤ S.elecDemand (hour + k)
  heatDemand : ∀ k, 1 ≤ k → k < n → 0 ≤ S.heatDemand (hour + k) ∧ S.heatDemand (hour + k) ≤ S.peakHeatDemand
  perf : ∀ k, 1 ≤ k → k < n → 0 < (S.perf (hour + k)).cop ∧ 0 ≤ (S.perf (hour + k)).duty ∧
    hpMin S (hour + k) ≤ (S.perf (hour + k)).duty

/-- A store left alone that loses a share `r` of its charge an hour never gains: one such course goes with the
discretised equation. -/
def Settles (D : Dynamics) : Prop :=
  ∀ n (x0 r : ℚ), 0 ≤ x0 → 0 ≤ r → ∃ x : ℕ → ℚ, x 0 = x0 ∧ (∀ k, 0 ≤ x k ∧ x k ≤ x0) ∧ D n x fun k => -(r * x k)

/-- The optimiser answers with the second point of a cheapest plan for what it is given. -/
def Optimises (S : MpcIn N) (D : Dynamics) (g : ℕ → ℕ → Except PyErr Point) : Prop :=
  ∀ hour a p, g hour a = .ok p → ∃ n s plan, 2 ≤ n ∧ Cheapest S D hour n s plan ∧ p = plan 1

/-- A store that stays empty goes with the discretised equation only if nothing flows. -/
def Rests (D : Dynamics) : Prop :=
  ∀ n (x v : ℕ → ℚ), (∀ k, k < n → x k = 0) → D n x v → ∀ k, 1 ≤ k → k < n → v k = 0

/-- The optimiser answers with the second point of a cheapest plan, for a battery charged within its capacity and the
capacities `caps` of the tank, the first of them that of hour `first`. -/
def OptimisesFor (S : MpcIn N) (D : Dynamics) (first : ℕ) (caps : List ℚ) (g : ℕ → ℕ → Except PyErr Point) : Prop :=
  ∀ hour a p, first ≤ hour → g hour a = .ok p → ∃ n s plan, 2 ≤ n ∧ Cheapest S D hour n s plan ∧ p = plan 1 ∧
    0 ≤ s.socEs ∧ s.socEs ≤ S.es.capacity ∧ ∀ k, k < n → caps[hour - first + k]? = some (s.maxCap k)

/-- The discretised equation is a finite list of linear equations between the values and the rates. -/
def LinearRule (D : Dynamics) : Prop :=
  ∀ n, ∃ eqs : List ((ℕ → ℚ) × (ℕ → ℚ)), ∀ x v : ℕ → ℚ,
    D n x v ↔ ∀ e ∈ eqs, ∑ k ∈ Finset.range n, (e.1 k * x k + e.2 k * v k) = 0

/-- The second system is the first with stores, heat pump and heater of at least the same size, at least as much
generation, import at most as dear and export paid at least as well. -/
structure Better {M : Type} (S : MpcIn N) (S' : MpcIn M) (hour n : ℕ) : Prop where
  electric : S.aux.electric = true
  electric' : S'.aux.electric = true
  capacity : S.es.capacity ≤ S'.es.capacity
  chargeMax : S.es.chargeMax ≤ S'.es.chargeMax
  dischargeMax : S.es.dischargeMax ≤ S'.es.dischargeMax
  chargeEff : S'.es.chargeEff = S.es.chargeEff
  dischargeEff : S'.es.dischargeEff = S.es.dischargeEff
  selfDischarge : S'.es.selfDischarge = S.es.selfDischarge
  peak : S.peakHeatDemand ≤ S'.peakHeatDemand
  exportPrice : S.exportPrice ≤ S'.exportPrice
  heatDemand : ∀ k, 1 ≤ k → k < n → S'.heatDemand (hour + k) = S.heatDemand (hour + k)
  elecDemand : ∀ k, 1 ≤ k → k < n → S'.elecDemand (hour + k) = S.elecDemand (hour + k)
  generation : ∀ k, 1 ≤ k → k < n → S.generation (hour + k) ≤ S'.generation (hour + k)
  importCost : ∀ k, 1 ≤ k → k < n → S'.importCost (hour + k) ≤ S.importCost (hour + k)
  cop : ∀ k, 1 ≤ k → k < n → (S'.perf (hour + k)).cop = (S.perf (hour + k)).cop
  duty : ∀ k, 1 ≤ k → k < n → (S.perf (hour + k)).duty ≤ (S'.perf (hour + k)).duty

/-- The same charge at the start, and at least as much room in the tank. -/
structure Roomier (s s' : Start) (n : ℕ) : Prop where
  socEs : s'.socEs = s.socEs
  soc : s'.soc = s.soc
  maxCap : ∀ k, 1 ≤ k → k < n → s.maxCap k ≤ s'.maxCap k

end Verif.Spec
