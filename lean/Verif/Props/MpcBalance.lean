import Verif.Props.Mpc
import Verif.Lemmas.FixedOrder
import Verif.Spec.Tank

/-!
# What the predictive controller reports (C49, C76)

Throughout, `rs` are the results of a run, `g` is an optimiser that respects the posted equations
(`Spec.Obeys`), and `i` is a result after the first that is not the last hour of the year (the first and
that one do not come from the optimiser, see C47).
-/

set_option autoImplicit false

namespace Verif
open Mpc
variable {N : Type}

/-- Result `i` of the run is `r`, and it comes from the optimiser. -/
def Spec.FromOptimiser (S : MpcIn N) (g : ℕ → ℕ → Except PyErr Point) (first n i : ℕ) (r : MpcResults N) : Prop :=
  ∃ rs, movingHorizon S g first n = .ok rs ∧ rs[i]? = some r ∧ 2 ≤ n ∧ 1 ≤ i ∧ first + i ≠ 8759

theorem fromOptimiser {S : MpcIn N} {g : ℕ → ℕ → Except PyErr Point} {first n i : ℕ} {r : MpcResults N}
    (ho : Spec.Obeys S g) (h : Spec.FromOptimiser S g first n i r) :
    ∃ cap p prev f nodes, Posted S (first + i) cap p ∧
      tankFlows (S.tank.maxInOut 1 1 .charging prev) (S.tank.maxInOut 1 1 .discharging prev) p = .ok f ∧
      r = report S (first + i) p f nodes := by
  obtain ⟨rs, hr, hi, hn, h1, h8⟩ := h
  obtain ⟨_, _, _, _, hs⟩ := run_shape hn hr
  obtain ⟨hour, a, p, prev, f, nodes, ht, hg, hf, _, rfl⟩ := (hs i r h1 hi).1 (Or.inl h8)
  obtain ⟨cap, hp⟩ := ho hour a p hg
  exact ⟨cap, p, prev, f, nodes, by rw [ht]; exact hp, hf, rfl⟩

namespace Mpc.Samples

theorem answer_posted (hour a : ℕ) (p : Point) (hp : answer hour a = .ok p) : Posted plain (hour + 1) 0 p := by
  have hh : (0 : ℚ) ≤ hour := Nat.cast_nonneg hour
  have hle : min ((hour : ℚ) + 1 + 6) 9 ≤ 9 := min_le_right _ _
  have hle' : min ((hour : ℚ) + 1 + 6) 9 ≤ (hour : ℚ) + 1 + 6 := min_le_left _ _
  have hge : 0 ≤ min ((hour : ℚ) + 1 + 6) 9 := le_min (by linarith) (by norm_num)
  unfold answer at hp
  dsimp only at hp
  split_ifs at hp with hbig
  have hcast : (hour : ℚ) ≤ 8759 := by exact_mod_cast (by omega : hour ≤ 8759)
  have hge7 : 7 ≤ min ((hour : ℚ) + 1 + 6) 9 := le_min (by linarith) (by norm_num)
  injection hp with hp
  subst hp
  refine ⟨?_, ?_, ?_, ?_⟩
  · constructor <;> dsimp only [zero] <;> linarith
  · intro _
    constructor <;> dsimp only [zero, plain] <;> push_cast <;> ring
  · intro h
    cases h
  · constructor <;> dsimp only [zero, plain, hpMin] <;> linarith

theorem answer_obeys : Spec.Obeys plain answer := fun hour a p hp => ⟨0, answer_posted hour a p hp⟩

/-- Constant series, a tank of unlimited capacity that offers 0 kWh. -/
def steady (electric : Bool) (capacity : ℚ) : MpcIn Unit where
  hp := ⟨10, 60, 50⟩
  es := ⟨10, 1/2, 5, 5, 9/10, 9/10, 0⟩
  aux := ⟨electric, 1, 40, 0⟩
  tank := ⟨capacity, (), fun _ _ _ _ => .ok 0, fun _ _ _ _ _ _ => .ok ()⟩
  exportPrice := 10
  horizon := 24
  generation _ := 6
  wind _ := 6
  pv _ := 0
  elecDemand _ := 3
  heatDemand _ := 9
  importCost _ := 100
  perf _ := ⟨3, 9⟩
  peakHeatDemand := 9

/-- The heater, fed by 2 kWh of the battery (at 90 %), and the heat pump, fed by the grid. -/
def batteryHeat : Point :=
  { zero with resEd := 3, exp := 3, hptid := 36/5, hpStatus := 1, hptVar := 36/5, esd := 2, esdAux := 2, socEs := 5, aux := 2 }

/-- The heat pump fills the tank with 9 kWh from 3 kWh of wind while the heater meets the demand. -/
def crossed : Point :=
  { zero with resEd := 3, hptrs := 9, hpStatus := 1, hptVar := 9, tsc := 9, auxD := 9, aux := 9 }

/-- The plan is to draw the whole demand from the tank. -/
def drawn : Point :=
  { zero with resEd := 3, exp := 3, hptVar := 5, tsd := 9, soc := 9 }

/-- Heat from the battery by way of the heat pump, from nowhere. -/
def phantom : Point :=
  { zero with resEd := 3, exp := 3, hptesd := 9, hptVar := 5, auxD := 9, aux := 9 }

/-- The heat pump switched on by one tenth. -/
def tenth : Point :=
  { zero with resEd := 3, exp := 3, hptid := 9/10, hpStatus := 1/10, hptVar := 9, auxD := 81/10, aux := 81/10 }

/-- The tank filled by the heater and emptied in the same hour. -/
def bothWays : Point :=
  { zero with resEd := 3, exp := 3, hptVar := 9, tsc := 9, tsd := 9, soc := 9, auxS := 9, aux := 9 }

/-- Check the posted equations of the concrete answers. -/
local macro "posted" : tactic =>
  `(tactic| (constructor <;> norm_num [batteryHeat, crossed, drawn, phantom, tenth, bothWays, zero, steady, hpMin]))

theorem batteryHeat_obeys : Spec.Obeys (steady true 0) (fun _ _ => .ok batteryHeat) := by
  intro hour a p hp
  injection hp with hp
  subst hp
  exact ⟨0, by posted, fun _ => by posted, fun h => (by cases h), by posted⟩

theorem crossed_obeys : Spec.Obeys (steady true 1) (fun _ _ => .ok crossed) := by
  intro hour a p hp
  injection hp with hp
  subst hp
  exact ⟨100, by posted, fun _ => by posted, fun h => (by cases h), by posted⟩

theorem drawn_obeys : Spec.Obeys (steady true 1) (fun _ _ => .ok drawn) := by
  intro hour a p hp
  injection hp with hp
  subst hp
  exact ⟨100, by posted, fun _ => by posted, fun h => (by cases h), by posted⟩

theorem phantom_obeys : Spec.Obeys (steady false 0) (fun _ _ => .ok phantom) := by
  intro hour a p hp
  injection hp with hp
  subst hp
  exact ⟨0, by posted, fun h => (by cases h), fun _ => by posted, by posted⟩

theorem tenth_obeys : Spec.Obeys (steady true 0) (fun _ _ => .ok tenth) := by
  intro hour a p hp
  injection hp with hp
  subst hp
  exact ⟨0, by posted, fun _ => by posted, fun h => (by cases h), by posted⟩

theorem bothWays_obeys : Spec.Obeys (steady true 1) (fun _ _ => .ok bothWays) := by
  intro hour a p hp
  injection hp with hp
  subst hp
  exact ⟨100, by posted, fun _ => by posted, fun h => (by cases h), by posted⟩

end Mpc.Samples

/-- From the results of a concrete run of two hours to its second result. -/
theorem second {S : MpcIn N} {g : ℕ → ℕ → Except PyErr Point} {P : MpcResults N → Prop} [DecidablePred P]
    (h : checks (movingHorizon S g 0 2) (fun rs => decide (∃ r ∈ rs[1]?, P r)) = true) :
    ∃ r, Spec.FromOptimiser S g 0 2 1 r ∧ P r := by
  obtain ⟨rs, h1, r, h2, h3⟩ := exists_of_checks h
  exact ⟨r, ⟨rs, h1, h2, le_refl _, le_refl _, by norm_num⟩, h3⟩

/-- C49: the electricity demand is what the renewables, the battery and the grid are reported to
give it. -/
theorem C49_electricity {S : MpcIn N} {g : ℕ → ℕ → Except PyErr Point} {first n i : ℕ} {r : MpcResults N}
    (ho : Spec.Obeys S g) (h : Spec.FromOptimiser S g first n i r) :
    r.elecDemand.res + r.elecDemand.es + r.elecDemand.imp = S.elecDemand (first + i) ∧
      r.elecDemand.elecDemand = S.elecDemand (first + i) := by
  obtain ⟨cap, p, prev, f, nodes, hp, _, rfl⟩ := fromOptimiser ho h
  refine ⟨?_, rfl⟩
  dsimp only [report]
  cases he : S.aux.electric with
  | true => have := (hp.electric he).ed; linarith
  | false => have := (hp.fuel he).ed; linarith

/-- C49: the renewable generation is what is reported to go to the demand, the heat pump, the heater, the
battery and the grid. -/
theorem C49_renewables {S : MpcIn N} {g : ℕ → ℕ → Except PyErr Point} {first n i : ℕ} {r : MpcResults N}
    (ho : Spec.Obeys S g) (h : Spec.FromOptimiser S g first n i r) :
    r.res.elecDemand + r.res.hp + r.res.aux + r.es.chargingFromRes + r.res.exp = S.generation (first + i) ∧
      r.res.generationTotal = S.generation (first + i) := by
  obtain ⟨cap, p, prev, f, nodes, hp, _, rfl⟩ := fromOptimiser ho h
  refine ⟨?_, rfl⟩
  dsimp only [report, resReport]
  cases he : S.aux.electric with
  | true => have := (hp.electric he).res; rw [add_comm p.hptrd]; simp only [if_true]; linarith
  | false => have := (hp.fuel he).res; rw [add_comm p.hptrd]; simp only [Bool.false_eq_true, if_false]; linarith

/-- C49: all the electricity, in and out. Generation, import and what the battery gives equal the demand,
what the heat pump and an electric heater use, what charges the battery and the export. Missing: an
electric heater fed by the battery (`C49_battery_heat_billed`). -/
theorem C49_all_electricity_partial {S : MpcIn N} {g : ℕ → ℕ → Except PyErr Point} {first n i : ℕ}
    {r : MpcResults N} (ho : Spec.Obeys S g) (h : Spec.FromOptimiser S g first n i r)
    (hb : r.dischargingToAux = 0 ∨ S.aux.electric = false) :
    r.res.generationTotal + r.grid.totalImport + r.es.dischargingToDemand + r.hp.elecFromEsToDemand =
      r.elecDemand.elecDemand + r.hp.elecTotalUsage + (if S.aux.electric then r.aux.demand else 0) +
        r.es.chargingTotal + r.grid.totalExport := by
  obtain ⟨cap, p, prev, f, nodes, hp, _, rfl⟩ := fromOptimiser ho h
  dsimp only [report, resReport, gridReport, hpReport, auxReport] at hb ⊢
  cases he : S.aux.electric with
  | true =>
    have h1 := (hp.electric he).res
    have h2 := (hp.electric he).ed
    rw [add_comm p.hptrs] at h1
    simp only [if_true]
    linarith
  | false =>
    have h1 := (hp.fuel he).res
    have h2 := (hp.fuel he).ed
    rw [add_comm p.hptrs] at h1
    simp only [Bool.false_eq_true, if_false]
    linarith

/-- C49: with an electric heater no reported electricity flow of the heat pump or the grid is
negative. -/
theorem C49_no_negative_import_partial {S : MpcIn N} {g : ℕ → ℕ → Except PyErr Point} {first n i : ℕ}
    {r : MpcResults N} (ho : Spec.Obeys S g) (h : Spec.FromOptimiser S g first n i r)
    (he : S.aux.electric = true) (hc : 0 < (S.perf (first + i)).cop) :
    0 ≤ r.hp.elecImportUsage ∧ 0 ≤ r.grid.totalImport ∧ 0 ≤ r.grid.totalExport ∧
      r.hp.elecTotalUsage = r.hp.elecResUsage + r.hp.elecFromEsToDemand + r.hp.elecImportUsage := by
  obtain ⟨cap, p, prev, f, nodes, hp, _, rfl⟩ := fromOptimiser ho h
  have hb := hp.bounds
  have hE := hp.electric he
  have himp : 0 ≤ p.hpt / (S.perf (first + i)).cop - (p.hptrd + p.hptrs) / (S.perf (first + i)).cop - p.hptesd / (S.perf (first + i)).cop := by
    have : p.hpt - (p.hptrd + p.hptrs) - p.hptesd = p.hptid + p.hptis := by
      unfold Point.hpt
      have := hE.hpt
      linarith
    rw [← sub_div, ← sub_div, this]
    exact div_nonneg (add_nonneg hb.hptid hb.hptis) hc.le
  dsimp only [report, resReport, gridReport, hpReport, auxReport]
  refine ⟨himp, ?_, hb.exp, by ring⟩
  have h1 := hE.aux
  have := hb.auxD
  have := hb.auxS
  have := hb.esdAux
  have := hb.impEd
  have := hb.escImp
  rw [if_pos he, if_pos he]
  linarith

/-- C49: the heat pump never gives more than its duty. -/
theorem C49_within_duty {S : MpcIn N} {g : ℕ → ℕ → Except PyErr Point} {first n i : ℕ} {r : MpcResults N}
    (ho : Spec.Obeys S g) (h : Spec.FromOptimiser S g first n i r) :
    0 ≤ r.hp.heatTotalOutput ∧ r.hp.heatTotalOutput ≤ (S.perf (first + i)).duty := by
  obtain ⟨cap, p, prev, f, nodes, hp, _, rfl⟩ := fromOptimiser ho h
  have hb := hp.bounds
  dsimp only [report, hpReport, Point.hpt]
  refine ⟨mul_nonneg hb.hpStatus hb.hptVar, ?_⟩
  have := mul_le_mul_of_nonneg_right hb.hpStatus_le hb.hptVar
  have := hp.ineqs.duty
  linarith

/-- C49: the battery stays between empty and full, and is charged and discharged within its limits. -/
theorem C49_battery {S : MpcIn N} {g : ℕ → ℕ → Except PyErr Point} {first n i : ℕ} {r : MpcResults N}
    (ho : Spec.Obeys S g) (h : Spec.FromOptimiser S g first n i r)
    (he : S.aux.electric = true) (h1 : S.es.dischargeEff ≤ 1) :
    0 ≤ r.es.finalSoc ∧ r.es.finalSoc ≤ S.es.capacity ∧
      r.es.chargingTotal ≤ S.es.chargeMax * S.es.chargeEff ∧ r.es.dischargingTotal ≤ S.es.dischargeMax ∧
      r.es.dischargingTotal ≤ r.es.finalSoc := by
  obtain ⟨cap, p, prev, f, nodes, hp, _, rfl⟩ := fromOptimiser ho h
  have hb := hp.bounds
  have hI := hp.ineqs
  have hE := hp.electric he
  have h2 : p.esdEd * S.es.dischargeEff ≤ p.esdEd := by
    have := mul_le_mul_of_nonneg_left h1 hb.esdEd
    linarith
  dsimp only [report]
  have h3 := hE.esc
  have h4 := hE.esd
  have h5 := hI.esc
  have h6 := hI.esd
  have h7 := hI.esd_soc
  exact ⟨hb.socEs, hI.socEs, by linarith, by linarith, by linarith⟩

/-- C49: without a tank (no capacity for stored heat) the heat demand is what the heat pump and the
heater are reported to give it. Missing: a tank (`C49_heat_too_much`, `C49_heat_too_little`) and a heater
fed by a lossy battery. -/
theorem C49_heat_partial {S : MpcIn N} {g : ℕ → ℕ → Except PyErr Point} {first n i : ℕ} {r : MpcResults N}
    (ho : ∀ hour a p, g hour a = .ok p → Posted S (hour + 1) 0 p)
    (h : Spec.FromOptimiser S g first n i r) (hb : r.dischargingToAux = 0 ∨ S.aux.electric = false) :
    r.heatDemand.hp + r.heatDemand.aux + r.heatDemand.ts = S.heatDemand (first + i) ∧
      r.heatDemand.heatDemand = S.heatDemand (first + i) ∧ r.ts.chargingTotal = 0 ∧ r.ts.dischargingTotal = 0 := by
  obtain ⟨rs, hr, hi, hn, h1, h8⟩ := h
  obtain ⟨_, _, _, _, hs⟩ := run_shape hn hr
  obtain ⟨hour, a, p, prev, f, nodes, ht, hg, hf, _, rfl⟩ := (hs i r h1 hi).1 (Or.inl h8)
  have hp := ho hour a p hg
  rw [← ht] at hp
  have hB := hp.bounds
  have hI := hp.ineqs
  have hsoc : p.soc = 0 := le_antisymm hI.soc hB.soc
  have htsc : p.tsc = 0 := le_antisymm (by have := hI.tsc; rw [hsoc] at this; linarith) hB.tsc
  have htsd : p.tsd = 0 := le_antisymm (by have := hI.tsd; rwa [hsoc] at this) hB.tsd
  have hfl : f = (0, 0, .standby) := by
    unfold tankFlows at hf
    rw [htsc, htsd] at hf
    dsimp only at hf
    rw [if_neg (lt_irrefl _), if_neg (lt_irrefl _)] at hf
    injection hf with hf
    exact hf.symm
  subst hfl
  dsimp only [report, hpReport, Point.hpt] at hb ⊢
  refine ⟨?_, rfl, rfl, rfl⟩
  cases he : S.aux.electric with
  | true =>
    have hE := hp.electric he
    have ha : p.esdAux = 0 := hb.resolve_right (by simp [he])
    have e1 := hE.tsc
    have e2 := hE.hd
    have e3 := hE.hpt
    have e4 := hE.aux
    rw [ha] at e2 e4
    have := hB.hptrs; have := hB.hptis; have := hB.auxRs; have := hB.auxS
    have := hB.auxD; have := hB.auxRd
    rw [min_eq_left (by linarith)]
    linarith
  | false =>
    have hE := hp.fuel he
    have e1 := hE.tsc
    have e2 := hE.hd
    have e3 := hE.hpt
    have e4 := hE.aux
    have := hB.hptrs; have := hB.hptis; have := hB.auxS
    have := hB.auxD
    rw [min_eq_left (by linarith)]
    linarith

/-- C49: the bill. The cost of the import is import times price, the income export times the export
price, and the cash flow their difference. -/
theorem C49_bill {S : MpcIn N} {g : ℕ → ℕ → Except PyErr Point} {first n i : ℕ} {r : MpcResults N}
    (h : Spec.FromOptimiser S g first n i r) :
    r.grid.importCosts = r.grid.totalImport * S.importCost (first + i) / 1000 ∧
      r.grid.exportIncome = r.grid.totalExport * S.exportPrice / 1000 ∧
      r.grid.cashflow = r.grid.exportIncome - r.grid.importCosts := by
  obtain ⟨rs, hr, hi, hn, h1, h8⟩ := h
  obtain ⟨_, _, _, _, hs⟩ := run_shape hn hr
  obtain ⟨hour, a, p, prev, f, nodes, ht, hg, hf, _, rfl⟩ := (hs i r h1 hi).1 (Or.inl h8)
  exact ⟨rfl, rfl, rfl⟩

/-- C49: the reported cost of an electric heater is always zero, whatever it uses. -/
theorem C49_electric_heater_free {S : MpcIn N} {g : ℕ → ℕ → Except PyErr Point} {first n i : ℕ}
    {r : MpcResults N} (he : S.aux.electric = true) (h : Spec.FromOptimiser S g first n i r) : r.aux.cost = 0 := by
  obtain ⟨rs, hr, hi, hn, h1, h8⟩ := h
  obtain ⟨_, _, _, _, hs⟩ := run_shape hn hr
  obtain ⟨hour, a, p, prev, f, nodes, ht, hg, hf, _, rfl⟩ := (hs i r h1 hi).1 (Or.inl h8)
  dsimp only [report, auxReport]
  rw [if_pos he]
  norm_num

/-- C49: the bill of a boiler is the price of its fuel times the heat, and the fuel it burns is that heat
by its efficiency. -/
theorem C49_fuel_bill {S : MpcIn N} {g : ℕ → ℕ → Except PyErr Point} {first n i : ℕ}
    {r : MpcResults N} (he : S.aux.electric = false) (h : Spec.FromOptimiser S g first n i r) :
    r.aux.cost = S.aux.cost * r.aux.demand / 1000 ∧ r.aux.usage = r.aux.demand / S.aux.efficiency ∧
      r.aux.mass = S.aux.energyDensity * r.aux.usage := by
  obtain ⟨rs, hr, hi, hn, h1, h8⟩ := h
  obtain ⟨_, _, _, _, hs⟩ := run_shape hn hr
  obtain ⟨hour, a, p, prev, f, nodes, ht, hg, hf, _, rfl⟩ := (hs i r h1 hi).1 (Or.inl h8)
  dsimp only [report, auxReport]
  rw [if_neg (by rw [he]; decide)]
  refine ⟨by dsimp only; ring, rfl, rfl⟩

/-- A run with a boiler. -/
example : ∃ r, Spec.FromOptimiser (Samples.steady false 0) (fun _ _ => .ok { Samples.zero with auxD := 9, aux := 9 }) 0 2 1 r ∧
    r.aux.demand = 9 ∧ r.aux.cost = 9 / 25 := second (by decide +kernel)

/-- The theorems above apply to a real run with demands, prices and generation that change. -/
example : Spec.Obeys Samples.plain Samples.answer ∧ ∃ r, Spec.FromOptimiser Samples.plain Samples.answer 0 2 1 r ∧
    r.elecDemand.res = 3 ∧ r.res.hp = 7 / 3 ∧ r.res.exp = 2 / 3 ∧ r.heatDemand.hp = 7 ∧ r.dischargingToAux = 0 :=
  ⟨Samples.answer_obeys, second (by decide +kernel)⟩

/-- A tank without capacity never offers anything, so `max_capacity` is zero as `C49_heat_partial` asks, and
the theorem applies to the run above. -/
example (tk : Tank) (h : tk.capacity = 0) (t : ℕ) (s : TankState) (net : NetTemps) (nodes : List ℚ)
    (hl : nodes.length = tk.number) : tk.maxEnergy t s net nodes = .ok 0 := by
  unfold Tank.maxEnergy
  rw [if_neg (by simpa using hl)]
  split_ifs <;> rfl

example : ∃ r : MpcResults Unit, r.heatDemand.hp + r.heatDemand.aux + r.heatDemand.ts = Samples.plain.heatDemand (0 + 1) ∧
    r.heatDemand.hp = 7 := by
  obtain ⟨r, h1, h2⟩ := second (S := Samples.plain) (g := Samples.answer)
    (P := fun r => r.heatDemand.hp = 7 ∧ r.dischargingToAux = 0) (by decide +kernel)
  exact ⟨r, (C49_heat_partial Samples.answer_posted h1 (Or.inl h2.2)).1, h2.1⟩

/-- C49 is false of the import when the battery feeds the heater: those 2 kWh are billed as if they came
from the grid. -/
theorem C49_battery_heat_billed : ∃ (S : MpcIn Unit) (g : ℕ → ℕ → Except PyErr Point),
    Spec.Obeys S g ∧ ∃ r, Spec.FromOptimiser S g 0 2 1 r ∧
      r.elecDemand.imp = 0 ∧ r.es.chargingFromImport = 0 ∧ r.aux.demand = 2 ∧ r.dischargingToAux = 2 ∧
      r.grid.totalImport = r.hp.elecImportUsage + 2 :=
  ⟨_, _, Samples.batteryHeat_obeys, second (by decide +kernel)⟩

/-- C49 is false of the heat with a tank: if the heater meets the demand while the heat pump fills the
tank, the reported heat is twice the demand. -/
theorem C49_heat_too_much : ∃ (S : MpcIn Unit) (g : ℕ → ℕ → Except PyErr Point),
    Spec.Obeys S g ∧ ∃ r, Spec.FromOptimiser S g 0 2 1 r ∧
      r.heatDemand.heatDemand = 9 ∧ r.heatDemand.hp + r.heatDemand.aux + r.heatDemand.ts = 18 :=
  ⟨_, _, Samples.crossed_obeys, second (by decide +kernel)⟩

/-- C49 is false of the heat with a tank: if the tank cannot give what was planned, nothing replaces it
and the reported heat falls short of the demand. -/
theorem C49_heat_too_little : ∃ (S : MpcIn Unit) (g : ℕ → ℕ → Except PyErr Point),
    Spec.Obeys S g ∧ ∃ r, Spec.FromOptimiser S g 0 2 1 r ∧
      r.heatDemand.heatDemand = 9 ∧ r.heatDemand.hp + r.heatDemand.aux + r.heatDemand.ts = 0 :=
  ⟨_, _, Samples.drawn_obeys, second (by decide +kernel)⟩

/-- C49 is false of the heat pump's electricity with a boiler: nothing constrains the heat it is said to
get from the battery, so its import can be negative. -/
theorem C49_negative_import : ∃ (S : MpcIn Unit) (g : ℕ → ℕ → Except PyErr Point),
    Spec.Obeys S g ∧ ∃ r, Spec.FromOptimiser S g 0 2 1 r ∧
      r.hp.heatTotalOutput = 0 ∧ r.hp.elecImportUsage = -3 ∧ r.grid.totalImport = -3 :=
  ⟨_, _, Samples.phantom_obeys, second (by decide +kernel)⟩

/-- C49 is false of the heat pump's minimum output: switched on by a tenth, it gives 0.9 kWh where the
minimum is 4.5. -/
theorem C49_below_minimum_output : ∃ (S : MpcIn Unit) (g : ℕ → ℕ → Except PyErr Point),
    Spec.Obeys S g ∧ ∃ r, Spec.FromOptimiser S g 0 2 1 r ∧
      0 < r.hp.heatTotalOutput ∧ r.hp.heatTotalOutput = 9 / 10 ∧ hpMin S 1 = 9 / 2 :=
  ⟨_, _, Samples.tenth_obeys, second (by decide +kernel)⟩

/-- C49 is false of the tank's directions: it can be reported to charge and to discharge in the same
hour, and by more than it offers. -/
theorem C49_tank_both_ways : ∃ (S : MpcIn Unit) (g : ℕ → ℕ → Except PyErr Point),
    Spec.Obeys S g ∧ ∃ r, Spec.FromOptimiser S g 0 2 1 r ∧
      r.ts.chargingTotal = 9 ∧ r.ts.dischargingTotal = 9 ∧
      ∀ i t s, S.tank.maxInOut i t s S.tank.initTemps = .ok 0 := by
  refine ⟨_, _, Samples.bothWays_obeys, ?_⟩
  obtain ⟨r, h1, h2⟩ := second (S := Samples.steady true 1) (g := fun _ _ => .ok Samples.bothWays)
    (P := fun r => r.ts.chargingTotal = 9 ∧ r.ts.dischargingTotal = 9) (by decide +kernel)
  exact ⟨r, h1, h2.1, h2.2, fun _ _ _ => rfl⟩

/-! ## C76: the temperatures of the hour -/

/-- C76 is false: of the temperatures of the heat network only those of the second hour of the year
matter for the results of an hour, wherever in the year it is. Two tanks that behave the same at those
temperatures (and do not fail at the others) give the same results. -/
theorem C76_other_temperatures_ignored {S S' : MpcIn N} (g : ℕ → ℕ → Except PyErr Point)
    (hsame : { S with tank := S'.tank } = S')
    (hcap : S.tank.capacity = S'.tank.capacity)
    (hmax : ∀ t s nodes, S.tank.maxInOut 1 t s nodes = S'.tank.maxInOut 1 t s nodes)
    (hnew : ∀ t s nodes c d, S.tank.newNodes 1 t s nodes c d = S'.tank.newNodes 1 t s nodes c d)
    (hour a final : ℕ) (prev : Carry N)
    (h1 : ∃ v, S.tank.maxInOut hour hour .discharging prev.nodes = .ok v)
    (h2 : ∃ v, S'.tank.maxInOut hour hour .discharging prev.nodes = .ok v) :
    solve S g hour a final prev = solve S' g hour a final prev := by
  obtain ⟨v1, hv1⟩ := h1
  obtain ⟨v2, hv2⟩ := h2
  have hfin : ∀ f, finalNodes S hour prev f = finalNodes S' hour prev f := by
    intro f
    unfold finalNodes
    rw [hcap, hnew, ← hsame]
  have hrep : ∀ p f nodes, report S (hour + 1) p f nodes = report S' (hour + 1) p f nodes := by
    intro p f nodes
    rw [← hsame]
    rfl
  unfold solve
  simp only [hv1, hv2, hmax, hfin, hrep]

/-- C76 is false of a real tank: two networks whose temperatures agree at hour 1 only give the same results in
every hour, however different they are at that hour. -/
theorem C76_network_ignored (tk : Tank) (S : MpcIn (List ℚ)) (cold warm : ℕ → NetTemps) (h : cold 1 = warm 1)
    (ret : ℚ) (g : ℕ → ℕ → Except PyErr Point) (hour a final : ℕ) (prev : Carry (List ℚ))
    (h1 : ∃ v, tk.maxEnergy hour .discharging (cold hour) prev.nodes = .ok v)
    (h2 : ∃ v, tk.maxEnergy hour .discharging (warm hour) prev.nodes = .ok v) :
    solve { S with tank := ofTank tk cold ret } g hour a final prev =
      solve { S with tank := ofTank tk warm ret } g hour a final prev := by
  refine C76_other_temperatures_ignored (S := { S with tank := ofTank tk cold ret })
    (S' := { S with tank := ofTank tk warm ret }) g rfl rfl (fun t s nodes => ?_) (fun t s nodes c d => ?_)
    hour a final prev h1 h2
  · show tk.maxEnergy t s (cold 1) nodes = tk.maxEnergy t s (warm 1) nodes
    rw [h]
  · unfold ofTank
    dsimp only
    rw [h]

/-- A network fed at 60 degrees all year against one fed at 70 after hour 1, and a tank of three nodes near 60
degrees at hour 2. -/
example : ∃ (tk : Tank) (cold warm : ℕ → NetTemps), cold 1 = warm 1 ∧ cold 2 ≠ warm 2 ∧
    (∃ v, tk.maxEnergy 2 .discharging (cold 2) [60, 58, 57] = .ok v ∧ 0 < v) ∧
    ∃ v, tk.maxEnergy 2 .discharging (warm 2) [60, 58, 57] = .ok v ∧ 0 < v := by
  refine ⟨Spec.wallTank, fun _ => Spec.labNet, fun t => if t < 2 then Spec.labNet else ⟨70, 10, 56, 40⟩, rfl, ?_,
    exists_of_checks (by decide +kernel), exists_of_checks (by decide +kernel)⟩
  intro h
  have := congrArg NetTemps.source h
  revert this
  decide +kernel

end Verif
