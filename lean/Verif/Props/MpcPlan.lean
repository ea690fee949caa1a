import Verif.Spec.MpcPlan
import Verif.Props.MpcBalance
import Mathlib.Algebra.Order.BigOperators.Group.Finset
import Mathlib.Algebra.BigOperators.Ring.Finset
import Mathlib.Algebra.BigOperators.Field
import Mathlib.Algebra.BigOperators.Intervals
import Mathlib.Tactic.GCongr

/-!
# What the predictive controller minimises (C110, C111)
-/

set_option autoImplicit false

namespace Verif
open Mpc Spec
variable {N : Type}

/-! ### C110: the objective is the money spent -/

theorem objective_electric {S : MpcIn N} (he : S.aux.electric = true) {t : ℕ} {cap : ℚ} {p : Point}
    (h : Posted S t cap p) : objective S t p = spent S t p + p.escRes / 100000 := by
  have hE := h.electric he
  have e1 : p.hpt - p.hptrd - p.hptesd - p.hptrs = p.hptid + p.hptis := by
    unfold Point.hpt
    linarith [hE.hpt]
  have e2 : p.aux - p.auxRs - p.auxRd - p.esdAux = p.auxD + p.auxS := by linarith [hE.aux]
  unfold objective spent bought burnt auxCost
  rw [e1, e2, if_pos he, if_pos he, if_pos he]
  ring

/-- With an electric heater the objective of a feasible plan is the money it spends, plus a thousandth of a penny for
every kWh of wind and sun put into the battery. -/
theorem C110_objective_is_money {S : MpcIn N} (he : S.aux.electric = true) {D : Dynamics} {hour n : ℕ} {s : Start}
    {plan : Plan} (h : Feasible S D hour n s plan) :
    planCost S hour n plan = planSpent S hour n plan + (∑ k ∈ Finset.Ico 1 n, (plan k).escRes) / 100000 := by
  unfold planCost planSpent
  rw [Finset.sum_div, ← Finset.sum_add_distrib]
  refine Finset.sum_congr rfl fun k hk => ?_
  rw [Finset.mem_Ico] at hk
  exact objective_electric he (h.posted k hk.1 hk.2)

/-- With an electric heater a cheapest plan spends at most a thousandth of a penny for every kWh generated more than
any other feasible plan. -/
theorem C110_cheapest {S : MpcIn N} (he : S.aux.electric = true) {D : Dynamics} {hour n : ℕ} {s : Start}
    {plan : Plan} (hp : Plannable S hour n) (h : Cheapest S D hour n s plan) {q : Plan}
    (hq : Feasible S D hour n s q) :
    planSpent S hour n plan ≤ planSpent S hour n q + (∑ k ∈ Finset.Ico 1 n, S.generation (hour + k)) / 100000 := by
  have h1 := h.least q hq
  rw [C110_objective_is_money he h.feasible, C110_objective_is_money he hq] at h1
  have h2 : 0 ≤ ∑ k ∈ Finset.Ico 1 n, (plan k).escRes := by
    refine Finset.sum_nonneg fun k hk => ?_
    rw [Finset.mem_Ico] at hk
    exact (h.feasible.posted k hk.1 hk.2).bounds.escRes
  have h3 : ∑ k ∈ Finset.Ico 1 n, (q k).escRes ≤ ∑ k ∈ Finset.Ico 1 n, S.generation (hour + k) := by
    refine Finset.sum_le_sum fun k hk => ?_
    rw [Finset.mem_Ico] at hk
    have P := hq.posted k hk.1 hk.2
    have B := P.bounds
    have E := (P.electric he).res
    have hc := (hp.perf k hk.1 hk.2).1
    have : 0 ≤ ((q k).hptrs + (q k).hptrd) / (S.perf (hour + k)).cop :=
      div_nonneg (add_nonneg B.hptrs B.hptrd) hc.le
    linarith [B.resEd, B.auxRd, B.auxRs, B.exp]
  have h4 : (∑ k ∈ Finset.Ico 1 n, (q k).escRes) / 100000
      ≤ (∑ k ∈ Finset.Ico 1 n, S.generation (hour + k)) / 100000 := by gcongr
  have h5 : 0 ≤ (∑ k ∈ Finset.Ico 1 n, (plan k).escRes) / 100000 := by positivity
  linarith

/-- What is reported of an hour is what was planned: with an electric heater the objective in the hour is the cost
reported, less what the battery gave the heater (which is billed as import), plus a thousandth of a penny for every kWh
of wind and sun put into the battery. -/
theorem C110_reported {S : MpcIn N} (he : S.aux.electric = true) {g : ℕ → ℕ → Except PyErr Point} {first n i : ℕ}
    {r : MpcResults N} (h : FromOptimiser S g first n i r) :
    ∃ hour a p, first + i = hour + 1 ∧ g hour a = .ok p ∧
      objective S (first + i) p = -r.grid.cashflow - r.dischargingToAux * S.importCost (first + i) / 1000
        + r.es.chargingFromRes / 100000 := by
  obtain ⟨rs, hr, hi, hn, h1, h8⟩ := h
  obtain ⟨_, _, _, _, hs⟩ := run_shape hn hr
  obtain ⟨hour, a, p, prev, f, nodes, ht, hg, hf, _, rfl⟩ := (hs i r h1 hi).1 (Or.inl h8)
  refine ⟨hour, a, p, ht, hg, ?_⟩
  unfold objective auxCost
  dsimp only [report, gridReport, resReport, hpReport]
  rw [if_pos he, if_pos he, if_pos he]
  ring

theorem optimises_obeys {S : MpcIn N} {D : Dynamics} {g : ℕ → ℕ → Except PyErr Point} (h : Optimises S D g) :
    Obeys S g := by
  intro hour a p hg
  obtain ⟨n, s, plan, hn, hc, rfl⟩ := h hour a p hg
  exact ⟨_, hc.feasible.posted 1 le_rfl (by omega)⟩

/-! ### C111: whether there is a cheapest plan -/

/-- The objective of an hour cannot fall below what selling all generation earns and buying as much as fits costs. -/
theorem objective_bounded {S : MpcIn N} (he : S.aux.electric = true) {hour n : ℕ} (hp : Plannable S hour n) {k : ℕ}
    (h1 : 1 ≤ k) (h2 : k < n) {cap : ℚ} {p : Point} (h : Posted S (hour + k) cap p) :
    -((S.elecDemand (hour + k) + S.es.chargeMax * S.es.chargeEff
        + (S.perf (hour + k)).duty / (S.perf (hour + k)).cop + S.peakHeatDemand) * |S.importCost (hour + k)|
      + S.generation (hour + k) * |S.exportPrice|) / 1000 ≤ objective S (hour + k) p := by
  have B := h.bounds
  have E := h.electric he
  have I := h.ineqs
  obtain ⟨hc, hd, -⟩ := hp.perf k h1 h2
  have hde := hp.es.2.2.2.2.1
  rw [objective_electric he h]
  have i1 : p.impEd ≤ S.elecDemand (hour + k) := by
    have := mul_nonneg B.esdEd hde
    linarith [E.ed, B.resEd]
  have i2 : p.escImp ≤ S.es.chargeMax * S.es.chargeEff := by linarith [E.esc, I.esc, B.escRes]
  have i3 : (p.hptid + p.hptis) / (S.perf (hour + k)).cop ≤ (S.perf (hour + k)).duty / (S.perf (hour + k)).cop := by
    have : p.hpStatus * p.hptVar ≤ p.hptVar := mul_le_of_le_one_left B.hptVar B.hpStatus_le
    gcongr
    linarith [E.hpt, I.duty, B.hptrs, B.hptrd, B.hptesd]
  have i4 : p.auxD + p.auxS ≤ S.peakHeatDemand := by linarith [E.aux, I.aux, B.auxRd, B.auxRs, B.esdAux]
  have i5 : p.exp ≤ S.generation (hour + k) := by
    have : 0 ≤ (p.hptrs + p.hptrd) / (S.perf (hour + k)).cop := div_nonneg (add_nonneg B.hptrs B.hptrd) hc.le
    linarith [E.res, B.resEd, B.escRes, B.auxRd, B.auxRs]
  have b0 : 0 ≤ bought S (hour + k) p := by
    unfold bought
    rw [if_pos he]
    have : 0 ≤ (p.hptid + p.hptis) / (S.perf (hour + k)).cop := div_nonneg (add_nonneg B.hptid B.hptis) hc.le
    linarith [B.impEd, B.escImp, B.auxD, B.auxS]
  have b1 : bought S (hour + k) p ≤ S.elecDemand (hour + k) + S.es.chargeMax * S.es.chargeEff
        + (S.perf (hour + k)).duty / (S.perf (hour + k)).cop + S.peakHeatDemand := by
    unfold bought
    rw [if_pos he]
    linarith
  have c1 : -(bought S (hour + k) p * |S.importCost (hour + k)|) ≤ bought S (hour + k) p * S.importCost (hour + k) := by
    have := mul_le_mul_of_nonneg_left (neg_abs_le (S.importCost (hour + k))) b0
    linarith
  have c2 := mul_le_mul_of_nonneg_right b1 (abs_nonneg (S.importCost (hour + k)))
  have c3 := mul_le_mul_of_nonneg_left (le_abs_self S.exportPrice) B.exp
  have c4 := mul_le_mul_of_nonneg_right i5 (abs_nonneg S.exportPrice)
  have c5 : 0 ≤ p.escRes / 100000 := div_nonneg B.escRes (by norm_num)
  unfold spent burnt
  rw [if_pos he, zero_mul, add_zero]
  rw [div_add' _ _ _ (by norm_num), div_le_div_iff_of_pos_right (by norm_num)]
  linarith

/-- With an electric heater, whatever the prices, the objective is bounded: plans do not get cheaper without end. -/
theorem C111_bounded {S : MpcIn N} (he : S.aux.electric = true) (D : Dynamics) {hour n : ℕ} (s : Start)
    (hp : Plannable S hour n) : ∃ K, ∀ plan, Feasible S D hour n s plan → K ≤ planCost S hour n plan :=
  ⟨_, fun _ h => Finset.sum_le_sum fun k hk =>
    objective_bounded he hp (Finset.mem_Ico.mp hk).1 (Finset.mem_Ico.mp hk).2
      (h.posted k (Finset.mem_Ico.mp hk).1 (Finset.mem_Ico.mp hk).2)⟩

/-- The plan with another second point. -/
def Mpc.Plan.second (plan : Plan) (p : Point) : Plan := fun k => if k = 1 then p else plan k

theorem planCost_second (S : MpcIn N) {hour n : ℕ} (hn : 2 ≤ n) (plan : Plan) (p : Point) :
    planCost S hour n (plan.second p)
      = planCost S hour n plan - objective S (hour + 1) (plan 1) + objective S (hour + 1) p := by
  unfold planCost
  have e : ∀ f : ℕ → ℚ, ∑ k ∈ Finset.Ico 1 n, f k = f 1 + ∑ k ∈ Finset.Ico (1 + 1) n, f k :=
    fun f => Finset.sum_eq_sum_Ico_succ_bot (by omega) f
  rw [e fun k => objective S (hour + k) (plan.second p k), e fun k => objective S (hour + k) (plan k)]
  have : ∑ k ∈ Finset.Ico (1 + 1) n, objective S (hour + k) (plan.second p k)
      = ∑ k ∈ Finset.Ico (1 + 1) n, objective S (hour + k) (plan k) := by
    refine Finset.sum_congr rfl fun k hk => ?_
    rw [Finset.mem_Ico] at hk
    unfold Plan.second
    rw [if_neg (by omega)]
  rw [this]
  unfold Plan.second
  rw [if_pos rfl]
  ring

theorem feasible_second {S : MpcIn N} {D : Dynamics} {hour n : ℕ} {s : Start} {plan : Plan}
    (h : Feasible S D hour n s plan) {p : Point} (hp : Posted S (hour + 1) (s.maxCap 1) p)
    (e1 : p.socEs = (plan 1).socEs) (e2 : p.soc = (plan 1).soc) (e3 : batteryRate S p = batteryRate S (plan 1))
    (e4 : tankRate p = tankRate (plan 1)) : Feasible S D hour n s (plan.second p) := by
  have f : ∀ {α : Type} (F : Point → α), F p = F (plan 1) → (fun k => F (plan.second p k)) = fun k => F (plan k) := by
    intro α F hF
    funext k
    unfold Plan.second
    split_ifs with hk
    · rw [hF, hk]
    · rfl
  refine ⟨h.socEs, h.soc, fun k h1 h2 => ?_, ?_, ?_⟩
  · unfold Plan.second
    split_ifs with hk
    · subst hk
      exact hp
    · exact h.posted k h1 h2
  · rw [f Point.socEs e1, f (batteryRate S) e3]
    exact h.battery
  · rw [f Point.soc e2, f tankRate e4]
    exact h.tank

/-- With a boiler that burns a fuel that costs money there is no cheapest plan: nothing posted limits the heat it is
said to get from renewables, and the objective pays for that heat. Every feasible plan can be made as cheap as one
likes, without changing anything that matters. -/
theorem C111_fuel_unbounded {S : MpcIn N} (he : S.aux.electric = false) (hc : 0 < S.aux.cost) {D : Dynamics}
    {hour n : ℕ} (hn : 2 ≤ n) {s : Start} {plan : Plan} (h : Feasible S D hour n s plan) (K : ℚ) :
    ∃ q, Feasible S D hour n s q ∧ planCost S hour n q < K ∧ planSpent S hour n q = planSpent S hour n plan := by
  have P := h.posted 1 le_rfl (by omega)
  have B := P.bounds
  have F := P.fuel he
  set m := (|planCost S hour n plan - K| + 1) * 1000 / S.aux.cost with hm
  have hm0 : 0 ≤ m := by positivity
  let p : Point := { plan 1 with auxRd := (plan 1).auxRd + m }
  have hp : Posted S (hour + 1) (s.maxCap 1) p := by
    refine ⟨?_, fun h' => (by rw [he] at h'; cases h'), fun _ => ?_, ?_⟩
    · obtain ⟨b1, b2, b3, b4, b5, b6, b7, b8, b9, b10, b11, b12, b13, b14, b15, b16, b17, b18, b19, b20, b21, b22, b23,
        b24, b25, b26, b27⟩ := B
      constructor <;> first | assumption | exact add_nonneg b23 hm0
    · obtain ⟨f1, f2, f3, f4, f5, f6, f7, f8⟩ := F
      constructor <;> assumption
    · obtain ⟨i1, i2, i3, i4, i5, i6, i7, i8, i9, i10⟩ := P.ineqs
      constructor <;> assumption
  refine ⟨plan.second p, feasible_second h hp rfl rfl rfl rfl, ?_, ?_⟩
  · rw [planCost_second S hn]
    have : objective S (hour + 1) p = objective S (hour + 1) (plan 1) - m * S.aux.cost / 1000 := by
      simp only [objective, auxCost, he, Bool.false_eq_true, if_false, Point.hpt, p]
      ring
    rw [this, hm, div_mul_cancel₀ _ hc.ne']
    have := le_abs_self (planCost S hour n plan - K)
    linarith
  · unfold planSpent
    refine Finset.sum_congr rfl fun k _ => ?_
    unfold Plan.second
    split_ifs with hk
    · subst hk
      rfl
    · rfl

/-- So an optimiser that answers with cheapest plans only never answers, and every run of two hours or more with such a
boiler ends with an exception. -/
theorem C111_fuel_never_runs {S : MpcIn N} (he : S.aux.electric = false) (hc : 0 < S.aux.cost) {D : Dynamics}
    {g : ℕ → ℕ → Except PyErr Point} (hg : Optimises S D g) {first n : ℕ} (hn : 2 ≤ n) :
    ∃ e, movingHorizon S g first n = .error e := by
  have none : ∀ hour a p, g hour a ≠ .ok p := by
    intro hour a p h
    obtain ⟨n, s, plan, h2, hch, -⟩ := hg hour a p h
    obtain ⟨q, hq, hlt, -⟩ := C111_fuel_unbounded he hc h2 hch.feasible (planCost S hour n plan)
    exact absurd (hch.least q hq) (not_le.mpr hlt)
  cases h : movingHorizon S g first n with
  | error e => exact ⟨e, rfl⟩
  | ok rs =>
    exfalso
    obtain ⟨_, hl, _, _, hs⟩ := run_shape hn h
    have h1 : 1 < rs.length := by omega
    obtain ⟨hour, a, p, prev, f, nodes, ht, hg', -⟩ :=
      (hs 1 rs[1] le_rfl (List.getElem?_eq_getElem h1)).1 (Or.inr rfl)
    exact none hour a p hg'

/-- Likewise for the heat such a system is said to make with the battery, if electricity costs money: the plan gets
cheaper without end, and the import reported for the hour falls below any number. -/
theorem C111_fuel_negative_import {S : MpcIn N} (he : S.aux.electric = false) {D : Dynamics} {hour n : ℕ}
    (hi : 0 < S.importCost (hour + 1)) (hcop : 0 < (S.perf (hour + 1)).cop) (hn : 2 ≤ n) {s : Start} {plan : Plan}
    (h : Feasible S D hour n s plan) (K : ℚ) :
    ∃ q, Feasible S D hour n s q ∧ planCost S hour n q < K ∧ (gridReport S (hour + 1) (q 1)).totalImport < K ∧
      planSpent S hour n q = planSpent S hour n plan := by
  have P := h.posted 1 le_rfl (by omega)
  have B := P.bounds
  have F := P.fuel he
  set c := (S.perf (hour + 1)).cop with hcd
  set t0 := (gridReport S (hour + 1) (plan 1)).totalImport with ht
  set m := c * ((|planCost S hour n plan - K| + 1) * 1000 / S.importCost (hour + 1) + |t0 - K| + 1) with hm
  have hm0 : 0 ≤ m := by positivity
  let p : Point := { plan 1 with hptesd := (plan 1).hptesd + m }
  have hp : Posted S (hour + 1) (s.maxCap 1) p := by
    refine ⟨?_, fun h' => (by rw [he] at h'; cases h'), fun _ => ?_, ?_⟩
    · obtain ⟨b1, b2, b3, b4, b5, b6, b7, b8, b9, b10, b11, b12, b13, b14, b15, b16, b17, b18, b19, b20, b21, b22, b23,
        b24, b25, b26, b27⟩ := B
      constructor <;> first | assumption | exact add_nonneg b8 hm0
    · obtain ⟨f1, f2, f3, f4, f5, f6, f7, f8⟩ := F
      constructor <;> assumption
    · obtain ⟨i1, i2, i3, i4, i5, i6, i7, i8, i9, i10⟩ := P.ineqs
      constructor <;> assumption
  have hmc : m / c = (|planCost S hour n plan - K| + 1) * 1000 / S.importCost (hour + 1) + |t0 - K| + 1 := by
    rw [hm, mul_div_cancel_left₀ _ hcop.ne']
  refine ⟨plan.second p, feasible_second h hp rfl rfl rfl rfl, ?_, ?_, ?_⟩
  · rw [planCost_second S hn]
    have : objective S (hour + 1) p = objective S (hour + 1) (plan 1) - m / c * S.importCost (hour + 1) / 1000 := by
      simp only [objective, auxCost, he, Bool.false_eq_true, if_false, Point.hpt, p, ← hcd]
      ring
    rw [this, hmc]
    have h1 := le_abs_self (planCost S hour n plan - K)
    have h2 : 0 ≤ (|t0 - K| + 1) * S.importCost (hour + 1) / 1000 := by positivity
    have h3 : ((|planCost S hour n plan - K| + 1) * 1000 / S.importCost (hour + 1) + |t0 - K| + 1)
        * S.importCost (hour + 1) / 1000
        = (|planCost S hour n plan - K| + 1) + (|t0 - K| + 1) * S.importCost (hour + 1) / 1000 := by
      field_simp
      ring
    rw [h3]
    linarith
  · have : (gridReport S (hour + 1) p).totalImport = t0 - m / c := by
      simp only [ht, gridReport, hpReport, resReport, he, Bool.false_eq_true, if_false, Point.hpt, p, ← hcd]
      ring
    unfold Plan.second
    rw [if_pos rfl, this, hmc]
    have h1 := le_abs_self (t0 - K)
    have h2 : 0 ≤ (|planCost S hour n plan - K| + 1) * 1000 / S.importCost (hour + 1) := by positivity
    linarith
  · unfold planSpent
    refine Finset.sum_congr rfl fun k _ => ?_
    unfold Plan.second
    split_ifs with hk
    · subst hk
      rfl
    · rfl

/-- Stores left alone, demand met by renewables and grid, heat by the heater. -/
def Spec.fallback (S : MpcIn N) (hour : ℕ) (x y : ℕ → ℚ) : Plan := fun k =>
  { Samples.zero with
    resEd := min (S.generation (hour + k)) (S.elecDemand (hour + k))
    impEd := S.elecDemand (hour + k) - min (S.generation (hour + k)) (S.elecDemand (hour + k))
    exp := S.generation (hour + k) - min (S.generation (hour + k)) (S.elecDemand (hour + k))
    hptVar := (S.perf (hour + k)).duty
    auxD := S.heatDemand (hour + k)
    aux := S.heatDemand (hour + k)
    socEs := x k
    soc := y k }

/-- There is a feasible plan whenever battery and tank start with no more than they hold over the horizon. -/
theorem C111_plan_exists {S : MpcIn N} {D : Dynamics} (hD : Settles D) {hour n : ℕ} (hp : Plannable S hour n)
    {s : Start} (h1 : 0 ≤ s.socEs) (h2 : s.socEs ≤ S.es.capacity) (h3 : 0 ≤ s.soc)
    (h4 : ∀ k, 1 ≤ k → k < n → s.soc ≤ s.maxCap k) : ∃ plan, Feasible S D hour n s plan := by
  obtain ⟨c1, c2, c3, c4, c5, c6⟩ := hp.es
  obtain ⟨x, x0, xb, xD⟩ := hD n s.socEs S.es.selfDischarge h1 c6
  obtain ⟨y, y0, yb, yD⟩ := hD n s.soc (1 / 100) h3 (by norm_num)
  refine ⟨fallback S hour x y, x0, y0, fun k hk1 hk2 => ?_, ?_, ?_⟩
  · have g0 := hp.generation k hk1 hk2
    have d0 := hp.elecDemand k hk1 hk2
    obtain ⟨q0, q1⟩ := hp.heatDemand k hk1 hk2
    obtain ⟨p0, p1, p2⟩ := hp.perf k hk1 hk2
    have m0 := le_min g0 d0
    have m1 := min_le_left (S.generation (hour + k)) (S.elecDemand (hour + k))
    have m2 := min_le_right (S.generation (hour + k)) (S.elecDemand (hour + k))
    have xk := xb k
    have yk := yb k
    have sk := h4 k hk1 hk2
    have cc := mul_nonneg c2 c4
    refine ⟨?_, fun _ => ?_, fun _ => ?_, ?_⟩
    · constructor <;> dsimp only [fallback, Samples.zero] <;> linarith
    · constructor <;> dsimp only [fallback, Samples.zero] <;> ring
    · constructor <;> dsimp only [fallback, Samples.zero] <;> ring
    · constructor <;> dsimp only [fallback, Samples.zero] <;> linarith
  · have : (fun k => batteryRate S (fallback S hour x y k)) = fun k => -(S.es.selfDischarge * x k) := by
      funext k
      simp only [batteryRate, fallback, Samples.zero]
      ring
    rw [this]
    exact xD
  · have : (fun k => tankRate (fallback S hour x y k)) = fun k => -(1 / 100 * y k) := by
      funext k
      simp only [tankRate, fallback, Samples.zero]
      ring
    rw [this]
    exact yD

/-- The implicit Euler rule is a discretisation of this kind. -/
theorem euler_settles : Settles euler := by
  intro n x0 r h0 hr
  have hb : (0 : ℚ) < 1 + r := by linarith
  refine ⟨fun k => x0 / (1 + r) ^ k, by simp, fun k => ⟨by positivity, ?_⟩, fun k _ => ?_⟩
  · exact div_le_self h0 (one_le_pow₀ (by linarith))
  · dsimp only
    rw [pow_succ]
    field_simp
    ring

/-- A tank that holds more than about twice what it may hold an hour later leaves no feasible plan (with the implicit
Euler rule): it can give at most what it holds at the end of the hour. -/
theorem C111_full_tank_no_plan {S : MpcIn N} {hour n : ℕ} (hn : 2 ≤ n) {s : Start}
    (h : 201 / 100 * s.maxCap 1 < s.soc) : ¬ ∃ plan, Feasible S euler hour n s plan := by
  rintro ⟨plan, hp⟩
  have e := hp.tank 0 (by omega)
  have P := hp.posted 1 le_rfl (by omega)
  have h0 := hp.soc
  have := P.bounds.tsc
  have := P.ineqs.tsd
  have := P.ineqs.soc
  dsimp only [tankRate] at e
  rw [zero_add] at e
  linarith

/-- A system without stores. -/
def Mpc.Samples.storeless (electric : Bool) : MpcIn Unit := { Samples.steady electric 0 with es := ⟨0, 0, 0, 0, 1, 1, 0⟩ }

theorem storeless_plannable (electric : Bool) (hour n : ℕ) : Plannable (Samples.storeless electric) hour n := by
  constructor <;> intros <;> norm_num [Samples.storeless, Samples.steady, hpMin]

/-- Nothing stored, room for nothing. -/
def Mpc.Samples.empty : Start := ⟨0, 0, fun _ => 0⟩

/-- The wind of 6 kWh meets the demand of 3 kWh, and with a heat pump that makes three of one the heat demand. -/
def Mpc.Samples.thrifty : Plan := fun _ => { Samples.zero with resEd := 3, hptrd := 9, hpStatus := 1, hptVar := 9 }

/-- This is the cheapest plan over any horizon. -/
theorem thrifty_cheapest (hour n : ℕ) : Cheapest (Samples.storeless true) euler hour n Samples.empty Samples.thrifty := by
  refine ⟨⟨rfl, rfl, fun k _ _ => ⟨?_, fun _ => ?_, fun h => (by cases h), ?_⟩, fun k _ => ?_, fun k _ => ?_⟩, ?_⟩
  · constructor <;> norm_num [Samples.thrifty, Samples.zero]
  · constructor <;> norm_num [Samples.thrifty, Samples.zero, Samples.storeless, Samples.steady]
  · constructor <;> norm_num [Samples.thrifty, Samples.zero, Samples.storeless, Samples.steady, Samples.empty, hpMin]
  · norm_num [Samples.thrifty, Samples.zero, Samples.storeless, Samples.steady, batteryRate]
  · norm_num [Samples.thrifty, Samples.zero, tankRate]
  · intro q hq
    have h0 : planCost (Samples.storeless true) hour n Samples.thrifty = 0 := by
      unfold planCost
      refine Finset.sum_eq_zero fun k _ => ?_
      norm_num [objective, Point.hpt, auxCost, Samples.thrifty, Samples.zero, Samples.storeless, Samples.steady]
    rw [h0]
    refine Finset.sum_nonneg fun k hk => ?_
    rw [Finset.mem_Ico] at hk
    have P := hq.posted k hk.1 hk.2
    have B := P.bounds
    have E := P.electric rfl
    have I := P.ineqs
    rw [objective_electric rfl P]
    have e1 := E.ed
    have e2 := E.hd
    have e3 := E.res
    have e4 := E.hptesd
    have e5 := E.esd
    have e6 := E.esc
    have e7 := E.tsc
    have i1 := I.esc
    have i2 := I.esd
    have i3 := I.soc
    have i4 := I.tsd
    have i5 := I.tsc
    simp only [Samples.storeless, Samples.steady, Samples.empty] at e1 e2 e3 e4 i1 i2 i3 i4 i5
    unfold spent bought burnt
    simp only [Samples.storeless, Samples.steady, if_true]
    have := B.esdEd; have := B.esdHp; have := B.esdAux; have := B.escRes; have := B.escImp
    have := B.tsc; have := B.tsd; have := B.soc
    have := B.hptrs; have := B.hptis; have := B.auxRs; have := B.auxS
    have := B.auxD; have := B.auxRd; have := B.exp; have := B.hptid; have := B.impEd; have := B.hptesd
    linarith

/-- An optimiser that finds it, and the second hour of a run. -/
example : Optimises (Samples.storeless true) euler (fun _ _ => .ok (Samples.thrifty 1)) ∧
    ∃ r, FromOptimiser (Samples.storeless true) (fun _ _ => .ok (Samples.thrifty 1)) 0 2 1 r ∧
      r.grid.cashflow = 0 ∧ r.res.hp = 3 :=
  ⟨fun hour a p h => ⟨24, Samples.empty, Samples.thrifty, by norm_num, thrifty_cheapest hour 24, by cases h; rfl⟩,
    second (by decide +kernel)⟩

/-- `C110_cheapest` and `C111_bounded` are about such systems: buying all heat spends more. -/
example : planSpent (Samples.storeless true) 0 3 Samples.thrifty = 0 ∧
    Feasible (Samples.storeless true) euler 0 3 Samples.empty (fallback (Samples.storeless true) 0 (fun _ => 0) fun _ => 0) ∧
    planSpent (Samples.storeless true) 0 3 (fallback (Samples.storeless true) 0 (fun _ => 0) fun _ => 0) = 87 / 50 := by
  refine ⟨by decide +kernel, ⟨rfl, rfl, fun k _ _ => ⟨?_, fun _ => ?_, fun h => (by cases h), ?_⟩, fun k _ => ?_, fun k _ => ?_⟩,
    by decide +kernel⟩
  · constructor <;> norm_num [fallback, Samples.zero, Samples.storeless, Samples.steady]
  · constructor <;> norm_num [fallback, Samples.zero, Samples.storeless, Samples.steady]
  · constructor <;> norm_num [fallback, Samples.zero, Samples.storeless, Samples.steady, Samples.empty, hpMin]
  · norm_num [fallback, Samples.zero, Samples.storeless, Samples.steady, batteryRate]
  · norm_num [fallback, Samples.zero, tankRate]

/-- A boiler whose fuel costs 40 a MWh has feasible plans, and no cheapest one. -/
example : (∃ plan, Feasible (Samples.storeless false) euler 0 3 Samples.empty plan) ∧
    ¬ ∃ plan, Cheapest (Samples.storeless false) euler 0 3 Samples.empty plan := by
  refine ⟨C111_plan_exists euler_settles (storeless_plannable _ _ _) le_rfl le_rfl le_rfl fun _ _ _ => le_rfl, ?_⟩
  rintro ⟨plan, h⟩
  obtain ⟨q, hq, hlt, -⟩ := C111_fuel_unbounded rfl (by norm_num [Samples.storeless, Samples.steady]) (by norm_num)
    h.feasible (planCost (Samples.storeless false) 0 3 plan)
  exact absurd (h.least q hq) (not_le.mpr hlt)

/-- With it there is a plan of an hour in which less than minus a million kWh are bought. -/
example : ∃ q, Feasible (Samples.storeless false) euler 0 3 Samples.empty q ∧
    (gridReport (Samples.storeless false) 1 (q 1)).totalImport < -1000000 := by
  obtain ⟨plan, h⟩ := C111_plan_exists (S := Samples.storeless false) (hour := 0) (n := 3) (s := Samples.empty)
    euler_settles (storeless_plannable _ _ _) le_rfl le_rfl le_rfl fun _ _ _ => le_rfl
  obtain ⟨q, h1, -, h2, -⟩ := C111_fuel_negative_import rfl (by norm_num [Samples.storeless, Samples.steady])
    (by norm_num [Samples.storeless, Samples.steady]) (by norm_num) h (-1000000)
  exact ⟨q, h1, h2⟩

/-- A tank that holds 50 kWh and may hold 20 in the hours to come leaves no plan. -/
example : ¬ ∃ plan, Feasible (Samples.storeless true) euler 0 24 ⟨0, 50, fun _ => 20⟩ plan :=
  C111_full_tank_no_plan (by norm_num) (by norm_num)

/-- What the optimiser minimised in the second hour of the run above, from what the results report. -/
example : ∃ r : MpcResults Unit, FromOptimiser (Samples.storeless true) (fun _ _ => .ok (Samples.thrifty 1)) 0 2 1 r ∧
    objective (Samples.storeless true) 1 (Samples.thrifty 1) = r.es.chargingFromRes / 100000 - r.grid.cashflow
      - r.dischargingToAux * (Samples.storeless true).importCost 1 / 1000 := by
  obtain ⟨r, h, -⟩ : ∃ r, FromOptimiser (Samples.storeless true) (fun _ _ => .ok (Samples.thrifty 1)) 0 2 1 r ∧
    r.grid.cashflow = 0 ∧ r.res.hp = 3 := second (by decide +kernel)
  obtain ⟨hour, a, p, e, hp, ho⟩ := C110_reported rfl h
  cases hp
  exact ⟨r, h, ho.trans (by ring)⟩

end Verif
