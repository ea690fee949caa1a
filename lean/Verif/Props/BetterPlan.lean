import Verif.Props.CheapestPlan
import Verif.Props.BothControllers

/-!
# What a cheapest plan costs in a better system (C113) and with stores (C114)
-/

set_option autoImplicit false

namespace Verif
open Mpc Spec
variable {N M : Type}

/-- What a plan does in an hour of the first system can be done in the second, with the further generation sold. -/
theorem better_hour {S : MpcIn N} {S' : MpcIn M} {hour n : ℕ} (hb : Better S S' hour n) (hp : Plannable S hour n)
    (hp' : Plannable S' hour n) {k : ℕ} (h1 : 1 ≤ k) (h2 : k < n) {cap cap' : ℚ} (hc : cap ≤ cap') {p : Point}
    (h : Posted S (hour + k) cap p) :
    Posted S' (hour + k) cap'
      (fullDuty S' (hour + k) { p with exp := p.exp + (S'.generation (hour + k) - S.generation (hour + k)) }) := by
  have R := reduced_of_posted hb.electric h
  obtain ⟨-, d0, dm⟩ := hp'.perf k h1 h2
  have g := hb.generation k h1 h2
  have hR := R.bounds
  simp only [List.forall_mem_cons, List.not_mem_nil, false_imp_iff, implies_true, and_true] at hR
  obtain ⟨b1, b2, b3, b4, b5, b6, b7, b8, b9, b10, b11, b12, b13, b14, b15, b16, b17, b18, b19, b20, b21, b22, b23,
    b24⟩ := hR
  refine posted_of_reduced hb.electric' d0 dm ⟨?_, R.esd, R.esc, ?_, ?_, ?_, R.aux, R.tsc, ?_, ?_, R.soc_le.trans hc, ?_,
    R.tsd_le, R.socEs_le.trans hb.capacity, ?_, R.esd_le.trans hb.dischargeMax, R.esd_soc, R.aux_le.trans hb.peak⟩
  · simp only [List.forall_mem_cons, List.not_mem_nil, false_imp_iff, implies_true, and_true]
    exact ⟨b1, by linarith, b3, b4, b5, b6, b7, b8, b9, b10, b11, b12, b13, b14, b15, b16, b17, b18, b19, b20, b21, b22,
      b23, b24⟩
  · rw [hb.elecDemand k h1 h2, hb.dischargeEff]
    exact R.ed
  · rw [hb.heatDemand k h1 h2, hb.dischargeEff]
    exact R.hd
  · rw [hb.cop k h1 h2, hb.dischargeEff]
    exact R.hptesd
  · rw [hb.cop k h1 h2]
    have := R.res
    dsimp only
    linarith
  · exact R.duty.trans (hb.duty k h1 h2)
  · have := R.tsc_le
    dsimp only
    linarith
  · rw [hb.chargeEff]
    exact R.esc_le.trans (mul_le_mul_of_nonneg_right hb.chargeMax hp.es.2.2.2.1)

/-- C113: in a better system a cheapest plan costs at most as much. -/
theorem C113_better {S : MpcIn N} {S' : MpcIn M} {D : Dynamics} {hour n : ℕ} (hb : Better S S' hour n)
    (hp : Plannable S hour n) (hp' : Plannable S' hour n) (he : 0 ≤ S'.exportPrice) {s s' : Start} (hs : Roomier s s' n)
    {plan plan' : Plan} (h : Feasible S D hour n s plan) (h' : Cheapest S' D hour n s' plan') :
    planCost S' hour n plan' ≤ planCost S hour n plan := by
  have hf : Feasible S' D hour n s' fun k => fullDuty S' (hour + k)
      { plan k with exp := (plan k).exp + (S'.generation (hour + k) - S.generation (hour + k)) } := by
    refine ⟨h.socEs.trans hs.socEs.symm, h.soc.trans hs.soc.symm,
      fun k h1 h2 => better_hour hb hp hp' h1 h2 (hs.maxCap k h1 h2) (h.posted k h1 h2), ?_, h.tank⟩
    have := h.battery
    unfold batteryRate at this ⊢
    rw [hb.chargeEff, hb.selfDischarge]
    exact this
  refine (h'.least _ hf).trans (Finset.sum_le_sum fun k hk => ?_)
  obtain ⟨h1, h2⟩ := Finset.mem_Ico.mp hk
  rw [objective_electric hb.electric' (hf.posted k h1 h2), objective_electric hb.electric (h.posted k h1 h2)]
  have B := (h.posted k h1 h2).bounds
  have g := hb.generation k h1 h2
  have i := hb.importCost k h1 h2
  have x := hb.exportPrice
  have c := (hp.perf k h1 h2).1
  unfold spent bought burnt fullDuty
  dsimp only
  rw [hb.electric, hb.electric', hb.cop k h1 h2]
  simp only [if_true]
  have a1 : 0 ≤ (plan k).impEd + (plan k).escImp + ((plan k).hptid + (plan k).hptis) / (S.perf (hour + k)).cop
      + ((plan k).auxD + (plan k).auxS) := by
    have := div_nonneg (add_nonneg B.hptid B.hptis) c.le
    linarith [B.impEd, B.escImp, B.auxD, B.auxS]
  have a2 := mul_le_mul_of_nonneg_left i a1
  have a3 := mul_le_mul_of_nonneg_left x B.exp
  have a4 := mul_nonneg (sub_nonneg.mpr g) he
  linarith

/-- C113 in money. -/
theorem C113_money {S : MpcIn N} {S' : MpcIn M} {D : Dynamics} {hour n : ℕ} (hb : Better S S' hour n)
    (hp : Plannable S hour n) (hp' : Plannable S' hour n) (he : 0 ≤ S'.exportPrice) {s s' : Start} (hs : Roomier s s' n)
    {plan plan' : Plan} (h : Feasible S D hour n s plan) (h' : Cheapest S' D hour n s' plan') :
    planSpent S' hour n plan' ≤ planSpent S hour n plan + (∑ k ∈ Finset.Ico 1 n, S.generation (hour + k)) / 100000 := by
  have h1 := C113_better hb hp hp' he hs h h'
  rw [C110_objective_is_money hb.electric' h'.feasible, C110_objective_is_money hb.electric h] at h1
  have h2 : 0 ≤ ∑ k ∈ Finset.Ico 1 n, (plan' k).escRes := by
    refine Finset.sum_nonneg fun k hk => ?_
    rw [Finset.mem_Ico] at hk
    exact (h'.feasible.posted k hk.1 hk.2).bounds.escRes
  have h3 : ∑ k ∈ Finset.Ico 1 n, (plan k).escRes ≤ ∑ k ∈ Finset.Ico 1 n, S.generation (hour + k) := by
    refine Finset.sum_le_sum fun k hk => ?_
    rw [Finset.mem_Ico] at hk
    have P := h.posted k hk.1 hk.2
    have B := P.bounds
    have := (P.electric hb.electric).res
    have := div_nonneg (add_nonneg B.hptrs B.hptrd) (hp.perf k hk.1 hk.2).1.le
    linarith [B.resEd, B.auxRd, B.auxRs, B.exp]
  linarith

/-- An hour that could be planned with empty stores can be planned with stores left alone. -/
theorem posted_idle {S : MpcIn M} {t : ℕ} {p : Point} (h : Posted S t 0 p) (h1 : p.socEs = 0) (h2 : p.soc = 0)
    (h3 : batteryRate S p = 0) {cap x y : ℚ} (x0 : 0 ≤ x) (x1 : x ≤ S.es.capacity) (y0 : 0 ≤ y) (y1 : y ≤ cap) :
    Posted S t cap { p with socEs := x, soc := y } ∧
      batteryRate S { p with socEs := x, soc := y } = -(S.es.selfDischarge * x) ∧
      tankRate { p with socEs := x, soc := y } = -(1 / 100 * y) := by
  obtain ⟨B, E, F, I⟩ := h
  have t1 : p.tsc = 0 := le_antisymm (by have := I.tsc; rw [h2] at this; linarith) B.tsc
  have t2 : p.tsd = 0 := le_antisymm (h2 ▸ I.tsd) B.tsd
  have b1 : p.esd = 0 := le_antisymm (h1 ▸ I.esd_soc) B.esd
  have b2 : p.esc * S.es.chargeEff = 0 := by
    unfold batteryRate at h3
    rw [h1, b1] at h3
    linarith
  refine ⟨⟨{ B with socEs := x0, soc := y0 }, fun he => ?_, fun he => ?_, ?_⟩, ?_, ?_⟩
  · obtain ⟨e1, e2, e3, e4, e5, e6, e7, e8, e9⟩ := E he
    exact ⟨e1, e2, e3, e4, e5, e6, e7, e8, e9⟩
  · obtain ⟨e1, e2, e3, e4, e5, e6, e7, e8⟩ := F he
    exact ⟨e1, e2, e3, e4, e5, e6, e7, e8⟩
  · obtain ⟨i1, i2, i3, i4, i5, i6, i7, i8, i9, i10⟩ := I
    refine ⟨i1, i2, y1, ?_, ?_, x1, i7, i8, ?_, i10⟩ <;> dsimp only <;> linarith
  · unfold batteryRate
    dsimp only
    rw [b1, b2]
    ring
  · unfold tankRate
    dsimp only
    rw [t1, t2]
    ring

/-- C114: with stores a cheapest plan costs over its horizon at most what the fixed order controller pays for the same
hours without them. `cash k` is what that run reports for the `k`-th hour of the horizon. -/
theorem C114_stores {R : RunIn N} {S : MpcIn M} (hd : SameButStores R S) (hR : PlainRun R) {D : Dynamics}
    (hD : Settles D) {hour n : ℕ} (hp : Plannable S hour n) {s : Start} (h1 : 0 ≤ s.socEs)
    (h2 : s.socEs ≤ S.es.capacity) (h3 : 0 ≤ s.soc) (h4 : ∀ k, 1 ≤ k → k < n → s.soc ≤ s.maxCap k) {first m : ℕ}
    {rs : List (Results N)} (h : FixedOrder.runTimesteps R first m = .ok rs) {cash : ℕ → ℚ}
    (hc : ∀ k, 1 ≤ k → k < n → ∃ i r, hour + k = first + i ∧ rs[i]? = some r ∧ r.grid.cashflow = cash k) {plan : Plan}
    (hm : Cheapest S D hour n s plan) : planCost S hour n plan ≤ -∑ k ∈ Finset.Ico 1 n, cash k := by
  obtain ⟨c1, c2, c3, c4, c5, c6⟩ := hp.es
  obtain ⟨x, x0, xb, xD⟩ := hD n s.socEs S.es.selfDischarge h1 c6
  obtain ⟨y, y0, yb, yD⟩ := hD n s.soc (1 / 100) h3 (by norm_num)
  have key : ∀ k, ∃ p : Point, p.socEs = x k ∧ p.soc = y k ∧ batteryRate S p = -(S.es.selfDischarge * x k) ∧
      tankRate p = -(1 / 100 * y k) ∧
      (1 ≤ k → k < n → Posted S (hour + k) (s.maxCap k) p ∧ objective S (hour + k) p ≤ -cash k) := by
    intro k
    by_cases hk : 1 ≤ k ∧ k < n
    · obtain ⟨i, r, hi, hr, e⟩ := hc k hk.1 hk.2
      obtain ⟨p, hP, e1, e2, e3, -, hle⟩ := run_posted hd hR ⟨c1, c2, c3, c4⟩ h hr
      rw [← hi] at hP hle
      obtain ⟨q1, q2, q3⟩ := posted_idle hP e1 e2 e3 (xb k).1 ((xb k).2.trans h2) (yb k).1
        ((yb k).2.trans (h4 k hk.1 hk.2))
      exact ⟨_, rfl, rfl, q2, q3, fun _ _ => ⟨q1, e ▸ hle⟩⟩
    · refine ⟨{ Samples.zero with socEs := x k, soc := y k }, rfl, rfl, ?_, ?_, fun a b => absurd ⟨a, b⟩ hk⟩
      · simp only [batteryRate, Samples.zero]
        ring
      · simp only [tankRate, Samples.zero]
        ring
  choose q q1 q2 q3 q4 q5 using key
  have hf : Feasible S D hour n s q := by
    refine ⟨(q1 0).trans x0, (q2 0).trans y0, fun k a b => (q5 k a b).1, ?_, ?_⟩
    · rw [funext q1, funext q3]
      exact xD
    · rw [funext q2, funext q4]
      exact yD
  refine (hm.least q hf).trans ?_
  rw [← Finset.sum_neg_distrib]
  exact Finset.sum_le_sum fun k hk => (q5 k (Finset.mem_Ico.mp hk).1 (Finset.mem_Ico.mp hk).2).2

/-- C114 in money. -/
theorem C114_money {R : RunIn N} {S : MpcIn M} (hd : SameButStores R S) (hR : PlainRun R) {D : Dynamics}
    (hD : Settles D) {hour n : ℕ} (hp : Plannable S hour n) {s : Start} (h1 : 0 ≤ s.socEs)
    (h2 : s.socEs ≤ S.es.capacity) (h3 : 0 ≤ s.soc) (h4 : ∀ k, 1 ≤ k → k < n → s.soc ≤ s.maxCap k) {first m : ℕ}
    {rs : List (Results N)} (h : FixedOrder.runTimesteps R first m = .ok rs) {cash : ℕ → ℚ}
    (hc : ∀ k, 1 ≤ k → k < n → ∃ i r, hour + k = first + i ∧ rs[i]? = some r ∧ r.grid.cashflow = cash k) {plan : Plan}
    (hm : Cheapest S D hour n s plan) : planSpent S hour n plan ≤ -∑ k ∈ Finset.Ico 1 n, cash k := by
  have := C114_stores hd hR hD hp h1 h2 h3 h4 h hc hm
  rw [C110_objective_is_money (by rw [hd.aux]; exact hR.electric) hm.feasible] at this
  have h2 : 0 ≤ ∑ k ∈ Finset.Ico 1 n, (plan k).escRes := by
    refine Finset.sum_nonneg fun k hk => ?_
    rw [Finset.mem_Ico] at hk
    exact (hm.feasible.posted k hk.1 hk.2).bounds.escRes
  linarith

/-- `steady` with twice the battery, more wind and cheaper import. -/
def Mpc.Samples.improved : MpcIn Unit :=
  { Samples.steady true 1000 with es := ⟨20, 1/2, 10, 10, 9/10, 9/10, 0⟩, generation := fun _ => 8, importCost := fun _ => 90 }

theorem improved_better (hour n : ℕ) : Better (Samples.steady true 1000) Samples.improved hour n := by
  constructor <;> intros <;> norm_num [Samples.improved, Samples.steady]

theorem steady_plannable (hour n : ℕ) : Plannable (Samples.steady true 1000) hour n := by
  constructor <;> intros <;> norm_num [Samples.steady, hpMin]

theorem improved_plannable (hour n : ℕ) : Plannable Samples.improved hour n := by
  constructor <;> intros <;> norm_num [Samples.improved, Samples.steady, hpMin]

/-- Both systems have cheapest plans for a day, and the second costs no more. -/
example : ∃ plan plan', Cheapest (Samples.steady true 1000) euler 5 24 ⟨5, 12, fun _ => 30⟩ plan ∧
    Cheapest Samples.improved euler 5 24 ⟨5, 12, fun _ => 40⟩ plan' ∧
    planCost Samples.improved 5 24 plan' ≤ planCost (Samples.steady true 1000) 5 24 plan := by
  obtain ⟨plan, h⟩ := C111_solvable (S := Samples.steady true 1000) rfl euler_settles euler_linear (steady_plannable 5 24)
    (s := ⟨5, 12, fun _ => 30⟩) (by norm_num) (by norm_num [Samples.steady]) (by norm_num) fun _ _ _ => by norm_num
  obtain ⟨plan', h'⟩ := C111_solvable (S := Samples.improved) rfl euler_settles euler_linear (improved_plannable 5 24)
    (s := ⟨5, 12, fun _ => 40⟩) (by norm_num) (by norm_num [Samples.improved]) (by norm_num) fun _ _ _ => by norm_num
  exact ⟨plan, plan', h, h', C113_better (improved_better 5 24) (steady_plannable 5 24) (improved_plannable 5 24)
    (by norm_num [Samples.improved, Samples.steady])
    (s := ⟨5, 12, fun _ => 30⟩) (s' := ⟨5, 12, fun _ => 40⟩) ⟨rfl, rfl, fun _ _ _ => by norm_num⟩ h.feasible h'⟩

/-- `windyPlan` with a battery of 10 kWh. -/
def Spec.storedPlan (peak : ℚ) : MpcIn Unit :=
  { windyPlan peak with es := ⟨10, 1/2, 5, 5, 9/10, 9/10, 1/100⟩ }

theorem stored_same {peak : ℚ} (hp : peak = FixedOrder.listMax windyRun.heatDemand) :
    SameButStores windyRun (storedPlan peak) :=
  have H := (windy_same hp).toSameButStores
  ⟨H.hp, H.aux, H.exportPrice, H.generation, H.elecDemand, H.heatDemand, H.importCost, H.perf, H.peak⟩

/-- Two hours of the run without stores, and a cheapest plan for the second with a battery and a tank. -/
example : ∃ rs plan r, SameButStores windyRun (storedPlan 30) ∧ PlainRun windyRun ∧
    FixedOrder.runTimesteps windyRun 0 2 = .ok rs ∧ rs[1]? = some r ∧
    Cheapest (storedPlan 30) euler 0 2 ⟨5, 12, fun _ => 30⟩ plan ∧ planSpent (storedPlan 30) 0 2 plan ≤ -r.grid.cashflow := by
  obtain ⟨rs, h⟩ := windy_runs
  have hl : 1 < rs.length := by rw [C27_one_result_per_hour h]; norm_num
  have hp : Plannable (storedPlan 30) 0 2 := by
    constructor <;> intros <;> norm_num [storedPlan, windyPlan, hpMin, samplePlant]
  obtain ⟨plan, hc⟩ := C111_solvable (S := storedPlan 30) rfl euler_settles euler_linear hp
    (s := ⟨5, 12, fun _ => 30⟩) (by norm_num) (by norm_num [storedPlan]) (by norm_num) fun _ _ _ => by norm_num
  have := C114_money (stored_same windy_peak) windy_plain euler_settles hp (by norm_num) (by norm_num [storedPlan])
    (by norm_num) (fun _ _ _ => by norm_num) h (cash := fun _ => rs[1].grid.cashflow)
    (fun k h1 h2 => ⟨1, rs[1], by omega, List.getElem?_eq_getElem hl, rfl⟩) hc
  exact ⟨rs, plan, rs[1], stored_same windy_peak, windy_plain, h, List.getElem?_eq_getElem hl, hc, by simpa using this⟩

/-- And spends no more, but for the weight the objective gives to charging. -/
example : ∃ plan plan', Cheapest (Samples.steady true 1000) euler 5 24 ⟨5, 12, fun _ => 30⟩ plan ∧
    Cheapest Samples.improved euler 5 24 ⟨5, 12, fun _ => 40⟩ plan' ∧
    planSpent Samples.improved 5 24 plan' ≤ planSpent (Samples.steady true 1000) 5 24 plan +
      (∑ k ∈ Finset.Ico 1 24, (Samples.steady true 1000).generation (5 + k)) / 100000 := by
  obtain ⟨plan, h⟩ := C111_solvable (S := Samples.steady true 1000) rfl euler_settles euler_linear (steady_plannable 5 24)
    (s := ⟨5, 12, fun _ => 30⟩) (by norm_num) (by norm_num [Samples.steady]) (by norm_num) fun _ _ _ => by norm_num
  obtain ⟨plan', h'⟩ := C111_solvable (S := Samples.improved) rfl euler_settles euler_linear (improved_plannable 5 24)
    (s := ⟨5, 12, fun _ => 40⟩) (by norm_num) (by norm_num [Samples.improved]) (by norm_num) fun _ _ _ => by norm_num
  exact ⟨plan, plan', h, h', C113_money (improved_better 5 24) (steady_plannable 5 24) (improved_plannable 5 24)
    (by norm_num [Samples.improved, Samples.steady])
    (s := ⟨5, 12, fun _ => 30⟩) (s' := ⟨5, 12, fun _ => 40⟩) ⟨rfl, rfl, fun _ _ _ => by norm_num⟩ h.feasible h'⟩

end Verif
