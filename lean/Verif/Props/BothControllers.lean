import Verif.Spec.BothControllers
import Verif.Lemmas.Ledger
import Verif.Props.MoreGeneration
import Verif.Props.MpcPlan
import Verif.Props.Predictive
import Verif.Props.Completes
import Verif.Props.Demand

/-!
# Without stores planning never costs (C112)
-/

set_option autoImplicit false

namespace Verif
open Mpc Spec
variable {N M : Type}

/-- What a fixed order timestep without stores does, as a point of a plan; surplus left over is exported. -/
def Spec.asPoint (duty used left : ℚ) (r : Results N) : Point :=
  { Samples.zero with
    resEd := used
    impEd := r.grid.importForElecDemand
    exp := r.grid.totalExport + left
    hptrd := r.hp.heatFromResToDemand
    hptid := r.hp.heatFromImportToDemand
    hpStatus := if duty = 0 then 0 else (r.hp.heatFromResToDemand + r.hp.heatFromImportToDemand) / duty
    hptVar := duty
    auxRd := r.aux.resToDemand
    auxD := r.heatDemand.aux
    aux := r.heatDemand.aux + r.aux.resToDemand }

/-- In an hour without stores the fixed order controller does something the predictive one could have planned, at an
objective that is at most the cost reported. -/
theorem step_posted {P : Plant N} {i : StepIn N} (H : StepOk P i) (hn : NoStores P i) {b : Bool}
    {order : List ℤ} (hnd : order.Nodup) (hall : ServesAll b order)
    (hx : (numbers b).resToExport ∈ order ∨ 0 ≤ P.exportPrice) {r : Results N} (h : FixedOrder.step P i b order = .ok r)
    {S : MpcIn M} {t : ℕ} {used : ℚ} (hS : SameInputs P i S t used) (he : S.aux.electric = true)
    (hes : 0 ≤ S.es.capacity ∧ 0 ≤ S.es.chargeMax ∧ 0 ≤ S.es.dischargeMax ∧ 0 ≤ S.es.chargeEff)
    (hmin : hpMin S t ≤ (S.perf t).duty) :
    ∃ p, Posted S t 0 p ∧ p.socEs = 0 ∧ p.soc = 0 ∧ batteryRate S p = 0 ∧ tankRate p = 0 ∧
      objective S t p ≤ -r.grid.cashflow := by
  obtain ⟨ps, q, c, n, hf, I, L, F, hgrid⟩ := FixedOrder.step_ledger H hn hnd h
  obtain ⟨l1, l2, l3, l4, l5, ⟨n1, n2, n3, n4, n5, n6⟩, ⟨z1, z2, z3⟩, -, ⟨m1, m2, m3⟩⟩ := L
  have done : ∀ {k : ℤ} {p : Process}, FixedOrder.keyOf b k = .ok p → k ∈ order → p ∈ ps.reverse :=
    fun hk hm => (FixedOrder.mem_done hf hk).mpr hm
  have u0 := m1 (done (by cases b <;> rfl) hall.1)
  have w0 := m2 (done (by cases b <;> rfl) hall.2)
  have hc := H.cop_pos
  have hd := H.duty_nonneg
  obtain ⟨s1, s2, s3, s4, s5, s6, s7, s8, s9⟩ := hS
  have r0 := I.r0
  have g1 := I.g1
  have hst : (if i.perf.duty = 0 then 0 else (q.hp.heatFromResToDemand + q.hp.heatFromImportToDemand) / i.perf.duty)
      * i.perf.duty = q.hp.heatFromResToDemand + q.hp.heatFromImportToDemand := by
    split_ifs with h0
    · linarith
    · exact div_mul_cancel₀ _ h0
  have hst0 : 0 ≤ (if i.perf.duty = 0 then 0
      else (q.hp.heatFromResToDemand + q.hp.heatFromImportToDemand) / i.perf.duty) := by
    split_ifs
    · exact le_rfl
    · exact div_nonneg (by linarith) hd
  have hst1 : (if i.perf.duty = 0 then 0
      else (q.hp.heatFromResToDemand + q.hp.heatFromImportToDemand) / i.perf.duty) ≤ 1 := by
    split_ifs
    · exact zero_le_one
    · exact div_le_one_of_le₀ (by linarith) hd
  have cc := mul_nonneg hes.2.1 hes.2.2.2
  rw [s6] at hmin
  refine ⟨asPoint i.perf.duty used c.resLeft q, ⟨?_, fun _ => ?_, fun hf => ?_, ?_⟩, rfl, rfl, ?_, ?_, ?_⟩
  · constructor <;> dsimp only [asPoint, Samples.zero] <;> first | exact le_rfl | assumption | linarith
  · constructor <;> dsimp only [asPoint, Samples.zero] <;> (try rw [s2]) <;> (try rw [s3]) <;> (try rw [s4]) <;>
      (try rw [s6]) <;> (try rw [hst]) <;> (try rw [zero_add]) <;> linarith
  · rw [he] at hf; cases hf
  · have hpk := H.heat_le_peak
    constructor <;> dsimp only [asPoint, Samples.zero] <;> (try rw [s6]) <;> (try rw [s9]) <;> linarith
  · simp only [batteryRate, asPoint, Samples.zero]; ring
  · simp only [tankRate, asPoint, Samples.zero]; ring
  · have hea : P.aux.electric = true := by rw [← s7]; exact he
    have e1 : r.grid.cashflow = q.grid.totalExport * P.exportPrice / 1000
        - (q.grid.importForElecDemand + q.hp.heatFromImportToDemand / i.perf.cop + q.heatDemand.aux)
          * i.importPrice / 1000 := by
      rw [hgrid, ← F.importPrice]
      simp only [FixedOrder.totals2, FixedOrder.totals1, hea, if_true, z1, z2, z3, l5]
      ring
    have e2 : 0 ≤ c.resLeft * P.exportPrice := by
      rcases hx with hx | hx
      · rw [m3 (done (by cases b <;> rfl) hx), zero_mul]
      · exact mul_nonneg r0 hx
    rw [e1]
    simp only [objective, auxCost, he, if_true, Point.hpt, asPoint, Samples.zero, s5, s6, s8, hst]
    have e3 : (q.hp.heatFromResToDemand + q.hp.heatFromImportToDemand - q.hp.heatFromResToDemand - 0 - 0) / i.perf.cop
        = q.hp.heatFromImportToDemand / i.perf.cop := by congr 1; ring
    rw [e3]
    linarith

/-- Without stores the first hour of a plan stands alone. -/
theorem cheapest_hour {S : MpcIn M} {D : Dynamics} (hD : Rests D) (he : S.aux.electric = true)
    (hcap : S.es.capacity = 0) {hour n : ℕ} (h2 : 2 ≤ n) {s : Start} {plan : Plan}
    (h : Cheapest S D hour n s plan) (hs : s.socEs = 0) (hm : s.maxCap 1 = 0) :
    (plan 1).esdAux = 0 ∧ ∀ p, Posted S (hour + 1) 0 p → p.socEs = 0 → p.soc = 0 → batteryRate S p = 0 →
      tankRate p = 0 → objective S (hour + 1) (plan 1) ≤ objective S (hour + 1) p := by
  have P := h.feasible.posted 1 le_rfl (by omega)
  have B := P.bounds
  have I := P.ineqs
  have E := P.electric he
  rw [hm] at I
  have c1 : (plan 1).socEs = 0 := le_antisymm (hcap ▸ I.socEs) B.socEs
  have c2 : (plan 1).soc = 0 := le_antisymm I.soc B.soc
  have c3 : (plan 1).tsc = 0 := le_antisymm (by linarith [I.tsc]) B.tsc
  have c4 : (plan 1).tsd = 0 := le_antisymm (by linarith [I.tsd]) B.tsd
  have c5 : batteryRate S (plan 1) = 0 := by
    refine hD n _ _ (fun k hk => ?_) h.feasible.battery 1 le_rfl (by omega)
    rcases Nat.eq_zero_or_pos k with rfl | h1
    · rw [h.feasible.socEs, hs]
    · have Q := h.feasible.posted k h1 hk
      exact le_antisymm (hcap ▸ Q.ineqs.socEs) Q.bounds.socEs
  have c6 : tankRate (plan 1) = 0 := by
    unfold tankRate
    rw [c2, c3, c4]
    ring
  refine ⟨?_, fun p hp e1 e2 e3 e4 => ?_⟩
  · have := I.esd_soc
    have := E.esd
    linarith [B.esdAux, B.esdEd, B.esdHp]
  · have F := feasible_second h.feasible (p := p) (by rw [hm]; exact hp) (by rw [e1, c1]) (by rw [e2, c2])
      (by rw [e3, c5]) (by rw [e4, c6])
    have := h.least _ F
    rw [planCost_second S h2] at this
    linarith

/-- C112 for an hour: without stores and with an electric heater a cheapest plan costs in its hour at most what the
fixed order controller reports for the same hour, if its order leaves no demand unmet, whatever the prices, the order
and the minimum output, on either side of the setpoint. -/
theorem C112_hour {P : Plant N} {i : StepIn N} (H : StepOk P i) (hn : NoStores P i) {b : Bool} {order : List ℤ}
    (hnd : order.Nodup) (hall : ServesAll b order) (hx : (numbers b).resToExport ∈ order ∨ 0 ≤ P.exportPrice)
    {r : Results N} (h : FixedOrder.step P i b order = .ok r) {S : MpcIn M} {hour : ℕ} {used : ℚ}
    (hS : SameInputs P i S (hour + 1) used) (he : S.aux.electric = true) (hes : S.es = P.es)
    (hmin : hpMin S (hour + 1) ≤ (S.perf (hour + 1)).duty) {D : Dynamics} (hD : Rests D) {n : ℕ} (h2 : 2 ≤ n) {s : Start}
    {plan : Plan} (hp : Cheapest S D hour n s plan) (hs : s.socEs = 0) (hm : s.maxCap 1 = 0) :
    spent S (hour + 1) (plan 1) ≤ -r.grid.cashflow := by
  have E := H.es
  obtain ⟨p, hp0, e1, e2, e3, e4, hc⟩ := step_posted H hn hnd hall hx h hS he
    (by rw [hes]; exact ⟨E.capacity_nonneg, E.chargeMax_nonneg, E.dischargeMax_nonneg, E.chargeEff_nonneg⟩) hmin
  have P1 := hp.feasible.posted 1 le_rfl (by omega)
  have h1 := (cheapest_hour hD he (by rw [hes]; exact hn.battery) h2 hp hs
    hm).2 p hp0 e1 e2 e3 e4
  rw [objective_electric he P1] at h1
  have : 0 ≤ (plan 1).escRes / 100000 := div_nonneg P1.bounds.escRes (by norm_num)
  linarith

/-- What the fixed order controller does in an hour of a run without stores could have been planned. -/
theorem run_posted {R : RunIn N} {S : MpcIn M} (hd : SameButStores R S) (hR : PlainRun R)
    (hes : 0 ≤ S.es.capacity ∧ 0 ≤ S.es.chargeMax ∧ 0 ≤ S.es.dischargeMax ∧ 0 ≤ S.es.chargeEff) {first n : ℕ}
    {rs : List (Results N)} (h : FixedOrder.runTimesteps R first n = .ok rs) {i : ℕ} {r : Results N}
    (hr : rs[i]? = some r) :
    ∃ p, Posted S (first + i) 0 p ∧ p.socEs = 0 ∧ p.soc = 0 ∧ batteryRate S p = 0 ∧ tankRate p = 0 ∧
      objective S (first + i) p ≤ -r.grid.cashflow := by
  obtain ⟨H, hs, hen, he, hmin, hna, hnb, ha, hb, hx⟩ := hR
  have heS : S.aux.electric = true := by rw [hd.aux]; exact he
  have hi : i < n := by
    have := (List.getElem?_eq_some_iff.mp hr).1
    rwa [C27_one_result_per_hour h] at this
  obtain ⟨rows, hall⟩ := run_hours H h
  obtain ⟨r', heat, price, row, perf, gen, wnd, pv, elec, r0, hr', hk, hsp, hst⟩ := hall i hi
  obtain rfl : r' = r := Option.some.inj (hr'.symm.trans hr)
  have hn : NoStores (FixedOrder.plant R) (hourIn (first + i) heat price row perf
      (nodesBefore R rs i) (socBefore R rs i)) := ⟨hs.battery, fun s m hh => hs.tank _ s _ m hh⟩
  have used0 : 0 ≤ row.resUsed := by
    have g0 : 0 ≤ gen := by
      have hg := hk.genEq
      unfold FixedOrder.generation FixedOrder.wind at hg
      simp only [List.getElem?_zipWith_eq_some] at hg
      obtain ⟨w, p, ⟨u, d, hu, hda, rfl⟩, hp, rfl⟩ := hg
      have := hen.windUser _ (List.mem_of_getElem? hu)
      have := hen.windData _ (List.mem_of_getElem? hda)
      have := hen.pv _ (List.mem_of_getElem? hp)
      linarith
    have d0 := hen.elecDemand _ (List.mem_of_getElem? hk.elecEq)
    rcases hsp.exclusive with x | x
    · linarith [hsp.generation]
    · linarith [hsp.demand]
  have hS : SameInputs (FixedOrder.plant R) (hourIn (first + i) heat price row perf
      (nodesBefore R rs i) (socBefore R rs i)) S (first + i) row.resUsed :=
    { used_nonneg := used0
      generation := (hd.generation _ _ hk.genEq).trans hsp.generation.symm
      elecDemand := (hd.elecDemand _ _ hk.elecEq).trans hsp.demand.symm
      heatDemand := hd.heatDemand _ _ hk.heatEq
      importCost := hd.importCost _ _ hk.priceEq
      perf := hd.perf _ _ hk.perfEq
      aux := hd.aux
      exportPrice := hd.exportPrice
      peak := hd.peak }
  have hmn : hpMin S (first + i) ≤ (S.perf (first + i)).duty := by
    unfold hpMin
    rw [hd.perf _ _ hk.perfEq, hd.hp]
    have := mul_le_mul_of_nonneg_left hmin (H.duty_nonneg _ (List.mem_of_getElem? hk.perfEq))
    rw [div_div, div_le_iff₀ (by norm_num)]
    linarith
  have : r'.grid.cashflow = r0.grid.cashflow := by rw [hk.resultEq]; rfl
  rw [this]
  have hstep := hk.stepEq
  rcases lt_or_ge R.setpoint price with hp | hp
  · rw [if_pos hp, decide_eq_false (not_le.mpr hp)] at hstep
    exact step_posted hst hn hna ha (hx.symm.imp (fun x => x.1) fun x => x) hstep hS heS hes hmn
  · rw [if_neg (not_lt.mpr hp), decide_eq_true hp] at hstep
    exact step_posted hst hn hnb hb (hx.symm.imp (fun x => x.2) fun x => x) hstep hS heS hes hmn

/-- C112 for a run: in every hour the predictive controller solves its reported cash flow is at least that of the fixed
order controller for the same hour. -/
theorem C112_run {R : RunIn N} {S : MpcIn M} (hd : SameData R S) (hR : PlainRun R)
    {D : Dynamics} (hD : Rests D) {first n : ℕ} {caps : List ℚ} (hc : ∀ c ∈ caps, c = 0)
    {g : ℕ → ℕ → Except PyErr Point} (ho : OptimisesFor S D first caps g) {rs : List (Results N)}
    (h : FixedOrder.runTimesteps R first n = .ok rs) {i : ℕ} {r : Results N} {m : MpcResults M} (hr : rs[i]? = some r)
    (hm : FromOptimiser S g first n i m) : r.grid.cashflow ≤ m.grid.cashflow := by
  have heS : S.aux.electric = true := by rw [hd.aux]; exact hR.electric
  obtain ⟨ms, hms, hmi, hn2, h1, h8⟩ := hm
  obtain ⟨_, _, _, _, hshape⟩ := run_shape hn2 hms
  obtain ⟨hour, a, p, prev, f, nodes, ht, hgp, -, -, hrep⟩ := (hshape i m h1 hmi).1 (Or.inl h8)
  have hobj : objective S (first + i) p = -m.grid.cashflow - p.esdAux * S.importCost (first + i) / 1000
      + p.escRes / 100000 := by
    rw [hrep]
    unfold objective auxCost
    dsimp only [report, gridReport, resReport, hpReport]
    rw [if_pos heS, if_pos heS, if_pos heS]
    ring
  have E := hR.ok.es
  obtain ⟨p', hp', e1, e2, e3, e4, hle⟩ := run_posted hd.toSameButStores hR
    (by rw [hd.es]; exact ⟨E.capacity_nonneg, E.chargeMax_nonneg, E.dischargeMax_nonneg, E.chargeEff_nonneg⟩) h hr
  obtain ⟨k, s, plan, h2, hch, rfl, s0, s1, hcap⟩ := ho hour a p (by omega) hgp
  rw [ht] at hobj hp' hle
  have hes : S.es.capacity = 0 := by rw [hd.es]; exact hR.stores.battery
  have hss : s.socEs = 0 := le_antisymm (hes ▸ s1) s0
  have hmc : s.maxCap 1 = 0 := hc _ (List.mem_of_getElem? (hcap 1 (by omega)))
  obtain ⟨haux, hmin⟩ := cheapest_hour hD heS hes h2 hch hss hmc
  have hcost := hmin p' hp' e1 e2 e3 e4
  rw [haux] at hobj
  have : 0 ≤ (plan 1).escRes / 100000 :=
    div_nonneg (hch.feasible.posted 1 le_rfl (by omega)).bounds.escRes (by norm_num)
  linarith

/-- C112 over the hours solved: all but the first, in a run that ends before the last hour of the year. -/
theorem C112_bill {R : RunIn N} {S : MpcIn M} (hd : SameData R S) (hR : PlainRun R) {D : Dynamics} (hD : Rests D)
    {first n : ℕ} (hn : 2 ≤ n) (hy : first + n ≤ 8759) {caps : List ℚ} (hc : ∀ c ∈ caps, c = 0)
    {g : ℕ → ℕ → Except PyErr Point} (ho : OptimisesFor S D first caps g) {rs : List (Results N)}
    {ms : List (MpcResults M)} (h : FixedOrder.runTimesteps R first n = .ok rs) (hm : movingHorizon S g first n = .ok ms) :
    ((rs.drop 1).map (·.grid.cashflow)).sum ≤ ((ms.drop 1).map (·.grid.cashflow)).sum := by
  have l1 := C27_one_result_per_hour h
  have l2 := C47_count_partial hn hm
  refine sum_le_of_forall₂ (R := fun r m => r.grid.cashflow ≤ m.grid.cashflow) _ _
    (List.forall₂_iff_get.mpr ⟨by rw [List.length_drop, List.length_drop, l1, l2], fun k h1 h2 => ?_⟩) fun _ _ x => x
  rw [List.length_drop] at h1 h2
  simp only [List.get_eq_getElem, List.getElem_drop]
  exact C112_run hd hR hD hc ho h (List.getElem?_eq_getElem (by omega))
    ⟨ms, hm, List.getElem?_eq_getElem (by omega), hn, by omega, by omega⟩

/-! ### From the workbook -/

/-- Filling a list of zeros with zeros. -/
theorem fill_zero {cap : ℕ → Except PyErr ℚ} {first : ℕ} (hc : ∀ t, cap t = .ok 0) :
    ∀ (k t : ℕ) (xs ys : List ℚ), (∀ x ∈ xs, x = 0) → fill cap first k t xs = .ok ys → ∀ y ∈ ys, y = 0
  | 0, _, xs, ys, hx, h => by
    cases Except.ok.inj h
    exact hx
  | k + 1, t, xs, ys, hx, h => by
    unfold fill at h
    rw [hc t] at h
    split_ifs at h
    dsimp only [store] at h
    by_cases hl : t - first < xs.length
    · rw [if_pos hl] at h
      refine fill_zero hc k (t + 1) _ ys (fun x hm => ?_) h
      exact (List.mem_or_eq_of_mem_set hm).elim (hx x) id
    · rw [if_neg hl] at h
      cases h

open Programme Simulation in
/-- What both controllers take from a workbook. -/
theorem both_inputs {L : Libs} {wb : Pandas.Workbook} {size : ℤ × ℤ} {R : RunIn (List ℚ)} {first n : ℕ}
    {S : MpcIn (List ℚ)} {caps : List ℚ} (hR : runInputs L wb size = .ok R)
    (hS : mpcInputs L wb size first n = .ok (S, caps)) : 
    SameData R S ∧ (R.tank.capacity = 0 → ∀ c ∈ caps, c = 0) := by
  unfold runInputs at hR
  unfold mpcInputs at hS
  simp only [FixedOrder.except_bind_ok] at hR hS
  obtain ⟨c, hc, hR⟩ := hR
  obtain ⟨c', hc', hS⟩ := hS
  cases Except.ok.inj (hc.symm.trans hc')
  unfold fixedOrderIn at hR
  unfold mpcIn at hS
  simp only [FixedOrder.except_bind_ok, FixedOrder.except_pure_ok] at hR hS
  obtain ⟨o, ho, ⟨d, f⟩, hd, v1, h1, x1, n1, v2, h2, x2, n2, v3, h3, x3, n3, v4, h4, x4, n4,
    v5, h5, x5, n5, v6, h6, x6, n6, price, hprice, ep, hep, sp, hsp, u, hu, da, hda, pv, hpv, perf, hperf,
    rfl⟩ := hR
  obtain ⟨o', ho', hz, hhz, ⟨d', f'⟩, hd', w1, i1, y1, m1, w2, i2, y2, m2, w3, i3, y3, m3, w4, i4, y4, m4,
    w5, i5, y5, m5, w6, i6, y6, m6, price', hprice', ep', hep', u', hu', da', hda', pv', hpv', perf', hperf',
    mc, hmc, rows, hrows, hS⟩ := hS
  obtain ⟨rfl, rfl⟩ := Prod.mk.inj hS
  cases Except.ok.inj (ho.symm.trans ho')
  obtain ⟨rfl, rfl⟩ := Prod.mk.inj (Except.ok.inj (hd.symm.trans hd'))
  cases Except.ok.inj (h3.symm.trans i3)
  cases Except.ok.inj (n3.symm.trans m3)
  cases Except.ok.inj (h4.symm.trans i4)
  cases Except.ok.inj (n4.symm.trans m4)
  cases Except.ok.inj (hprice.symm.trans hprice')
  cases Except.ok.inj (hep.symm.trans hep')
  cases Except.ok.inj (hu.symm.trans hu')
  cases Except.ok.inj (hda.symm.trans hda')
  cases Except.ok.inj (hpv.symm.trans hpv')
  cases Except.ok.inj (hperf.symm.trans hperf')
  have get : ∀ {α : Type} (l : List α) (t : ℕ) (x z : α), l[t]? = some x → l.getD t z = x := by
    intro α l t x z h
    rw [List.getD_eq_getElem?_getD, h, Option.getD_some]
  refine ⟨?_, fun h0 => ?_⟩
  swap
  · have h0 : o.tank.capacity = 0 := h0
    refine fill_zero (fun t => ?_) _ _ _ _ (fun x hx => List.eq_of_mem_replicate hx) hmc
    exact C32_no_energy h0 _ _ _ (List.length_replicate ..)
  exact
    { hp := rfl, es := rfl, aux := rfl, exportPrice := rfl, peak := rfl
      generation := fun t x hx => get _ t x 0 hx
      elecDemand := fun t x hx => get _ t x 0 hx
      heatDemand := fun t x hx => get _ t x 0 hx
      importCost := fun t x hx => get _ t x 0 hx
      perf := fun t x hx => get _ t x ⟨0, 0⟩ hx }

open Programme Simulation in
/-- C112: both controllers take the same data from a workbook. -/
theorem C112_same_data {L : Libs} {wb : Pandas.Workbook} {size : ℤ × ℤ} {R : RunIn (List ℚ)} {first n : ℕ}
    {S : MpcIn (List ℚ)} {caps : List ℚ} (hR : runInputs L wb size = .ok R)
    (hS : mpcInputs L wb size first n = .ok (S, caps)) : SameData R S :=
  (both_inputs hR hS).1

open Programme Simulation in
/-- C112 for a workbook: a study without stores, run with either controller. -/
theorem C112_workbook {L : Libs} {gekko : Gekko} {wb : Pandas.Workbook} {size : ℤ × ℤ} {D : Dynamics} (hD : Rests D)
    {rs : List (Results (List ℚ))} {ms : List (MpcResults (List ℚ))} (h : simulate L wb size = .ok rs)
    (hm : predict L gekko wb size = .ok ms) (hR : ∀ R, runInputs L wb size = .ok R → PlainRun R)
    (ho : ∀ S caps (first n : ℕ), Holds wb "Controller" 'G' 5 first → Holds wb "Controller" 'G' 6 n →
      mpcInputs L wb size first n = .ok (S, caps) → OptimisesFor S D first caps (gekko S caps))
    (hn : ∀ n : ℕ, Holds wb "Controller" 'G' 6 n → 2 ≤ n)
    (hy : ∀ first n : ℕ, Holds wb "Controller" 'G' 5 first → Holds wb "Controller" 'G' 6 n → first + n ≤ 8759) :
    ((rs.drop 1).map (·.grid.cashflow)).sum ≤ ((ms.drop 1).map (·.grid.cashflow)).sum := by
  obtain ⟨R, first, n, h1, h2, h3, h4⟩ := simulate_ok.mp h
  obtain ⟨first', n', S, caps, k1, k2, k3, k4⟩ := predict_ok.mp hm
  have e1 : first = first' := by exact_mod_cast Sample.holds_inj h2 k2
  have e2 : n = n' := by exact_mod_cast Sample.holds_inj h3 k3
  subst e1 e2
  obtain ⟨hd, hc⟩ := both_inputs h1 k1
  exact C112_bill hd (hR R h1) hD (hn n h3) (hy first n h2 h3) (hc (hR R h1).stores.tankCapacity) (ho S caps first n h2 h3 k1) h4 k4

/-! ### A year in which planning pays -/

theorem euler_rests : Rests euler := by
  intro n x v hx h k h1 hk
  obtain ⟨j, rfl⟩ : ∃ j, k = j + 1 := ⟨k - 1, by omega⟩
  have := h j hk
  rw [hx _ hk, hx j (by omega)] at this
  linarith

/-- The sample year without stores, with 20 kWh of wind in every hour and exports paid 400 a MWh. -/
def Spec.windyRun : RunIn Unit := { bareRun with windUser := List.replicate 8760 20, exportPrice := 400 }

/-- The same year for the predictive controller. -/
def Spec.windyPlan (peak : ℚ) : MpcIn Unit where
  hp := samplePlant.hp
  es := { sampleBattery with capacity := 0 }
  aux := samplePlant.aux
  tank := ⟨0, (), fun _ _ _ _ => .ok 0, fun _ _ _ _ _ _ => .ok ()⟩
  exportPrice := 400
  horizon := 24
  generation _ := 21
  wind _ := 20
  pv _ := 1
  elecDemand _ := 8
  heatDemand _ := 30
  importCost _ := 100
  perf _ := ⟨3, 12⟩
  peakHeatDemand := peak

theorem windy_same {peak : ℚ} (hp : peak = FixedOrder.listMax windyRun.heatDemand) :
    SameData windyRun (windyPlan peak) where
  hp := rfl
  es := rfl
  aux := rfl
  exportPrice := rfl
  generation := fun t x h => by
    unfold FixedOrder.generation FixedOrder.wind at h
    simp only [List.getElem?_zipWith_eq_some] at h
    obtain ⟨w, p, ⟨u, d, hu, hd, rfl⟩, hp, rfl⟩ := h
    rw [List.eq_of_mem_replicate (List.mem_of_getElem? hu), List.eq_of_mem_replicate (List.mem_of_getElem? hd),
      List.eq_of_mem_replicate (List.mem_of_getElem? hp)]
    norm_num [windyPlan]
  elecDemand := fun _ _ h => (List.eq_of_mem_replicate (List.mem_of_getElem? h)).symm
  heatDemand := fun _ _ h => (List.eq_of_mem_replicate (List.mem_of_getElem? h)).symm
  importCost := fun _ _ h => (List.eq_of_mem_replicate (List.mem_of_getElem? h)).symm
  perf := fun _ _ h => (List.eq_of_mem_replicate (List.mem_of_getElem? h)).symm
  peak := hp

theorem windy_plain : PlainRun windyRun where
  ok :=
    { es := bareRun_ok.es, heat_nonneg := bareRun_ok.heat_nonneg, cop_pos := bareRun_ok.cop_pos
      duty_nonneg := bareRun_ok.duty_nonneg, zero_cap := bareRun_ok.zero_cap, tank_nonneg := bareRun_ok.tank_nonneg }
  stores := ⟨rfl, rfl, bareRun_noStores.tank⟩
  energy :=
    { windUser := fun x h => by rw [List.eq_of_mem_replicate h]; norm_num
      windData := fun x h => by rw [List.eq_of_mem_replicate h]
      pv := fun x h => by rw [List.eq_of_mem_replicate h]; norm_num
      elecDemand := fun x h => by rw [List.eq_of_mem_replicate h]; norm_num }
  electric := rfl
  minimum := show (20 : ℚ) * 60 ≤ 6000 by norm_num
  above_nodup := sampleRun_orders.above_nodup
  below_nodup := sampleRun_orders.below_nodup
  above := show ServesAll false [1, 2, 3, 4, 5, 6, 7, 8, 9, 10, 11, 12, 13] from ⟨by decide, by decide⟩
  below := show ServesAll true [1, 2, 3, 4, 5, 6, 7, 8, 9, 10, 11, 12, 13, 14, 15] from ⟨by decide, by decide⟩
  exports := Or.inl (show (0 : ℚ) ≤ 400 by norm_num)

/-- Sell all generation and buy for the demand, the heat pump and the heater. -/
def Mpc.Samples.sell : Plan := fun _ =>
  { Samples.zero with impEd := 8, exp := 21, hptid := 12, hpStatus := 1, hptVar := 12, auxD := 18, aux := 18 }

theorem sell_cheapest {peak : ℚ} (hp : 30 ≤ peak) (hour n : ℕ) :
    Cheapest (windyPlan peak) euler hour n Samples.empty Samples.sell := by
  refine ⟨⟨rfl, rfl, fun k _ _ => ⟨?_, fun _ => ?_, fun h => (by cases h), ?_⟩, fun k _ => ?_, fun k _ => ?_⟩, ?_⟩
  · constructor <;> norm_num [Samples.sell, Samples.zero]
  · constructor <;> norm_num [Samples.sell, Samples.zero, windyPlan, samplePlant]
  · constructor <;>
      (norm_num [Samples.sell, Samples.zero, Samples.empty, hpMin, windyPlan, samplePlant, sampleBattery]; try linarith)
  · norm_num [Samples.sell, Samples.zero, windyPlan, batteryRate]
  · norm_num [Samples.sell, Samples.zero, tankRate]
  · intro q hq
    refine Finset.sum_le_sum fun k hk => ?_
    rw [Finset.mem_Ico] at hk
    have P := hq.posted k hk.1 hk.2
    have B := P.bounds
    have E := P.electric rfl
    have I := P.ineqs
    have h0 : objective (windyPlan peak) (hour + k) (Samples.sell k) = -27 / 5 := by
      norm_num [objective, Point.hpt, auxCost, Samples.sell, Samples.zero, windyPlan, samplePlant]
    rw [h0, objective_electric rfl P]
    have e1 := E.ed
    have e2 := E.hd
    have e3 := E.res
    have e4 := E.hptesd
    have e5 := E.esd
    have e6 := E.esc
    have e7 := E.tsc
    have e8 := E.hpt
    have i1 := I.esc
    have i2 := I.esd
    have i3 := I.soc
    have i4 := I.tsd
    have i5 := I.tsc
    have i6 := I.socEs
    have i7 := I.esd_soc
    have i8 : (q k).hpStatus * (q k).hptVar ≤ 12 :=
      (mul_le_of_le_one_left B.hptVar B.hpStatus_le).trans I.duty
    simp only [windyPlan, samplePlant, sampleBattery, Samples.empty] at e1 e2 e3 e4 e8 i1 i2 i3 i4 i5 i6 i7
    unfold spent bought burnt
    simp only [windyPlan, samplePlant, if_true]
    have := B.esdEd; have := B.esdHp; have := B.esdAux; have := B.escRes; have := B.escImp
    have := B.tsc; have := B.tsd; have := B.soc; have := B.socEs
    have := B.hptrs; have := B.hptis; have := B.auxRs; have := B.auxS
    have := B.auxD; have := B.auxRd; have := B.exp; have := B.hptid; have := B.impEd; have := B.hptesd
    have := B.resEd; have := B.hptrd
    linarith

/-- An optimiser that finds it. -/
def Mpc.Samples.seller (hour _ : ℕ) : Except PyErr Point :=
  if hour + 24 ≤ 8760 then .ok (Samples.sell 1) else .error .other

theorem seller_optimises {peak : ℚ} (hp : 30 ≤ peak) :
    OptimisesFor (windyPlan peak) euler 0 (List.replicate 8760 0) Samples.seller := by
  intro hour a p _ h
  unfold Samples.seller at h
  split_ifs at h with hh
  refine ⟨24, Samples.empty, Samples.sell, by norm_num, sell_cheapest hp hour 24, (Except.ok.inj h).symm, le_rfl, le_rfl,
    fun k hk => ?_⟩
  rw [List.getElem?_replicate, if_pos (by omega)]
  rfl

/-- In the second hour the fixed order controller heats with the wind and pays 90 pence; the plan earns 5.40. -/
example : (∃ r, FixedOrder.step { barePlant with exportPrice := 400 } { sampleStep with soc := 0, surplus := 13 } false
      [1, 2, 3, 4, 5, 6, 7, 8, 9, 10, 11, 12, 13] = .ok r ∧ r.grid.cashflow = -9 / 10) ∧
    ∃ r, FromOptimiser (windyPlan 30) Samples.seller 0 2 1 r ∧ r.grid.cashflow = 27 / 5 :=
  ⟨exists_of_checks (by decide +kernel), second (by decide +kernel)⟩

theorem windy_peak : (30 : ℚ) = FixedOrder.listMax windyRun.heatDemand :=
  le_antisymm (le_listMax (l := List.replicate 8760 30) (List.mem_replicate.mpr ⟨by norm_num, rfl⟩))
    (listMax_le (List.ne_nil_of_length_pos (l := List.replicate 8760 30) (by rw [List.length_replicate]; norm_num))
      fun x hx => (List.eq_of_mem_replicate hx).le)

theorem windy_runs : ∃ rs, FixedOrder.runTimesteps windyRun 0 2 = .ok rs :=
  C27_accepts_span_inside_year (S := windyRun)
    ⟨List.length_replicate, sampleRun_fullYear.windData, sampleRun_fullYear.pv, sampleRun_fullYear.elecDemand,
      sampleRun_fullYear.heatDemand, sampleRun_fullYear.importPrice, sampleRun_fullYear.perf⟩
    ⟨show ∀ n ∈ bareRun.orderAbove, 1 ≤ n ∧ n ≤ 13 by decide,
      show ∀ n ∈ bareRun.orderBelow, 1 ≤ n ∧ n ≤ 15 by decide⟩
    (fun _ _ _ => ⟨_, rfl⟩) (fun _ _ _ _ _ => ⟨_, rfl⟩) (by omega)

/-- The hypotheses of `C112_run` and `C112_bill` hold together. -/
example : ∃ rs ms, SameData windyRun (windyPlan 30) ∧ PlainRun windyRun ∧ Rests euler ∧
    OptimisesFor (windyPlan 30) euler 0 (List.replicate 8760 0) Samples.seller ∧
    FixedOrder.runTimesteps windyRun 0 2 = .ok rs ∧ movingHorizon (windyPlan 30) Samples.seller 0 2 = .ok ms ∧
    ((rs.drop 1).map (·.grid.cashflow)).sum ≤ ((ms.drop 1).map (·.grid.cashflow)).sum := by
  obtain ⟨rs, h⟩ := windy_runs
  obtain ⟨r, ⟨ms, hm, -, -, -, -⟩, -⟩ := second (S := windyPlan 30) (g := Samples.seller) (P := fun _ => True) (by decide +kernel)
  exact ⟨rs, ms, windy_same windy_peak, windy_plain, euler_rests, seller_optimises le_rfl, h, hm,
    C112_bill (windy_same windy_peak) windy_plain euler_rests le_rfl (by norm_num) (fun c hc => List.eq_of_mem_replicate hc)
      (seller_optimises le_rfl) h hm⟩

/-- An order that leaves demand unmet can cost less: with no process at all an hour with 6 kWh of deficit is free. -/
example : ∃ r, FixedOrder.step barePlant { sampleStep2 with soc := 0 } false [] = .ok r ∧ r.grid.cashflow = 0 :=
  exists_of_checks (by decide +kernel)

end Verif
