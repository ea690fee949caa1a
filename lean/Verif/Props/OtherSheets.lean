import Verif.Spec.OtherSheets
import Verif.Spec.Compare
import Verif.Props.Depends
import Verif.Props.Prices
import Verif.Props.MoreGeneration
import Verif.Props.Programme
import Verif.Props.Predictive

/-!
# Workbooks that differ in prices (C104) or generation (C102) only
-/

set_option autoImplicit false

namespace Verif
open Spec Pandas Workbook InputReader Simulation HpConfig FixedOrder Programme

variable {L : Libs} {wb wb' : Pandas.Workbook} {size : ℤ × ℤ}

theorem sheetOf_same {sheets : List String} (h : SameBut sheets wb wb') {sheet : String} (hs : sheet ∉ sheets)
    {f f' : DataFrame} (hf : sheetOf wb sheet = .ok f) (hf' : sheetOf wb' sheet = .ok f') : f' = f := by
  unfold sheetOf at hf hf'
  rw [h sheet hs] at hf'
  exact Except.ok.inj (hf'.symm.trans hf)

/-- The containers read from two workbooks that differ in prices, fuels, panels and turbines only. -/
theorem base_but (h : SameBut ["Grid", "Aux heat", "PV inputs", "Wind inputs"] wb wb') {b b' : Container}
    (hb : readInputs wb = .ok b) (hb' : readInputs wb' = .ok b') :
    b' = { b with pvLocation := b'.pvLocation, pvSpec := b'.pvSpec, windDatabase := b'.windDatabase,
                  windUser := b'.windUser, powerCurve := b'.powerCurve, grid := b'.grid, auxFuel := b'.auxFuel,
                  auxEfficiency := b'.auxEfficiency, fuelInfo := b'.fuelInfo } ∧
    (wb' "PV inputs" = wb "PV inputs" → b'.pvLocation = b.pvLocation ∧ b'.pvSpec = b.pvSpec) ∧
    (wb' "Wind inputs" = wb "Wind inputs" → b'.windDatabase = b.windDatabase ∧ b'.windUser = b.windUser ∧
      b'.powerCurve = b.powerCurve) ∧
    (wb' "Grid" = wb "Grid" → b'.grid = b.grid) ∧
    (wb' "Aux heat" = wb "Aux heat" → b'.auxFuel = b.auxFuel ∧ b'.auxEfficiency = b.auxEfficiency ∧
      b'.fuelInfo = b.fuelInfo) := by
  unfold readInputs at hb hb'
  simp only [except_bind_ok, except_pure_ok] at hb hb'
  obtain ⟨f1, h1, _, p1, f2, h2, _, p2, f3, h3, _, p3, f4, h4, ⟨_, _⟩, p4, f5, h5, ⟨_, _⟩, p5, f6, h6, _, p6,
    _, p7, f8, h8, _, p8, _, p9, _, p10, f11, h11, ⟨_, _⟩, p11, f12, h12, _, p12, f13, h13, _, p13,
    f14, h14, ⟨_, _, _⟩, p14, f15, h15, _, p15, f16, h16, _, p16, rfl⟩ := hb
  obtain ⟨f1', h1', _, p1', f2', h2', _, p2', f3', h3', _, p3', f4', h4', ⟨_, _⟩, p4', f5', h5', ⟨_, _⟩, p5',
    f6', h6', _, p6', _, p7', f8', h8', _, p8', _, p9', _, p10', f11', h11', ⟨_, _⟩, p11', f12', h12', _, p12',
    f13', h13', _, p13', f14', h14', ⟨_, _, _⟩, p14', f15', h15', _, p15', f16', h16', _, p16', rfl⟩ := hb'
  cases sheetOf_same h (by decide) h1 h1'
  cases sheetOf_same h (by decide) h2 h2'
  cases sheetOf_same h (by decide) h3 h3'
  cases sheetOf_same h (by decide) h4 h4'
  cases sheetOf_same h (by decide) h5 h5'
  cases sheetOf_same h (by decide) h11 h11'
  cases sheetOf_same h (by decide) h12 h12'
  cases sheetOf_same h (by decide) h15 h15'
  cases sheetOf_same h (by decide) h16 h16'
  cases Except.ok.inj (p1.symm.trans p1')
  cases Except.ok.inj (p2.symm.trans p2')
  cases Except.ok.inj (p3.symm.trans p3')
  cases Except.ok.inj (p4.symm.trans p4')
  cases Except.ok.inj (p5.symm.trans p5')
  cases Except.ok.inj (p11.symm.trans p11')
  cases Except.ok.inj (p12.symm.trans p12')
  cases Except.ok.inj (p15.symm.trans p15')
  cases Except.ok.inj (p16.symm.trans p16')
  refine ⟨rfl, fun e => ?_, fun e => ?_, fun e => ?_, fun e => ?_⟩
  · have : f6' = f6 := by
      unfold sheetOf at h6 h6'
      rw [e] at h6'
      exact Except.ok.inj (h6'.symm.trans h6)
    subst this
    exact ⟨Except.ok.inj (p6'.symm.trans p6), Except.ok.inj (p7'.symm.trans p7)⟩
  · have : f8' = f8 := by
      unfold sheetOf at h8 h8'
      rw [e] at h8'
      exact Except.ok.inj (h8'.symm.trans h8)
    subst this
    exact ⟨Except.ok.inj (p8'.symm.trans p8), Except.ok.inj (p9'.symm.trans p9),
      Except.ok.inj (p10'.symm.trans p10)⟩
  · have : f13' = f13 := by
      unfold sheetOf at h13 h13'
      rw [e] at h13'
      exact Except.ok.inj (h13'.symm.trans h13)
    subst this
    exact Except.ok.inj (p13'.symm.trans p13)
  · have : f14' = f14 := by
      unfold sheetOf at h14 h14'
      rw [e] at h14'
      exact Except.ok.inj (h14'.symm.trans h14)
    subst this
    cases Except.ok.inj (p14'.symm.trans p14)
    exact ⟨rfl, rfl, rfl⟩

/-- Two workbooks that differ on the sheets of the grid and the heater only: the runs differ in prices and in the
heater. -/
theorem start_prices (h : SameBut ["Grid", "Aux heat"] wb wb') {S S' : RunIn (List ℚ)}
    (hS : runInputs L wb size = .ok S) (hS' : runInputs L wb' size = .ok S') :
    S' = { S with exportPrice := S'.exportPrice, importPrice := S'.importPrice, aux := S'.aux } := by
  unfold runInputs at hS hS'
  simp only [except_bind_ok] at hS hS'
  obtain ⟨c, hc, hS⟩ := hS
  obtain ⟨c', hc', hS'⟩ := hS'
  obtain ⟨b, hr, hs⟩ := containerOf_ok hc
  obtain ⟨b', hr', hs'⟩ := containerOf_ok hc'
  obtain ⟨e, e1, e2, -, -⟩ := base_but (wb := wb) (wb' := wb') (fun s hn => h s fun hm => hn (by
    simp only [List.mem_cons, List.not_mem_nil, or_false] at hm ⊢
    tauto)) hr hr'
  obtain ⟨q1, q2⟩ := e1 (h _ (by decide))
  obtain ⟨q3, q4, q5⟩ := e2 (h _ (by decide))
  rw [q1, q2, q3, q4, q5] at e
  obtain ⟨x1, x2, x3, x4, hb'⟩ : ∃ x1 x2 x3 x4, b' =
      { b with grid := x1, auxFuel := x2, auxEfficiency := x3, fuelInfo := x4 } := ⟨_, _, _, _, e⟩
  clear e e1 e2 q1 q2 q3 q4 q5 hr hr' hc hc'
  subst hb'
  obtain ⟨cap, v1, v2, v3, v4, v5, t, y1, y2, y3, y4, y5, y6, y7, rfl⟩ := resizeContainer_ok hs
  obtain ⟨cap', v1', v2', v3', v4', v5', t', y1', y2', y3', y4', y5', y6', y7', rfl⟩ := resizeContainer_ok hs'
  cases Except.ok.inj (y1.symm.trans y1')
  cases Except.ok.inj (y2.symm.trans y2')
  cases Except.ok.inj (y3.symm.trans y3')
  cases Except.ok.inj (y4.symm.trans y4')
  cases Except.ok.inj (y5.symm.trans y5')
  cases Except.ok.inj (y6.symm.trans y6')
  cases Except.ok.inj (y7.symm.trans y7')
  unfold fixedOrderIn at hS hS'
  simp only [except_bind_ok, except_pure_ok] at hS hS'
  obtain ⟨o, ho, ⟨d, f⟩, hd, v1, h1, x1, n1, v2, h2, x2, n2, v3, h3, x3, n3, v4, h4, x4, n4,
    v5, h5, x5, n5, v6, h6, x6, n6, price, hprice, ep, hep, sp, hsp, u, hu, da, hda, pv, hpv, perf, hperf,
    rfl⟩ := hS
  obtain ⟨o', ho', ⟨d', f'⟩, hd', v1', h1', x1', n1', v2', h2', x2', n2', v3', h3', x3', n3', v4', h4', x4', n4',
    v5', h5', x5', n5', v6', h6', x6', n6', price', hprice', ep', hep', sp', hsp', u', hu', da', hda', pv', hpv',
    perf', hperf', rfl⟩ := hS'
  cases Except.ok.inj (hd.symm.trans hd')
  cases Except.ok.inj (h1.symm.trans h1')
  cases Except.ok.inj (n1.symm.trans n1')
  cases Except.ok.inj (h2.symm.trans h2')
  cases Except.ok.inj (n2.symm.trans n2')
  cases Except.ok.inj (h3.symm.trans h3')
  cases Except.ok.inj (n3.symm.trans n3')
  cases Except.ok.inj (h4.symm.trans h4')
  cases Except.ok.inj (n4.symm.trans n4')
  cases Except.ok.inj (h5.symm.trans h5')
  cases Except.ok.inj (n5.symm.trans n5')
  cases Except.ok.inj (h6.symm.trans h6')
  cases Except.ok.inj (n6.symm.trans n6')
  cases Except.ok.inj (hsp.symm.trans hsp')
  unfold init at ho ho'
  simp only [except_bind_ok, except_pure_ok] at ho ho'
  obtain ⟨⟨ud, curve⟩, k1, w, k2, m1, a1, m2, a2, m3, a3, m4, a4, m5, a5, dd, k3, p1, b1, p2, b2, p3, b3,
    p4, b4, pd, k4, pvm, k5, airs, k6, air, k7, ti, k8, tank, k9, bs, k10, args, k11, hpo, k12, mr, k13,
    mo, k14, bat, k15, ax, k16, gr, k17, rfl⟩ := ho
  obtain ⟨⟨ud', curve'⟩, k1', w', k2', m1', a1', m2', a2', m3', a3', m4', a4', m5', a5', dd', k3', p1', b1', p2',
    b2', p3', b3', p4', b4', pd', k4', pvm', k5', airs', k6', air', k7', ti', k8', tank', k9', bs', k10', args',
    k11', hpo', k12', mr', k13', mo', k14', bat', k15', ax', k16', gr', k17', rfl⟩ := ho'
  cases Except.ok.inj (k1.symm.trans k1')
  cases Except.ok.inj (k2.symm.trans k2')
  cases Except.ok.inj (a1.symm.trans a1')
  cases Except.ok.inj (a2.symm.trans a2')
  cases Except.ok.inj (a3.symm.trans a3')
  cases Except.ok.inj (a4.symm.trans a4')
  cases Except.ok.inj (a5.symm.trans a5')
  cases Except.ok.inj (k3.symm.trans k3')
  cases Except.ok.inj (b1.symm.trans b1')
  cases Except.ok.inj (b2.symm.trans b2')
  cases Except.ok.inj (b3.symm.trans b3')
  cases Except.ok.inj (b4.symm.trans b4')
  cases Except.ok.inj (k4.symm.trans k4')
  cases Except.ok.inj (k5.symm.trans k5')
  cases Except.ok.inj (k6.symm.trans k6')
  cases Except.ok.inj (k7.symm.trans k7')
  cases Except.ok.inj (k8.symm.trans k8')
  cases Except.ok.inj (k9.symm.trans k9')
  cases Except.ok.inj (k10.symm.trans k10')
  cases Except.ok.inj (k11.symm.trans k11')
  cases Except.ok.inj (k12.symm.trans k12')
  cases Except.ok.inj (k13.symm.trans k13')
  cases Except.ok.inj (k14.symm.trans k14')
  cases Except.ok.inj (k15.symm.trans k15')
  cases Except.ok.inj (hu.symm.trans hu')
  cases Except.ok.inj (hda.symm.trans hda')
  cases Except.ok.inj (hpv.symm.trans hpv')
  cases Except.ok.inj (hperf.symm.trans hperf')
  rfl

/-- Two workbooks that differ on the sheets of panels and turbines only: the runs differ in the power of those. -/
theorem start_generation (h : SameBut ["PV inputs", "Wind inputs"] wb wb') {S S' : RunIn (List ℚ)}
    (hS : runInputs L wb size = .ok S) (hS' : runInputs L wb' size = .ok S') :
    OtherGeneration S S' ∧ S'.elecDemand = S.elecDemand := by
  unfold runInputs at hS hS'
  simp only [except_bind_ok] at hS hS'
  obtain ⟨c, hc, hS⟩ := hS
  obtain ⟨c', hc', hS'⟩ := hS'
  obtain ⟨b, hr, hs⟩ := containerOf_ok hc
  obtain ⟨b', hr', hs'⟩ := containerOf_ok hc'
  obtain ⟨e, -, -, e1, e2⟩ := base_but (wb := wb) (wb' := wb') (fun s hn => h s fun hm => hn (by
    simp only [List.mem_cons, List.not_mem_nil, or_false] at hm ⊢
    tauto)) hr hr'
  obtain ⟨q2, q3, q4⟩ := e2 (h _ (by decide))
  rw [e1 (h _ (by decide)), q2, q3, q4] at e
  obtain ⟨x1, x2, x3, x4, x5, hb'⟩ : ∃ x1 x2 x3 x4 x5, b' =
      { b with pvLocation := x1, pvSpec := x2, windDatabase := x3, windUser := x4, powerCurve := x5 } := ⟨_, _, _, _, _, e⟩
  clear e e1 e2 q2 q3 q4 hr hr' hc hc'
  subst hb'
  obtain ⟨cap, v1, v2, v3, v4, v5, t, y1, y2, y3, y4, y5, y6, y7, rfl⟩ := resizeContainer_ok hs
  obtain ⟨cap', v1', v2', v3', v4', v5', t', y1', y2', y3', y4', y5', y6', y7', rfl⟩ := resizeContainer_ok hs'
  cases Except.ok.inj (y1.symm.trans y1')
  cases Except.ok.inj (y2.symm.trans y2')
  cases Except.ok.inj (y3.symm.trans y3')
  cases Except.ok.inj (y4.symm.trans y4')
  cases Except.ok.inj (y5.symm.trans y5')
  cases Except.ok.inj (y6.symm.trans y6')
  cases Except.ok.inj (y7.symm.trans y7')
  unfold fixedOrderIn at hS hS'
  simp only [except_bind_ok, except_pure_ok] at hS hS'
  obtain ⟨o, ho, ⟨d, f⟩, hd, v1, h1, x1, n1, v2, h2, x2, n2, v3, h3, x3, n3, v4, h4, x4, n4,
    v5, h5, x5, n5, v6, h6, x6, n6, price, hprice, ep, hep, sp, hsp, u, hu, da, hda, pv, hpv, perf, hperf,
    rfl⟩ := hS
  obtain ⟨o', ho', ⟨d', f'⟩, hd', v1', h1', x1', n1', v2', h2', x2', n2', v3', h3', x3', n3', v4', h4', x4', n4',
    v5', h5', x5', n5', v6', h6', x6', n6', price', hprice', ep', hep', sp', hsp', u', hu', da', hda', pv', hpv',
    perf', hperf', rfl⟩ := hS'
  cases Except.ok.inj (hd.symm.trans hd')
  cases Except.ok.inj (h1.symm.trans h1')
  cases Except.ok.inj (n1.symm.trans n1')
  cases Except.ok.inj (h2.symm.trans h2')
  cases Except.ok.inj (n2.symm.trans n2')
  cases Except.ok.inj (h3.symm.trans h3')
  cases Except.ok.inj (n3.symm.trans n3')
  cases Except.ok.inj (h4.symm.trans h4')
  cases Except.ok.inj (n4.symm.trans n4')
  cases Except.ok.inj (h5.symm.trans h5')
  cases Except.ok.inj (n5.symm.trans n5')
  cases Except.ok.inj (h6.symm.trans h6')
  cases Except.ok.inj (n6.symm.trans n6')
  cases Except.ok.inj (hep.symm.trans hep')
  cases Except.ok.inj (hsp.symm.trans hsp')
  unfold init at ho ho'
  simp only [except_bind_ok, except_pure_ok] at ho ho'
  obtain ⟨⟨ud, curve⟩, k1, w, k2, m1, a1, m2, a2, m3, a3, m4, a4, m5, a5, dd, k3, p1, b1, p2, b2, p3, b3,
    p4, b4, pd, k4, pvm, k5, airs, k6, air, k7, ti, k8, tank, k9, bs, k10, args, k11, hpo, k12, mr, k13,
    mo, k14, bat, k15, ax, k16, gr, k17, rfl⟩ := ho
  obtain ⟨⟨ud', curve'⟩, k1', w', k2', m1', a1', m2', a2', m3', a3', m4', a4', m5', a5', dd', k3', p1', b1', p2',
    b2', p3', b3', p4', b4', pd', k4', pvm', k5', airs', k6', air', k7', ti', k8', tank', k9', bs', k10', args',
    k11', hpo', k12', mr', k13', mo', k14', bat', k15', ax', k16', gr', k17', rfl⟩ := ho'
  cases Except.ok.inj (k2.symm.trans k2')
  cases Except.ok.inj (k6.symm.trans k6')
  cases Except.ok.inj (k7.symm.trans k7')
  cases Except.ok.inj (k8.symm.trans k8')
  cases Except.ok.inj (k9.symm.trans k9')
  cases Except.ok.inj (k10.symm.trans k10')
  cases Except.ok.inj (k11.symm.trans k11')
  cases Except.ok.inj (k12.symm.trans k12')
  cases Except.ok.inj (k13.symm.trans k13')
  cases Except.ok.inj (k14.symm.trans k14')
  cases Except.ok.inj (k15.symm.trans k15')
  cases Except.ok.inj (k16.symm.trans k16')
  cases Except.ok.inj (k17.symm.trans k17')
  cases Except.ok.inj (hprice.symm.trans hprice')
  cases Except.ok.inj (hperf.symm.trans hperf')
  exact ⟨rfl, rfl⟩

/-- The price reported for an hour is the import price of that hour. -/
theorem step_importPrice {N : Type} {P : Plant N} {i : StepIn N} {b : Bool} {order : List ℤ} {r : Results N}
    (h : step P i b order = .ok r) : r.grid.importPrice = i.importPrice := by
  obtain ⟨c, r1, hd, hr⟩ := step_ok h
  have h1 : r.grid.importPrice = r1.grid.importPrice := congrArg Money.importPrice (moneyOf_rule hr)
  obtain ⟨r0, nodes, h2, h3⟩ := dispatch_ok hd
  have h4 : r0.grid.importPrice = i.importPrice := congrArg Money.importPrice (moneyOf_runOrder h2)
  have h5 : r1.grid.importPrice = r0.grid.importPrice := by
    have : r1 = _ := h3
    rw [this]
    rfl
  exact h1.trans (h5.trans h4)

theorem run_importPrice {N : Type} {S : RunIn N} {first n : ℕ} {rs : List (Results N)}
    (h : runTimesteps S first n = .ok rs) {k : ℕ} {r : Results N} (hr : rs[k]? = some r) (hk : k < n) :
    S.importPrice[first + k]? = some r.grid.importPrice := by
  obtain ⟨rows, -, hall⟩ := C27_chained h
  obtain ⟨r', hr', hs⟩ := hall k hk
  cases Option.some.inj (hr.symm.trans hr')
  obtain ⟨heat, price, row, perf, gen, wnd, pv, elec, r0, ho⟩ := hourStep_ok.mp hs
  rw [ho.priceEq, ho.resultEq]
  exact congrArg some (step_importPrice ho.stepEq).symm

theorem run_elecDemand {N : Type} {S : RunIn N} {first n : ℕ} {rs : List (Results N)}
    (h : runTimesteps S first n = .ok rs) {k : ℕ} {r : Results N} (hr : rs[k]? = some r) (hk : k < n) :
    S.elecDemand[first + k]? = some r.elecDemand.elecDemand := by
  obtain ⟨rows, -, hall⟩ := C27_chained h
  obtain ⟨r', hr', hs⟩ := hall k hk
  cases Option.some.inj (hr.symm.trans hr')
  obtain ⟨heat, price, row, perf, gen, wnd, pv, elec, r0, ho⟩ := hourStep_ok.mp hs
  rw [ho.elecEq, ho.resultEq]
  rfl

theorem run_generation {N : Type} {S : RunIn N} {first n : ℕ} {rs : List (Results N)}
    (h : runTimesteps S first n = .ok rs) {k : ℕ} {r : Results N} (hr : rs[k]? = some r) (hk : k < n) :
    (generation S)[first + k]? = some r.res.generationTotal := by
  obtain ⟨rows, -, hall⟩ := C27_chained h
  obtain ⟨r', hr', hs⟩ := hall k hk
  cases Option.some.inj (hr.symm.trans hr')
  obtain ⟨heat, price, row, perf, gen, wnd, pv, elec, r0, ho⟩ := hourStep_ok.mp hs
  rw [ho.genEq, ho.resultEq]
  rfl

open Depends in
/-- The heaters read from two workbooks that agree on fuels, efficiency and energy densities differ in the cost of
the fuel only. -/
theorem heater_but_cost (h : SameFuels wb wb') {o o' : Objects} (ho : objects L wb size = .ok o)
    (ho' : objects L wb' size = .ok o') : o'.aux = { o.aux with cost := o'.aux.cost } := by
  obtain ⟨f, a1, a2, a3, a4⟩ := C91_heater ho
  obtain ⟨f', b1, b2, b3, b4⟩ := C91_heater ho'
  rw [h 'C' (by decide) 6 (by decide)] at a1
  cases Except.ok.inj (a1.symm.trans b1)
  have e1 : o.aux.electric = o'.aux.electric := by
    rw [Bool.eq_iff_iff, a3, b3]
  have e2 := num_eq (h 'D' (by decide) 6 (by decide)) a2 b2
  have e3 : o.aux.energyDensity = o'.aux.energyDensity := by
    by_cases hf : f = .electric
    · exact (electric_aux ho (a3.mpr hf)).2.trans (electric_aux ho' (b3.mpr hf)).2.symm
    · obtain ⟨r, r1, r2, r3, r4, r5, r6⟩ := a4 hf
      obtain ⟨r', q1, q2, q3, q4, q5, q6⟩ := b4 hf
      have hrow : ∀ x, 9 ≤ x → x ≤ 11 → x ∈ [6, 9, 10, 11] := by
        intro x h1 h2
        have : x = 9 ∨ x = 10 ∨ x = 11 := by omega
        rcases this with rfl | rfl | rfl <;> decide
      have hc : ∀ x, 9 ≤ x → x ≤ 11 → excel wb "Aux heat" 'C' x = excel wb' "Aux heat" 'C' x :=
        fun x h1 h2 => h 'C' (by decide) x (hrow x h1 h2)
      have : r = r' := by
        rcases Nat.lt_trichotomy r r' with hlt | heq | hgt
        · exact absurd (by rw [hc r' q1 q2]; exact q3) (r4 r' hlt q2)
        · exact heq
        · exact absurd (by rw [← hc r r1 r2]; exact r3) (q4 r hgt r2)
      subst this
      exact num_eq (h 'D' (by decide) r (hrow r r1 r2)) r5 q5
  cases hb : o.aux
  cases hb' : o'.aux
  rw [hb, hb'] at e1 e2 e3
  dsimp only at e1 e2 e3
  rw [e1, e2, e3]

theorem holds_but {sheets : List String} (h : SameBut sheets wb wb') {sheet : String} (hs : sheet ∉ sheets)
    {col : Char} {row : ℕ} {x : ℚ} : Holds wb' sheet col row x ↔ Holds wb sheet col row x := by
  unfold Holds excel
  rw [h sheet hs]

/-- C104, from the workbook: change prices of electricity and fuel, so that no hour's import price moves across the
setpoint; every energy flow and every state of a store stays as it was. -/
theorem C104_workbook (h : SameBut ["Grid", "Aux heat"] wb wb') (hf : SameFuels wb wb') {sp : ℚ}
    (hsp : Holds wb "Controller" 'D' 7 sp) {rs rs' : List (Results (List ℚ))} (hr : simulate L wb size = .ok rs)
    (hr' : simulate L wb' size = .ok rs')
    (side : List.Forall₂ (fun r r' => sp < r.grid.importPrice ↔ sp < r'.grid.importPrice) rs rs') :
    rs'.map energyOf = rs.map energyOf := by
  obtain ⟨S, first, n, hS, h1, h2, hrun⟩ := simulate_ok.mp hr
  obtain ⟨S', first', n', hS', h1', h2', hrun'⟩ := simulate_ok.mp hr'
  rw [holds_but h (by decide)] at h1' h2'
  have e1 : first' = first := by exact_mod_cast Except.ok.inj (congrArg numOf (h1'.symm.trans h1))
  have e2 : n' = n := by exact_mod_cast Except.ok.inj (congrArg numOf (h2'.symm.trans h2))
  subst e1 e2
  have hd := start_prices h hS hS'
  obtain ⟨o, T⟩ := start_ok hS
  obtain ⟨o', T'⟩ := start_ok hS'
  have ha : S'.aux = { S.aux with cost := S'.aux.cost } := by
    rw [T.aux, T'.aux]
    exact heater_but_cost hf T.objects T'.objects
  have hset : S'.setpoint = S.setpoint := by rw [hd]
  have hop : OtherPrices S S' := by
    refine ⟨?_⟩
    rw [hset, ← ha]
    exact hd
  have hes : S.setpoint = sp := Except.ok.inj (congrArg numOf ((C91_controller hS).1.symm.trans hsp))
  have hl := C27_one_result_per_hour hrun
  have hl' := C27_one_result_per_hour hrun'
  have key := C104_prices_move_money_only hop (first := first') (n := n') (fun t ht1 ht2 => by
    obtain ⟨k, rfl⟩ := Nat.exists_eq_add_of_le ht1
    have hk : k < n' := by omega
    have hk1 : k < rs.length := hl ▸ hk
    have hk2 : k < rs'.length := hl' ▸ hk
    have g := List.getElem?_eq_getElem hk1
    have g' := List.getElem?_eq_getElem hk2
    unfold SameSide
    rw [run_importPrice hrun g hk, run_importPrice hrun' g' hk, hset, hes]
    exact Option.Rel.some ((List.forall₂_iff_get.mp side).2 k hk1 hk2))
  rw [hrun, hrun'] at key
  exact (Except.ok.inj key).symm

/-- C104, flat rates: it is enough that the two rates written in C9 are on the same side of the setpoint. -/
theorem C104_flat_rates (ht : TopRowsEmpty wb) (ht' : TopRowsEmpty wb') (h : SameBut ["Grid", "Aux heat"] wb wb')
    (hf : SameFuels wb wb') (hflat : Says wb "Grid" 'D' 5 "Flat rates") (hflat' : Says wb' "Grid" 'D' 5 "Flat rates")
    {sp p p' : ℚ} (hsp : Holds wb "Controller" 'D' 7 sp) (hp : Holds wb "Grid" 'C' 9 p)
    (hp' : Holds wb' "Grid" 'C' 9 p') (side : sp < p ↔ sp < p') {rs rs' : List (Results (List ℚ))}
    (hr : simulate L wb size = .ok rs) (hr' : simulate L wb' size = .ok rs') :
    rs'.map energyOf = rs.map energyOf := by
  refine C104_workbook h hf hsp hr hr' ?_
  have key : ∀ {w : Pandas.Workbook} {q : ℚ} {qs : List (Results (List ℚ))}, TopRowsEmpty w →
      Says w "Grid" 'D' 5 "Flat rates" → Holds w "Grid" 'C' 9 q → simulate L w size = .ok qs →
      ∀ (k : ℕ) (hk : k < qs.length), (qs.get ⟨k, hk⟩).grid.importPrice = q := by
    intro w q qs hw hfl hq hs k hk
    obtain ⟨S, first, n, hS, -, -, hrun⟩ := simulate_ok.mp hs
    obtain ⟨o, T⟩ := start_ok hS
    obtain ⟨c, -, hc⟩ := T.importPrice
    obtain ⟨x, hx, hxs⟩ := flat_prices hw T.objects hc hfl
    have g := run_importPrice hrun (List.getElem?_eq_getElem hk) (C27_one_result_per_hour hrun ▸ hk)
    rw [hxs] at g
    have e : (qs.get ⟨k, hk⟩).grid.importPrice = x := List.eq_of_mem_replicate (List.mem_of_getElem? g)
    exact e.trans (Except.ok.inj (congrArg numOf (hx.symm.trans hq)))
  obtain ⟨S, first, n, -, h1, h2, hrun⟩ := simulate_ok.mp hr
  obtain ⟨S', first', n', -, h1', h2', hrun'⟩ := simulate_ok.mp hr'
  rw [holds_but h (by decide)] at h2'
  have e2 : n' = n := by exact_mod_cast Except.ok.inj (congrArg numOf (h2'.symm.trans h2))
  have hl := (C27_one_result_per_hour hrun).trans (e2.symm.trans (C27_one_result_per_hour hrun').symm)
  refine List.forall₂_iff_get.mpr ⟨hl, fun k hk hk' => ?_⟩
  rw [key ht hflat hp hr k hk, key ht' hflat' hp' hr' k hk']
  exact side

/-- C102, from the workbook: change panels and turbines of a workbook without battery, and run it without a store.
In every hour that gets no less generation the import does not rise, the export does not fall, and with prices that
are not negative the cash flow does not fall. -/
theorem C102_workbook (ht : TopRowsEmpty wb) (hw : Sensible wb)
    (hb : ∀ s row, wb "Electrical storage" = some s → FirstComplete s [5] [0, 1] row →
      Holds wb "Electrical storage" 'C' row 0) {hp : ℤ}
    (hg : ∀ S, runInputs L wb (hp, 0) = .ok S → GoodPump S) (h : SameBut ["PV inputs", "Wind inputs"] wb wb')
    {rs rs' : List (Results (List ℚ))} (hr : simulate L wb (hp, 0) = .ok rs) (hr' : simulate L wb' (hp, 0) = .ok rs') :
    List.Forall₂ (fun r r' => r.res.generationTotal ≤ r'.res.generationTotal →
      r'.grid.totalImport ≤ r.grid.totalImport ∧ r.grid.totalExport ≤ r'.grid.totalExport ∧
      (0 ≤ r.grid.importPrice → NotBelow wb "Grid" 'D' 9 0 → r.grid.cashflow ≤ r'.grid.cashflow)) rs rs' := by
  obtain ⟨S, first, n, hS, h1, h2, hrun⟩ := simulate_ok.mp hr
  obtain ⟨S', first', n', hS', h1', h2', hrun'⟩ := simulate_ok.mp hr'
  rw [holds_but h (by decide)] at h1' h2'
  have e1 : first' = first := by exact_mod_cast Except.ok.inj (congrArg numOf (h1'.symm.trans h1))
  have e2 : n' = n := by exact_mod_cast Except.ok.inj (congrArg numOf (h2'.symm.trans h2))
  subst e1 e2
  obtain ⟨H, O⟩ := C99_meaningful ht hw hS (hg S hS) le_rfl
  obtain ⟨o, T⟩ := start_ok hS
  obtain ⟨-, -, o', source, flow, ret, delta, ho', htank, -⟩ := C93_demand ht hS
  cases Except.ok.inj (ho'.symm.trans T.objects)
  obtain ⟨s, row, hs, hrow, hb1, -⟩ := C91_battery ht T.objects
  have hb0 : S.es.capacity = 0 := by
    rw [T.es]
    exact Except.ok.inj (congrArg numOf (hb1.symm.trans (hb s row hs hrow)))
  have hns : RunNoStores S := C102_no_tank htank (by rw [(C91_tank T.objects).1]; rfl) hb0
  obtain ⟨same, hde⟩ := start_generation h hS hS'
  have hl := C27_one_result_per_hour hrun
  have hl' := C27_one_result_per_hour hrun'
  have hall := C102_each_hour H hns same O.above_nodup O.below_nodup hrun hrun'
  refine List.forall₂_iff_get.mpr ⟨hl.trans hl'.symm, fun k hk hk' hgen => ?_⟩
  obtain ⟨g1, g2, g3⟩ := (List.forall₂_iff_get.mp hall).2 k hk hk' hgen (by
    have x := run_elecDemand hrun (List.getElem?_eq_getElem hk) (hl ▸ hk)
    have x' := run_elecDemand hrun' (List.getElem?_eq_getElem hk') (hl' ▸ hk')
    rw [hde] at x'
    exact (Option.some.inj (x'.symm.trans x)).le)
  exact ⟨g1, g2, fun hi hx => g3 hi (hx _ (C91_controller hS).2.1)⟩

end Verif
