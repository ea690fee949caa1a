import Verif.Props.OtherSheets
import Verif.Props.LargerBattery

/-!
# Workbooks that differ in the battery (C116) or in the controller (C28, C29, C103) only
-/

set_option autoImplicit false

namespace Verif
open Spec Pandas Workbook InputReader Simulation HpConfig FixedOrder Programme

variable {L : Libs} {wb wb' : Pandas.Workbook} {size : ℤ × ℤ}

/-- The containers read from two workbooks that differ in the controller and the battery only. -/
theorem base_run (h : SameBut ["Controller", "Electrical storage"] wb wb') {b b' : Container}
    (hb : readInputs wb = .ok b) (hb' : readInputs wb' = .ok b') :
    b' = { b with controller := b'.controller, electricalStorage := b'.electricalStorage } ∧
    (wb' "Controller" = wb "Controller" → b'.controller = b.controller) ∧
    (wb' "Electrical storage" = wb "Electrical storage" → b'.electricalStorage = b.electricalStorage) := by
  unfold readInputs at hb hb'
  simp only [except_bind_ok, except_pure_ok] at hb hb'
  obtain ⟨f1, h1, _, p1, f2, h2, _, p2, f3, h3, _, p3, f4, h4, ⟨_, _⟩, p4, f5, h5, ⟨_, _⟩, p5, f6, h6, _, p6,
    _, p7, f8, h8, _, p8, _, p9, _, p10, f11, h11, ⟨_, _⟩, p11, f12, h12, _, p12, f13, h13, _, p13,
    f14, h14, ⟨_, _, _⟩, p14, f15, h15, _, p15, f16, h16, _, p16, rfl⟩ := hb
  obtain ⟨f1', h1', _, p1', f2', h2', _, p2', f3', h3', _, p3', f4', h4', ⟨_, _⟩, p4', f5', h5', ⟨_, _⟩, p5',
    f6', h6', _, p6', _, p7', f8', h8', _, p8', _, p9', _, p10', f11', h11', ⟨_, _⟩, p11', f12', h12', _, p12',
    f13', h13', _, p13', f14', h14', ⟨_, _, _⟩, p14', f15', h15', _, p15', f16', h16', _, p16', rfl⟩ := hb'
  cases sheetOf_same h (by decide) h1 h1'
  cases sheetOf_same h (by decide) h3 h3'
  cases sheetOf_same h (by decide) h4 h4'
  cases sheetOf_same h (by decide) h5 h5'
  cases sheetOf_same h (by decide) h11 h11'
  cases sheetOf_same h (by decide) h15 h15'
  cases sheetOf_same h (by decide) h16 h16'
  cases Except.ok.inj (p1.symm.trans p1')
  cases Except.ok.inj (p3.symm.trans p3')
  cases Except.ok.inj (p4.symm.trans p4')
  cases Except.ok.inj (p5.symm.trans p5')
  cases Except.ok.inj (p11.symm.trans p11')
  cases Except.ok.inj (p15.symm.trans p15')
  cases Except.ok.inj (p16.symm.trans p16')
  cases sheetOf_same h (by decide) h6 h6'
  cases sheetOf_same h (by decide) h8 h8'
  cases sheetOf_same h (by decide) h13 h13'
  cases sheetOf_same h (by decide) h14 h14'
  cases Except.ok.inj (p6.symm.trans p6')
  cases Except.ok.inj (p7.symm.trans p7')
  cases Except.ok.inj (p8.symm.trans p8')
  cases Except.ok.inj (p9.symm.trans p9')
  cases Except.ok.inj (p10.symm.trans p10')
  cases Except.ok.inj (p13.symm.trans p13')
  cases Except.ok.inj (p14.symm.trans p14')
  refine ⟨rfl, fun e => ?_, fun e => ?_⟩
  · have : f2' = f2 := by
      unfold sheetOf at h2 h2'
      rw [e] at h2'
      exact Except.ok.inj (h2'.symm.trans h2)
    subst this
    exact Except.ok.inj (p2'.symm.trans p2)
  · have : f12' = f12 := by
      unfold sheetOf at h12 h12'
      rw [e] at h12'
      exact Except.ok.inj (h12'.symm.trans h12)
    subst this
    exact Except.ok.inj (p12'.symm.trans p12)

/-- Two workbooks that differ on the sheet of the battery only: the runs differ in the battery. -/
theorem start_battery (h : SameBut ["Electrical storage"] wb wb') {S S' : RunIn (List ℚ)}
    (hS : runInputs L wb size = .ok S) (hS' : runInputs L wb' size = .ok S') :
    S' = { S with es := S'.es } := by
  unfold runInputs at hS hS'
  simp only [except_bind_ok] at hS hS'
  obtain ⟨c, hc, hS⟩ := hS
  obtain ⟨c', hc', hS'⟩ := hS'
  obtain ⟨b, hr, hs⟩ := containerOf_ok hc
  obtain ⟨b', hr', hs'⟩ := containerOf_ok hc'
  obtain ⟨e, e1, -⟩ := base_run (wb := wb) (wb' := wb') (fun s hn => h s fun hm => hn (by
    simp only [List.mem_cons, List.not_mem_nil, or_false] at hm ⊢
    tauto)) hr hr'
  rw [e1 (h _ (by decide))] at e
  obtain ⟨x1, hb'⟩ : ∃ x1, b' = { b with electricalStorage := x1 } := ⟨_, e⟩
  clear e e1 hr hr' hc hc'
  subst hb'
  obtain ⟨cap, v1, v2, v3, v4, v5, t, y1, y2, y3, y4, y5, y6, y7, rfl⟩ := resizeContainer_ok hs
  obtain ⟨cap', v1', v2', v3', v4', v5', t', y1', y2', y3', y4', y5', y6', y7', rfl⟩ := resizeContainer_ok hs'
  cases Except.ok.inj (y1.symm.trans y1')
  cases Except.ok.inj (y2.symm.trans y2')
  cases Except.ok.inj (y3.symm.trans y3')
  cases Except.ok.inj (y4.symm.trans y4')
  cases Except.ok.inj (y5.symm.trans y5')
  cases Except.ok.inj (y6.symm.trans y6')
  cases Except.ok.inj (y7.symm.trans y7')
  unfold fixedOrderIn at hS hS'
  simp only [except_bind_ok, except_pure_ok] at hS hS'
  obtain ⟨o, ho, ⟨d, f⟩, hd, v1, h1, x1, n1, v2, h2, x2, n2, v3, h3, x3, n3, v4, h4, x4, n4,
    v5, h5, x5, n5, v6, h6, x6, n6, price, hprice, ep, hep, sp, hsp, u, hu, da, hda, pv, hpv, perf, hperf,
    rfl⟩ := hS
  obtain ⟨o', ho', ⟨d', f'⟩, hd', v1', h1', x1', n1', v2', h2', x2', n2', v3', h3', x3', n3', v4', h4', x4', n4',
    v5', h5', x5', n5', v6', h6', x6', n6', price', hprice', ep', hep', sp', hsp', u', hu', da', hda', pv', hpv',
    perf', hperf', rfl⟩ := hS'
  cases Except.ok.inj (hd.symm.trans hd')
  cases Except.ok.inj (h1.symm.trans h1')
  cases Except.ok.inj (n1.symm.trans n1')
  cases Except.ok.inj (h2.symm.trans h2')
  cases Except.ok.inj (n2.symm.trans n2')
  cases Except.ok.inj (h3.symm.trans h3')
  cases Except.ok.inj (n3.symm.trans n3')
  cases Except.ok.inj (h4.symm.trans h4')
  cases Except.ok.inj (n4.symm.trans n4')
  cases Except.ok.inj (h5.symm.trans h5')
  cases Except.ok.inj (n5.symm.trans n5')
  cases Except.ok.inj (h6.symm.trans h6')
  cases Except.ok.inj (n6.symm.trans n6')
  cases Except.ok.inj (hsp.symm.trans hsp')
  cases Except.ok.inj (hep.symm.trans hep')
  unfold init at ho ho'
  simp only [except_bind_ok, except_pure_ok] at ho ho'
  obtain ⟨⟨ud, curve⟩, k1, w, k2, m1, a1, m2, a2, m3, a3, m4, a4, m5, a5, dd, k3, p1, b1, p2, b2, p3, b3,
    p4, b4, pd, k4, pvm, k5, airs, k6, air, k7, ti, k8, tank, k9, bs, k10, args, k11, hpo, k12, mr, k13,
    mo, k14, bat, k15, ax, k16, gr, k17, rfl⟩ := ho
  obtain ⟨⟨ud', curve'⟩, k1', w', k2', m1', a1', m2', a2', m3', a3', m4', a4', m5', a5', dd', k3', p1', b1', p2',
    b2', p3', b3', p4', b4', pd', k4', pvm', k5', airs', k6', air', k7', ti', k8', tank', k9', bs', k10', args',
    k11', hpo', k12', mr', k13', mo', k14', bat', k15', ax', k16', gr', k17', rfl⟩ := ho'
  cases Except.ok.inj (k1.symm.trans k1')
  cases Except.ok.inj (k2.symm.trans k2')
  cases Except.ok.inj (a1.symm.trans a1')
  cases Except.ok.inj (a2.symm.trans a2')
  cases Except.ok.inj (a3.symm.trans a3')
  cases Except.ok.inj (a4.symm.trans a4')
  cases Except.ok.inj (a5.symm.trans a5')
  cases Except.ok.inj (k3.symm.trans k3')
  cases Except.ok.inj (b1.symm.trans b1')
  cases Except.ok.inj (b2.symm.trans b2')
  cases Except.ok.inj (b3.symm.trans b3')
  cases Except.ok.inj (b4.symm.trans b4')
  cases Except.ok.inj (k4.symm.trans k4')
  cases Except.ok.inj (k5.symm.trans k5')
  cases Except.ok.inj (k6.symm.trans k6')
  cases Except.ok.inj (k7.symm.trans k7')
  cases Except.ok.inj (k8.symm.trans k8')
  cases Except.ok.inj (k9.symm.trans k9')
  cases Except.ok.inj (k10.symm.trans k10')
  cases Except.ok.inj (k11.symm.trans k11')
  cases Except.ok.inj (k12.symm.trans k12')
  cases Except.ok.inj (k13.symm.trans k13')
  cases Except.ok.inj (k14.symm.trans k14')
  cases Except.ok.inj (k16.symm.trans k16')
  cases Except.ok.inj (k17.symm.trans k17')
  cases Except.ok.inj (hprice.symm.trans hprice')
  cases Except.ok.inj (hu.symm.trans hu')
  cases Except.ok.inj (hda.symm.trans hda')
  cases Except.ok.inj (hpv.symm.trans hpv')
  cases Except.ok.inj (hperf.symm.trans hperf')
  rfl

/-- Two workbooks that differ on the sheet of the controller only: the runs differ in setpoint and orders. -/
theorem start_controller (h : SameBut ["Controller"] wb wb') {S S' : RunIn (List ℚ)}
    (hS : runInputs L wb size = .ok S) (hS' : runInputs L wb' size = .ok S') :
    S' = { S with setpoint := S'.setpoint, orderAbove := S'.orderAbove, orderBelow := S'.orderBelow } := by
  unfold runInputs at hS hS'
  simp only [except_bind_ok] at hS hS'
  obtain ⟨c, hc, hS⟩ := hS
  obtain ⟨c', hc', hS'⟩ := hS'
  obtain ⟨b, hr, hs⟩ := containerOf_ok hc
  obtain ⟨b', hr', hs'⟩ := containerOf_ok hc'
  obtain ⟨e, -, e2⟩ := base_run (wb := wb) (wb' := wb') (fun s hn => h s fun hm => hn (by
    simp only [List.mem_cons, List.not_mem_nil, or_false] at hm ⊢
    tauto)) hr hr'
  rw [e2 (h _ (by decide))] at e
  obtain ⟨x1, hb'⟩ : ∃ x1, b' = { b with controller := x1 } := ⟨_, e⟩
  clear e e2 hr hr' hc hc'
  subst hb'
  obtain ⟨cap, v1, v2, v3, v4, v5, t, y1, y2, y3, y4, y5, y6, y7, rfl⟩ := resizeContainer_ok hs
  obtain ⟨cap', v1', v2', v3', v4', v5', t', y1', y2', y3', y4', y5', y6', y7', rfl⟩ := resizeContainer_ok hs'
  cases Except.ok.inj (y1.symm.trans y1')
  cases Except.ok.inj (y2.symm.trans y2')
  cases Except.ok.inj (y3.symm.trans y3')
  cases Except.ok.inj (y4.symm.trans y4')
  cases Except.ok.inj (y5.symm.trans y5')
  cases Except.ok.inj (y6.symm.trans y6')
  cases Except.ok.inj (y7.symm.trans y7')
  unfold fixedOrderIn at hS hS'
  simp only [except_bind_ok, except_pure_ok] at hS hS'
  obtain ⟨o, ho, ⟨d, f⟩, hd, v1, h1, x1, n1, v2, h2, x2, n2, v3, h3, x3, n3, v4, h4, x4, n4,
    v5, h5, x5, n5, v6, h6, x6, n6, price, hprice, ep, hep, sp, hsp, u, hu, da, hda, pv, hpv, perf, hperf,
    rfl⟩ := hS
  obtain ⟨o', ho', ⟨d', f'⟩, hd', v1', h1', x1', n1', v2', h2', x2', n2', v3', h3', x3', n3', v4', h4', x4', n4',
    v5', h5', x5', n5', v6', h6', x6', n6', price', hprice', ep', hep', sp', hsp', u', hu', da', hda', pv', hpv',
    perf', hperf', rfl⟩ := hS'
  cases Except.ok.inj (hd.symm.trans hd')
  cases Except.ok.inj (h1.symm.trans h1')
  cases Except.ok.inj (n1.symm.trans n1')
  cases Except.ok.inj (h2.symm.trans h2')
  cases Except.ok.inj (n2.symm.trans n2')
  cases Except.ok.inj (h3.symm.trans h3')
  cases Except.ok.inj (n3.symm.trans n3')
  cases Except.ok.inj (h4.symm.trans h4')
  cases Except.ok.inj (n4.symm.trans n4')
  cases Except.ok.inj (h5.symm.trans h5')
  cases Except.ok.inj (n5.symm.trans n5')
  cases Except.ok.inj (h6.symm.trans h6')
  cases Except.ok.inj (n6.symm.trans n6')
  cases Except.ok.inj (hep.symm.trans hep')
  unfold init at ho ho'
  simp only [except_bind_ok, except_pure_ok] at ho ho'
  obtain ⟨⟨ud, curve⟩, k1, w, k2, m1, a1, m2, a2, m3, a3, m4, a4, m5, a5, dd, k3, p1, b1, p2, b2, p3, b3,
    p4, b4, pd, k4, pvm, k5, airs, k6, air, k7, ti, k8, tank, k9, bs, k10, args, k11, hpo, k12, mr, k13,
    mo, k14, bat, k15, ax, k16, gr, k17, rfl⟩ := ho
  obtain ⟨⟨ud', curve'⟩, k1', w', k2', m1', a1', m2', a2', m3', a3', m4', a4', m5', a5', dd', k3', p1', b1', p2',
    b2', p3', b3', p4', b4', pd', k4', pvm', k5', airs', k6', air', k7', ti', k8', tank', k9', bs', k10', args',
    k11', hpo', k12', mr', k13', mo', k14', bat', k15', ax', k16', gr', k17', rfl⟩ := ho'
  cases Except.ok.inj (k1.symm.trans k1')
  cases Except.ok.inj (k2.symm.trans k2')
  cases Except.ok.inj (a1.symm.trans a1')
  cases Except.ok.inj (a2.symm.trans a2')
  cases Except.ok.inj (a3.symm.trans a3')
  cases Except.ok.inj (a4.symm.trans a4')
  cases Except.ok.inj (a5.symm.trans a5')
  cases Except.ok.inj (k3.symm.trans k3')
  cases Except.ok.inj (b1.symm.trans b1')
  cases Except.ok.inj (b2.symm.trans b2')
  cases Except.ok.inj (b3.symm.trans b3')
  cases Except.ok.inj (b4.symm.trans b4')
  cases Except.ok.inj (k4.symm.trans k4')
  cases Except.ok.inj (k5.symm.trans k5')
  cases Except.ok.inj (k6.symm.trans k6')
  cases Except.ok.inj (k7.symm.trans k7')
  cases Except.ok.inj (k8.symm.trans k8')
  cases Except.ok.inj (k9.symm.trans k9')
  cases Except.ok.inj (k10.symm.trans k10')
  cases Except.ok.inj (k11.symm.trans k11')
  cases Except.ok.inj (k12.symm.trans k12')
  cases Except.ok.inj (k13.symm.trans k13')
  cases Except.ok.inj (k14.symm.trans k14')
  cases Except.ok.inj (k15.symm.trans k15')
  cases Except.ok.inj (k16.symm.trans k16')
  cases Except.ok.inj (k17.symm.trans k17')
  cases Except.ok.inj (hprice.symm.trans hprice')
  cases Except.ok.inj (hu.symm.trans hu')
  cases Except.ok.inj (hda.symm.trans hda')
  cases Except.ok.inj (hpv.symm.trans hpv')
  cases Except.ok.inj (hperf.symm.trans hperf')
  rfl

/-- Workbooks with the same two orders start runs with the same two orders. -/
theorem orders_but (h : SameOrders wb wb') {S S' : RunIn (List ℚ)} (hS : runInputs L wb size = .ok S)
    (hS' : runInputs L wb' size = .ok S') : S'.orderAbove = S.orderAbove ∧ S'.orderBelow = S.orderBelow := by
  unfold SameOrders at h
  simp only [List.forall_mem_cons, List.not_mem_nil, false_implies, implies_true, and_true] at h
  obtain ⟨-, -, ⟨a, a1, a2⟩, ⟨b, b1, b2⟩⟩ := C91_controller hS
  obtain ⟨-, -, ⟨a', a1', a2'⟩, ⟨b', b1', b2'⟩⟩ := C91_controller hS'
  cases Depends.text_eq h.1 a1 a1'
  cases Depends.text_eq h.2 b1 b1'
  exact ⟨Except.ok.inj (a2'.symm.trans a2), Except.ok.inj (b2'.symm.trans b2)⟩

/-- C116 from the workbooks: two workbooks that differ in the capacity of the battery only. In every hour the
study with the larger battery imports at most as much, ends with at least as much charge, and runs heat pump,
thermal store and boiler in the same way. -/
theorem C116_workbook (ht : TopRowsEmpty wb) (ht' : TopRowsEmpty wb') (hw : Sensible wb) (h2 : 0 ≤ size.2)
    (hg : ∀ S, runInputs L wb size = .ok S → GoodPump S) (h : SameBut ["Electrical storage"] wb wb')
    (hl : LargerOnSheet wb wb') (hf : HeatFirstOnSheet wb)
    {rs rs' : List (Results (List ℚ))} (hr : simulate L wb size = .ok rs) (hr' : simulate L wb' size = .ok rs') :
    List.Forall₂ (fun r r' => r'.grid.totalImport ≤ r.grid.totalImport ∧
      r.es.finalSoc ≤ r'.es.finalSoc ∧ r'.hp = r.hp ∧ r'.ts = r.ts ∧ r'.aux = r.aux) rs rs' := by
  obtain ⟨S, first, n, hS, h1, h2a, hrun⟩ := simulate_ok.mp hr
  obtain ⟨S', first', n', hS', h1', h2', hrun'⟩ := simulate_ok.mp hr'
  rw [holds_but h (by decide)] at h1' h2'
  have e1 : first' = first := by exact_mod_cast Except.ok.inj (congrArg numOf (h1'.symm.trans h1))
  have e2 : n' = n := by exact_mod_cast Except.ok.inj (congrArg numOf (h2'.symm.trans h2a))
  subst e1 e2
  obtain ⟨H, O⟩ := C99_meaningful ht hw hS (hg S hS) h2
  obtain ⟨-, -, ⟨a, a1, a2⟩, ⟨b, b1, b2⟩⟩ := C91_controller hS
  obtain ⟨o, T⟩ := start_ok hS
  obtain ⟨o', T'⟩ := start_ok hS'
  obtain ⟨s, row, hs, hrow, c1, c2, c3, c4, c5, c6, c7⟩ := C91_battery ht T.objects
  obtain ⟨s', row', hs', hrow', c1', c2', c3', c4', c5', c6', c7'⟩ := C91_battery ht' T'.objects
  obtain ⟨K, Kc⟩ := hl s s' row row' hs hs' hrow hrow'
  simp only [List.forall_mem_cons, List.not_mem_nil, false_implies, implies_true, and_true] at K
  obtain ⟨k2, k3, k4, k5, k6, k7⟩ := K
  have hm : LargerBattery S S' := by
    refine ⟨?_, by rw [T.es, T'.es]; exact Kc _ _ c1 c1'⟩
    have e : S'.es = { S.es with capacity := S'.es.capacity } := by
      rw [T.es, T'.es]
      have q2 := Depends.num_eq k2 c2 c2'
      have q3 := Depends.num_eq k3 c3 c3'
      have q4 := Depends.num_eq k4 c4 c4'
      have q5 := Depends.num_eq k5 c5 c5'
      have q6 := Depends.num_eq k6 c6 c6'
      have q7 := Depends.num_eq k7 c7 c7'
      dsimp only
      rw [q2, q3, q4, q5, q6, q7]
    rw [← e]
    exact start_battery h hS hS'
  have := C116_run H hm O ((hf a _ a2).1 a1) ((hf b _ b2).2 b1) hrun hrun'
  exact this.imp fun r r' q => ⟨q.1, q.2.1, q.2.2.1, q.2.2.2.1, q.2.2.2.2.1⟩

/-- C28 from the workbooks: a study of the first hours of a longer study has the same results in these hours. -/
theorem C28_workbook (h : SameBut ["Controller"] wb wb') (ho : SameOrders wb wb')
    (hx : excel wb "Controller" 'D' 7 = excel wb' "Controller" 'D' 7)
    (hf : excel wb "Controller" 'G' 5 = excel wb' "Controller" 'G' 5) {n m : ℕ}
    (hn : Holds wb "Controller" 'G' 6 n) (hm : Holds wb' "Controller" 'G' 6 m) (hle : m ≤ n)
    {rs rs' : List (Results (List ℚ))} (hr : simulate L wb size = .ok rs) (hr' : simulate L wb' size = .ok rs') :
    rs' = rs.take m := by
  obtain ⟨S, first, n1, hS, h1, h2, hrun⟩ := simulate_ok.mp hr
  obtain ⟨S', first', m1, hS', h1', h2', hrun'⟩ := simulate_ok.mp hr'
  have e1 : first = first' := by exact_mod_cast Depends.num_eq hf h1 h1'
  have e2 : n1 = n := by exact_mod_cast Depends.num_eq rfl h2 hn
  have e3 : m1 = m := by exact_mod_cast Depends.num_eq rfl h2' hm
  subst e1 e2 e3
  have e := start_controller h hS hS'
  obtain ⟨oa, ob⟩ := orders_but ho hS hS'
  have es : S'.setpoint = S.setpoint := (Depends.num_eq hx (C91_controller hS).1 (C91_controller hS').1).symm
  rw [oa, ob, es] at e
  have e' : S' = S := e
  subst e'
  exact Except.ok.inj (hrun'.symm.trans (C28_prefix hrun hle))

/-- C103 from the workbooks: without a battery and without a thermal store, two studies of different parts of
the year have the same results in the hours they share. -/
theorem C103_workbook (ht : TopRowsEmpty wb) (hw : Sensible wb)
    (hb : ∀ s row, wb "Electrical storage" = some s → FirstComplete s [5] [0, 1] row →
      Holds wb "Electrical storage" 'C' row 0) {hp : ℤ}
    (hg : ∀ S, runInputs L wb (hp, 0) = .ok S → GoodPump S) (h : SameBut ["Controller"] wb wb')
    (ho : SameOrders wb wb') (hx : excel wb "Controller" 'D' 7 = excel wb' "Controller" 'D' 7)
    {first first' : ℕ} (h1 : Holds wb "Controller" 'G' 5 first) (h1' : Holds wb' "Controller" 'G' 5 first')
    {rs rs' : List (Results (List ℚ))} (hr : simulate L wb (hp, 0) = .ok rs) (hr' : simulate L wb' (hp, 0) = .ok rs')
    {k k' : ℕ} (hk : k < rs.length) (hk' : k' < rs'.length) (heq : first + k = first' + k') :
    rs[k]? = rs'[k']? := by
  obtain ⟨S, f, n, hS, g1, g2, hrun⟩ := simulate_ok.mp hr
  obtain ⟨S', f', n', hS', g1', g2', hrun'⟩ := simulate_ok.mp hr'
  have e1 : f = first := by exact_mod_cast Depends.num_eq rfl g1 h1
  have e2 : f' = first' := by exact_mod_cast Depends.num_eq rfl g1' h1'
  subst e1 e2
  have e := start_controller h hS hS'
  obtain ⟨oa, ob⟩ := orders_but ho hS hS'
  have es : S'.setpoint = S.setpoint := (Depends.num_eq hx (C91_controller hS).1 (C91_controller hS').1).symm
  rw [oa, ob, es] at e
  have e' : S' = S := e
  subst e'
  obtain ⟨H, -⟩ := C99_meaningful ht hw hS (hg S' hS) le_rfl
  obtain ⟨o, T⟩ := start_ok hS
  obtain ⟨-, -, o', source, flow, ret, delta, ho', htank, -⟩ := C93_demand ht hS
  cases Except.ok.inj (ho'.symm.trans T.objects)
  obtain ⟨s, row, hs, hrow, hb1, -⟩ := C91_battery ht T.objects
  have hb0 : S'.es.capacity = 0 := by
    rw [T.es]
    exact Except.ok.inj (congrArg numOf (hb1.symm.trans (hb s row hs hrow)))
  have hns : RunNoStores S' := C102_no_tank htank (by rw [(C91_tank T.objects).1]; rfl) hb0
  exact C103_hours_stand_alone H H hns ⟨rfl, rfl, rfl, rfl⟩ hrun hrun'
    (C27_one_result_per_hour hrun ▸ hk) (C27_one_result_per_hour hrun' ▸ hk') heq
    ⟨rfl, rfl, rfl, rfl, rfl, rfl, rfl⟩

/-- The hours run the same way from another setpoint on the same side of their prices. -/
theorem runFrom_setpoint {N : Type} {S : RunIn N} {x : ℚ} {rows : List Tools.Row} : ∀ {n t : ℕ} {nodes : N} {soc : ℚ}
    {rs : List (Results N)}, runFrom S rows t n nodes soc = .ok rs →
    (∀ r ∈ rs, (r.grid.importPrice > x ↔ r.grid.importPrice > S.setpoint)) →
    runFrom { S with setpoint := x } rows t n nodes soc = .ok rs := by
  intro n
  induction n with
  | zero => intro t nodes soc rs h _; exact h
  | succ n ih =>
    intro t nodes soc rs h hall
    unfold runFrom at h ⊢
    simp only [except_bind_ok, except_pure_ok] at h ⊢
    obtain ⟨r, hr, rest, hrest, rfl⟩ := h
    refine ⟨r, ?_, rest, ih hrest fun q hq => hall q (List.mem_cons_of_mem _ hq), rfl⟩
    obtain ⟨heat, price, row, perf, gen, wnd, pv, elec, r0, ho⟩ := hourStep_ok.mp hr
    have hp : r.grid.importPrice = price := by
      rw [ho.resultEq]
      exact step_importPrice ho.stepEq
    have hside := hall r (List.mem_cons_self ..)
    rw [hp] at hside
    refine hourStep_ok.mpr ⟨heat, price, row, perf, gen, wnd, pv, elec, r0, ?_⟩
    refine { ho with stepEq := ?_ }
    have q := ho.stepEq
    by_cases hs : price > S.setpoint
    · have hs' := hside.mpr hs
      rw [if_pos hs, decide_eq_false (not_le.mpr hs)] at q
      show step (plant S) _ (decide (price ≤ x)) (if price > x then _ else _) = _
      rw [if_pos hs', decide_eq_false (not_le.mpr hs')]
      exact q
    · have hs' := mt hside.mp hs
      rw [if_neg hs, decide_eq_true (not_lt.mp hs)] at q
      show step (plant S) _ (decide (price ≤ x)) (if price > x then _ else _) = _
      rw [if_neg hs', decide_eq_true (not_lt.mp hs')]
      exact q

/-- C29: the setpoint acts through the side of the price it is on only. Another setpoint that leaves the price
of every hour simulated on the same side gives the same results. -/
theorem C29_same_side {N : Type} {S : RunIn N} {x : ℚ} {first n : ℕ} {rs : List (Results N)}
    (h : runTimesteps S first n = .ok rs)
    (hx : ∀ r ∈ rs, (r.grid.importPrice > x ↔ r.grid.importPrice > S.setpoint)) :
    runTimesteps { S with setpoint := x } first n = .ok rs := by
  obtain ⟨rows, h1, h2, h3⟩ := runTimesteps_ok.mp h
  exact runTimesteps_ok.mpr ⟨rows, h1, h2, runFrom_setpoint h3 hx⟩

/-- C29 from the workbooks. -/
theorem C29_workbook (h : SameBut ["Controller"] wb wb') (ho : SameOrders wb wb')
    (hf : ∀ r ∈ [5, 6], excel wb "Controller" 'G' r = excel wb' "Controller" 'G' r) {x x' : ℚ}
    (hx : Holds wb "Controller" 'D' 7 x) (hx' : Holds wb' "Controller" 'D' 7 x')
    {rs rs' : List (Results (List ℚ))} (hr : simulate L wb size = .ok rs) (hr' : simulate L wb' size = .ok rs')
    (hside : ∀ r ∈ rs, (r.grid.importPrice > x' ↔ r.grid.importPrice > x)) : rs' = rs := by
  simp only [List.forall_mem_cons, List.not_mem_nil, false_implies, implies_true, and_true] at hf
  obtain ⟨S, first, n, hS, h1, h2, hrun⟩ := simulate_ok.mp hr
  obtain ⟨S', first', n', hS', h1', h2', hrun'⟩ := simulate_ok.mp hr'
  have e1 : first = first' := by exact_mod_cast Depends.num_eq hf.1 h1 h1'
  have e2 : n = n' := by exact_mod_cast Depends.num_eq hf.2 h2 h2'
  subst e1 e2
  have e := start_controller h hS hS'
  obtain ⟨oa, ob⟩ := orders_but ho hS hS'
  have es : S.setpoint = x := Depends.num_eq rfl (C91_controller hS).1 hx
  have es' : S'.setpoint = x' := Depends.num_eq rfl (C91_controller hS').1 hx'
  rw [oa, ob, es'] at e
  rw [e] at hrun'
  exact Except.ok.inj (hrun'.symm.trans (C29_same_side hrun (by rw [es]; exact hside)))

end Verif
