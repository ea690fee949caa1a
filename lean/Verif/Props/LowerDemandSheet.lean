import Verif.Spec.LowerDemandSheet
import Verif.Props.LowerDemand
import Verif.Props.SampleSheets

/-!
# Workbooks that differ in the demands only (C134)
-/

set_option autoImplicit false

namespace Verif
open Spec Pandas Workbook InputReader Simulation HpConfig FixedOrder Programme

variable {L : Libs} {wb wb' : Pandas.Workbook} {size : ℤ × ℤ}

/-- The containers read from two workbooks that differ in the demands only. -/
theorem base_demand (h : SameBut ["Demand input"] wb wb') {b b' : Container}
    (hb : readInputs wb = .ok b) (hb' : readInputs wb' = .ok b') :
    b' = { b with demandStatic := b'.demandStatic, demandVariable := b'.demandVariable } := by
  unfold readInputs at hb hb'
  simp only [except_bind_ok, except_pure_ok] at hb hb'
  obtain ⟨f1, h1, _, p1, f2, h2, _, p2, f3, h3, _, p3, f4, h4, ⟨_, _⟩, p4, f5, h5, ⟨_, _⟩, p5, f6, h6, _, p6,
    _, p7, f8, h8, _, p8, _, p9, _, p10, f11, h11, ⟨_, _⟩, p11, f12, h12, _, p12, f13, h13, _, p13,
    f14, h14, ⟨_, _, _⟩, p14, f15, h15, _, p15, f16, h16, _, p16, rfl⟩ := hb
  obtain ⟨f1', h1', _, p1', f2', h2', _, p2', f3', h3', _, p3', f4', h4', ⟨_, _⟩, p4', f5', h5', ⟨_, _⟩, p5',
    f6', h6', _, p6', _, p7', f8', h8', _, p8', _, p9', _, p10', f11', h11', ⟨_, _⟩, p11', f12', h12', _, p12',
    f13', h13', _, p13', f14', h14', ⟨_, _, _⟩, p14', f15', h15', _, p15', f16', h16', _, p16', rfl⟩ := hb'
  cases sheetOf_same h (by decide) h1 h1'
  cases sheetOf_same h (by decide) h2 h2'
  cases sheetOf_same h (by decide) h3 h3'
  cases sheetOf_same h (by decide) h4 h4'
  cases sheetOf_same h (by decide) h6 h6'
  cases sheetOf_same h (by decide) h8 h8'
  cases sheetOf_same h (by decide) h11 h11'
  cases sheetOf_same h (by decide) h12 h12'
  cases sheetOf_same h (by decide) h13 h13'
  cases sheetOf_same h (by decide) h14 h14'
  cases sheetOf_same h (by decide) h15 h15'
  cases sheetOf_same h (by decide) h16 h16'
  cases Except.ok.inj (p1.symm.trans p1')
  cases Except.ok.inj (p2.symm.trans p2')
  cases Except.ok.inj (p3.symm.trans p3')
  cases Except.ok.inj (p4.symm.trans p4')
  cases Except.ok.inj (p6.symm.trans p6')
  cases Except.ok.inj (p7.symm.trans p7')
  cases Except.ok.inj (p8.symm.trans p8')
  cases Except.ok.inj (p9.symm.trans p9')
  cases Except.ok.inj (p10.symm.trans p10')
  cases Except.ok.inj (p11.symm.trans p11')
  cases Except.ok.inj (p12.symm.trans p12')
  cases Except.ok.inj (p13.symm.trans p13')
  cases Except.ok.inj (p14.symm.trans p14')
  cases Except.ok.inj (p15.symm.trans p15')
  cases Except.ok.inj (p16.symm.trans p16')
  rfl

/-- The arguments of the heat pump depend on the demands through the source temperatures and the return temperature
only. -/
theorem args_demand {c : Container} {x1 : Dict} {x2 : DataFrame} {w : Columns} {bs : HpBasics} {a a' : HpArgs}
    (h : hpArgs c w bs = .ok a) (h' : hpArgs { c with demandStatic := x1, demandVariable := x2 } w bs = .ok a')
    (e1 : a'.flow = a.flow) (e2 : a'.ret = a.ret) : a' = a := by
  unfold hpArgs at h h'
  simp only [except_bind_ok] at h h'
  obtain ⟨⟨d, f⟩, hd, x, k1, y, k2, v1, k3, z1, k4, v2, k5, z2, k6, v3, k7, z3, k8, v4, k9, z4, k10, h⟩ := h
  obtain ⟨⟨d', f'⟩, hd', x', k1', y', k2', v1', k3', z1', k4', v2', k5', z2', k6', v3', k7', z3', k8', v4', k9', z4',
    k10', h'⟩ := h'
  cases Except.ok.inj (k1.symm.trans k1')
  cases Except.ok.inj (k2.symm.trans k2')
  cases Except.ok.inj (k7.symm.trans k7')
  cases Except.ok.inj (k8.symm.trans k8')
  cases Except.ok.inj (k9.symm.trans k9')
  cases Except.ok.inj (k10.symm.trans k10')
  cases hap : bs.approach with
  | generic =>
    rw [hap] at h
    cases h
  | simple =>
    rw [hap] at h h'
    simp only [except_bind_ok, except_pure_ok] at h h'
    obtain ⟨u, j1, rfl⟩ := h
    obtain ⟨u', j1', rfl⟩ := h'
    cases Except.ok.inj (j1.symm.trans j1')
    dsimp only at e1 e2
    rw [e1, e2]
  | lorentz =>
    rw [hap] at h h'
    simp only [except_bind_ok, except_pure_ok] at h h'
    obtain ⟨d1, j1, u2, j2, u3, j3, u4, j4, u5, j5, u6, j6, u7, j7, u8, j8, u9, j9, u10, j10, u11, j11, u12, j12,
      u13, j13, rfl⟩ := h
    obtain ⟨d1', j1', u2', j2', u3', j3', u4', j4', u5', j5', u6', j6', u7', j7', u8', j8', u9', j9', u10', j10', u11',
      j11', u12', j12', u13', j13', rfl⟩ := h'
    cases Except.ok.inj (j1.symm.trans j1')
    cases Except.ok.inj (j2.symm.trans j2')
    cases Except.ok.inj (j3.symm.trans j3')
    cases Except.ok.inj (j4.symm.trans j4')
    cases Except.ok.inj (j5.symm.trans j5')
    cases Except.ok.inj (j6.symm.trans j6')
    cases Except.ok.inj (j7.symm.trans j7')
    cases Except.ok.inj (j8.symm.trans j8')
    cases Except.ok.inj (j9.symm.trans j9')
    cases Except.ok.inj (j10.symm.trans j10')
    cases Except.ok.inj (j11.symm.trans j11')
    cases Except.ok.inj (j12.symm.trans j12')
    cases Except.ok.inj (j13.symm.trans j13')
    dsimp only at e1 e2
    rw [e1, e2]
  | standard =>
    rw [hap] at h h'
    simp only [except_bind_ok, except_pure_ok] at h h'
    obtain ⟨⟨u1, u2, u3⟩, j1, dt, j2, rfl⟩ := h
    obtain ⟨⟨u1', u2', u3'⟩, j1', dt', j2', rfl⟩ := h'
    cases Except.ok.inj (j1.symm.trans j1')
    cases Except.ok.inj (j2.symm.trans j2')
    dsimp only at e1 e2
    rw [e1, e2]

/-- The series in a column of the demand sheet are the same if the column is. -/
theorem series_demand (hn : SameNetwork wb wb') {col : Char} (hc : col ∈ ['F', 'G']) {xs ys : List ℚ}
    (hx : Hourly wb "Demand input" col 6 xs) (hy : Hourly wb' "Demand input" col 6 ys) : xs = ys := by
  obtain ⟨s, hs, lx, cx⟩ := hx
  obtain ⟨s', hs', ly, cy⟩ := hy
  have hh := hn.length
  unfold lastRow at hh
  rw [hs, hs'] at hh
  dsimp only at hh
  apply List.ext_getElem (by omega)
  intro t h1 h2
  exact Depends.num_eq (hn.columns col hc (6 + t) (Nat.le_add_right _ _)) (cx t _ (List.getElem?_eq_getElem h1))
    (cy t _ (List.getElem?_eq_getElem h2))

/-- Two workbooks that differ in heat and electric demand only: the runs differ in these. -/
theorem start_demand (ht : TopRowsEmpty wb) (ht' : TopRowsEmpty wb') (h : SameBut ["Demand input"] wb wb')
    (hn : SameNetwork wb wb') {S S' : RunIn (List ℚ)} (hS : runInputs L wb size = .ok S)
    (hS' : runInputs L wb' size = .ok S') :
    S' = { S with elecDemand := S'.elecDemand, heatDemand := S'.heatDemand } := by
  unfold runInputs at hS hS'
  simp only [except_bind_ok] at hS hS'
  obtain ⟨c, hc, hS⟩ := hS
  obtain ⟨c', hc', hS'⟩ := hS'
  obtain ⟨b, hr, hs⟩ := containerOf_ok hc
  obtain ⟨b', hr', hs'⟩ := containerOf_ok hc'
  obtain ⟨x1, x2, hb'⟩ : ∃ x1 x2, b' = { b with demandStatic := x1, demandVariable := x2 } :=
    ⟨_, _, base_demand h hr hr'⟩
  clear hr hr'
  subst hb'
  obtain ⟨cap, v1, v2, v3, v4, v5, t, y1, y2, y3, y4, y5, y6, y7, rfl⟩ := resizeContainer_ok hs
  obtain ⟨cap', v1', v2', v3', v4', v5', t', y1', y2', y3', y4', y5', y6', y7', rfl⟩ := resizeContainer_ok hs'
  cases Except.ok.inj (y1.symm.trans y1')
  cases Except.ok.inj (y2.symm.trans y2')
  cases Except.ok.inj (y3.symm.trans y3')
  cases Except.ok.inj (y4.symm.trans y4')
  cases Except.ok.inj (y5.symm.trans y5')
  cases Except.ok.inj (y6.symm.trans y6')
  cases Except.ok.inj (y7.symm.trans y7')
  unfold fixedOrderIn at hS hS'
  simp only [except_bind_ok, except_pure_ok] at hS hS'
  obtain ⟨o, ho, ⟨d, f⟩, hd, v1, h1, x1, n1, v2, h2, x2, n2, v3, h3, x3, n3, v4, h4, x4, n4,
    v5, h5, x5, n5, v6, h6, x6, n6, price, hprice, ep, hep, sp, hsp, u, hu, da, hda, pv, hpv, perf, hperf,
    rfl⟩ := hS
  obtain ⟨o', ho', ⟨d', f'⟩, hd', v1', h1', x1', n1', v2', h2', x2', n2', v3', h3', x3', n3', v4', h4', x4', n4',
    v5', h5', x5', n5', v6', h6', x6', n6', price', hprice', ep', hep', sp', hsp', u', hu', da', hda', pv', hpv',
    perf', hperf', rfl⟩ := hS'
  obtain ⟨D1, D2, -, -, D5, D6⟩ := demand_hourly ht hc hd
  obtain ⟨D1', D2', -, -, D5', D6'⟩ := demand_hourly ht' hc' hd'
  have i1 := series_demand hn (by decide) (D1 v1 _ h1 n1) (D1' v1' _ h1' n1')
  have i2 := series_demand hn (by decide) (D2 v2 _ h2 n2) (D2' v2' _ h2' n2')
  have i5 := Depends.num_eq (hn.cells 6 (by decide)) (D5 v5 _ h5 (numOf_ok.mp n5)) (D5' v5' _ h5' (numOf_ok.mp n5'))
  have i6 := Depends.num_eq (hn.cells 8 (by decide)) (D6 v6 _ h6 (numOf_ok.mp n6)) (D6' v6' _ h6' (numOf_ok.mp n6'))
  obtain ⟨-, -, -, ⟨w1, q1, g1⟩, ⟨w5, q5, g5⟩, -⟩ := demands_ok hd
  obtain ⟨-, -, -, ⟨w1', q1', g1'⟩, ⟨w5', q5', g5'⟩, -⟩ := demands_ok hd'
  cases Except.ok.inj (h1.symm.trans q1)
  cases Except.ok.inj (h1'.symm.trans q1')
  cases Except.ok.inj (h5.symm.trans q5)
  cases Except.ok.inj (h5'.symm.trans q5')
  subst i1 i2 i5 i6
  cases Except.ok.inj (hsp.symm.trans hsp')
  cases Except.ok.inj (hep.symm.trans hep')
  unfold init at ho ho'
  simp only [except_bind_ok, except_pure_ok] at ho ho'
  obtain ⟨⟨ud, curve⟩, k1, w, k2, m1, a1, m2, a2, m3, a3, m4, a4, m5, a5, dd, k3, p1, b1, p2, b2, p3, b3,
    p4, b4, pd, k4, pvm, k5, airs, k6, air, k7, ti, k8, tank, k9, bs, k10, args, k11, hpo, k12, mr, k13,
    mo, k14, bat, k15, ax, k16, gr, k17, rfl⟩ := ho
  obtain ⟨⟨ud', curve'⟩, k1', w', k2', m1', a1', m2', a2', m3', a3', m4', a4', m5', a5', dd', k3', p1', b1', p2',
    b2', p3', b3', p4', b4', pd', k4', pvm', k5', airs', k6', air', k7', ti', k8', tank', k9', bs', k10', args',
    k11', hpo', k12', mr', k13', mo', k14', bat', k15', ax', k16', gr', k17', rfl⟩ := ho'
  cases Except.ok.inj (k1.symm.trans k1')
  cases Except.ok.inj (k2.symm.trans k2')
  cases Except.ok.inj (a1.symm.trans a1')
  cases Except.ok.inj (a2.symm.trans a2')
  cases Except.ok.inj (a3.symm.trans a3')
  cases Except.ok.inj (a4.symm.trans a4')
  cases Except.ok.inj (a5.symm.trans a5')
  cases Except.ok.inj (k3.symm.trans k3')
  cases Except.ok.inj (b1.symm.trans b1')
  cases Except.ok.inj (b2.symm.trans b2')
  cases Except.ok.inj (b3.symm.trans b3')
  cases Except.ok.inj (b4.symm.trans b4')
  cases Except.ok.inj (k4.symm.trans k4')
  cases Except.ok.inj (k5.symm.trans k5')
  cases Except.ok.inj (k6.symm.trans k6')
  cases Except.ok.inj (k7.symm.trans k7')
  cases Except.ok.inj (k8.symm.trans k8')
  cases Except.ok.inj (k9.symm.trans k9')
  cases Except.ok.inj (k10.symm.trans k10')
  have A := hpArgs_ok k11
  have A' := hpArgs_ok k11'
  obtain ⟨fv, fx, r1, r2, r3⟩ := A.flow
  obtain ⟨fv', fx', r1', r2', r3'⟩ := A'.flow
  obtain ⟨rv, rx, u1, u2, u3⟩ := A.ret
  obtain ⟨rv', rx', u1', u2', u3'⟩ := A'.ret
  cases Except.ok.inj (r1.symm.trans g1)
  cases Except.ok.inj (r1'.symm.trans g1')
  cases Except.ok.inj (r2.symm.trans n1)
  cases Except.ok.inj (r2'.symm.trans n1')
  cases Except.ok.inj (u1.symm.trans g5)
  cases Except.ok.inj (u1'.symm.trans g5')
  cases Except.ok.inj ((numOf_ok.mpr u2).symm.trans n5)
  cases Except.ok.inj ((numOf_ok.mpr u2').symm.trans n5')
  cases args_demand k11 k11' (r3'.trans r3.symm) (u3'.trans u3.symm)
  cases Except.ok.inj (k12.symm.trans k12')
  cases Except.ok.inj (k13.symm.trans k13')
  cases Except.ok.inj (k14.symm.trans k14')
  cases Except.ok.inj (k15.symm.trans k15')
  cases Except.ok.inj (k16.symm.trans k16')
  cases Except.ok.inj (k17.symm.trans k17')
  cases Except.ok.inj (hprice.symm.trans hprice')
  cases Except.ok.inj (hu.symm.trans hu')
  cases Except.ok.inj (hda.symm.trans hda')
  cases Except.ok.inj (hpv.symm.trans hpv')
  cases Except.ok.inj (hperf.symm.trans hperf')
  rfl

/-- C134, from the workbook: lower heat and electric demands in a workbook without battery, and run it without a store.
In no hour does the import rise or the export fall. With prices that are not negative no hour's cash flow falls, and
no hour of the auxiliary heater costs more. -/
theorem C134_workbook (ht : TopRowsEmpty wb) (ht' : TopRowsEmpty wb') (hw : Sensible wb)
    (hb : ∀ s row, wb "Electrical storage" = some s → FirstComplete s [5] [0, 1] row →
      Holds wb "Electrical storage" 'C' row 0) {hp : ℤ}
    (hg : ∀ S, runInputs L wb (hp, 0) = .ok S → GoodPump S) (h : SameBut ["Demand input"] wb wb')
    (hn : SameNetwork wb wb') (hl : LowerOnSheet wb wb') (h0 : ∀ r, 6 ≤ r → NotBelow wb' "Demand input" 'D' r 0)
    {rs rs' : List (Results (List ℚ))} (hr : simulate L wb (hp, 0) = .ok rs) (hr' : simulate L wb' (hp, 0) = .ok rs') :
    List.Forall₂ (fun r r' => r'.grid.totalImport ≤ r.grid.totalImport ∧ r.grid.totalExport ≤ r'.grid.totalExport ∧
      (0 ≤ r.grid.importPrice → NotBelow wb "Grid" 'D' 9 0 → r.grid.cashflow ≤ r'.grid.cashflow) ∧
      (0 ≤ r.grid.importPrice → (∀ k ∈ [9, 10, 11], NotBelow wb "Aux heat" 'E' k 0) → r'.aux.cost ≤ r.aux.cost))
      rs rs' := by
  obtain ⟨S, first, n, hS, h1, h2, hrun⟩ := simulate_ok.mp hr
  obtain ⟨S', first', n', hS', h1', h2', hrun'⟩ := simulate_ok.mp hr'
  rw [holds_but h (by decide)] at h1' h2'
  have e1 : first' = first := by exact_mod_cast Except.ok.inj (congrArg numOf (h1'.symm.trans h1))
  have e2 : n' = n := by exact_mod_cast Except.ok.inj (congrArg numOf (h2'.symm.trans h2))
  subst e1 e2
  obtain ⟨H, O⟩ := C99_meaningful ht hw hS (hg S hS) le_rfl
  obtain ⟨o, T⟩ := start_ok hS
  obtain ⟨⟨s1, -, -, D1⟩, ⟨s2, -, -, D2⟩, o', source, flow, ret, delta, ho', htank, -⟩ := C93_demand ht hS
  obtain ⟨⟨s1', -, -, D1'⟩, ⟨s2', -, -, D2'⟩, -⟩ := C93_demand ht' hS'
  cases Except.ok.inj (ho'.symm.trans T.objects)
  obtain ⟨s, row, hs, hrow, hb1, -⟩ := C91_battery ht T.objects
  have hb0 : S.es.capacity = 0 := by
    rw [T.es]
    exact Except.ok.inj (congrArg numOf (hb1.symm.trans (hb s row hs hrow)))
  have hns : RunNoStores S := C102_no_tank htank (by rw [(C91_tank T.objects).1]; rfl) hb0
  have same := start_demand ht ht' h hn hS hS'
  have q1 : S'.es = S.es := by rw [same]
  have q2 : S'.tank = S.tank := by rw [same]
  have q3 : generation S' = generation S := by rw [same]; rfl
  have other : OtherDemand S S' := by
    have a1 : S'.windUser = S.windUser := by rw [same]
    have a2 : S'.windData = S.windData := by rw [same]
    have a3 : S'.pv = S.pv := by rw [same]
    unfold OtherDemand
    rw [a1, a2, a3]
    exact same
  have hns' : RunNoStores S' :=
    ⟨by rw [q1]; exact hns.battery, by rw [q2]; exact hns.tankCapacity, by rw [q2]; exact hns.tank⟩
  have hpos : ∀ x ∈ S'.heatDemand, 0 ≤ x := fun x hx => by
    obtain ⟨t, ht⟩ := List.mem_iff_getElem?.mp hx
    exact h0 (6 + t) (Nat.le_add_right _ _) x (D1' t x ht)
  have H' := otherDemand_ok H hns other hpos
  have hall := List.forall₂_iff_get.mp (C134_each_hour H hns other hpos hrun hrun')
  refine List.forall₂_iff_get.mpr ⟨hall.1, fun k hk hk' => ?_⟩
  obtain ⟨a1, a2, a3, -⟩ := reports_inputs H hns hrun (List.getElem?_eq_getElem hk)
  obtain ⟨b1, b2, b3, -⟩ := reports_inputs H' hns' hrun' (List.getElem?_eq_getElem hk')
  obtain ⟨g1, g2, g3, g4⟩ := hall.2 k hk hk'
    (hl 'D' (by decide) _ (Nat.le_add_right _ _) _ _ (D1 _ _ a1) (D1' _ _ b1))
    (hl 'E' (by decide) _ (Nat.le_add_right _ _) _ _ (D2 _ _ a2) (D2' _ _ b2)) (by
      rw [q3] at b3
      exact (Option.some.inj (a3.symm.trans b3)).le)
  refine ⟨g1, g2, fun hi hx => g3 hi (hx _ (C91_controller hS).2.1), fun hi hx => g4 hi fun he => ?_⟩
  obtain ⟨fuel, -, -, hel, hrow⟩ := C91_heater T.objects
  rw [T.aux] at he ⊢
  obtain ⟨row, r1, r2, -, -, -, r3⟩ := hrow fun hf => by
    rw [hel.mpr hf] at he
    cases he
  have : row ∈ [9, 10, 11] := by
    interval_cases row <;> decide
  exact hx row this _ r3

namespace Sample

/-- The sheet of the demands after the houses were insulated and the lamps replaced: half the heat and half the
electricity. -/
def insulatedDemand (r c : ℕ) : Value :=
  if c = 3 then num (((r % 7 : ℕ) : ℚ) / 2)
  else if c = 4 then num 1
  else servedDemand r c

/-- The workbook without a battery of C112 with those demands. -/
def insulated : Pandas.Workbook := fun name =>
  if name = "Demand input" then some (sheet 9 8765 insulatedDemand) else storeless name

theorem insulated_top : TopRowsEmpty insulated := by
  intro name s hs k
  unfold insulated at hs
  split_ifs at hs
  · cases Option.some.inj hs; rfl
  · exact storeless_top name s hs k

theorem insulated_row {r : ℕ} (h : 6 ≤ r) :
    Holds insulated "Demand input" 'D' r (((r % 7 : ℕ) : ℚ) / 2) ∧ Holds insulated "Demand input" 'E' r 1 ∧
    Holds insulated "Demand input" 'F' r 55 ∧ Holds insulated "Demand input" 'G' r 60 := by
  have h1 : ¬ r ≤ 1 := by omega
  exact ⟨if_neg h1, if_neg h1, if_neg h1, if_neg h1⟩

theorem insulated_readable : Readable insulated :=
  let R := storeless_readable
  { parametric := R.parametric, controller := R.controller, weather := R.weather, demandGen := R.demandGen,
    demandInput := ⟨_, rfl, by decide, by decide⟩, pv := R.pv, wind := R.wind, windFarm := R.windFarm,
    battery := R.battery, grid := R.grid, aux := R.aux, thermal := R.thermal, heatPump := R.heatPump,
    orderAbove := R.orderAbove, orderBelow := R.orderBelow, fuel := R.fuel, fuel1 := R.fuel1, fuel2 := R.fuel2,
    fuel3 := R.fuel3 }

theorem insulated_filled {L : Libs} (hk : L.knownModule "Some_Module" = true) : Filled L insulated :=
  let F := storeless_filled hk
  { readable := insulated_readable, weather := F.weather, air := F.air, water := F.water, demand := ⟨_, rfl, rfl⟩,
    source := fun r h _ => ⟨_, (insulated_row h).2.2.2⟩, ret := ⟨40, rfl⟩, battery := F.battery,
    turbines := F.turbines, pv := F.pv,
    tank := F.tank, layers := F.layers, tankNumbers := F.tankNumbers, hpType := F.hpType, hpData := F.hpData,
    hpNumbers := F.hpNumbers, duties := F.duties, model := F.model, efficiency := F.efficiency, fuel := F.fuel,
    tariff := ⟨_, "Flat rates", rfl, rfl, by decide, fun _ => ⟨3, rfl⟩,
        fun h => absurd h (by decide), fun h => absurd h (by decide), fun h => absurd h (by decide)⟩ }

theorem insulated_ready (hp : ℤ) : Ready strong insulated hp :=
  let R := calm_ready hp
  { objects := insulated_filled rfl
    demand := by
      simp only [List.forall_mem_cons, List.not_mem_nil, false_implies, implies_true, and_true]
      exact ⟨fun r h _ => ⟨_, (insulated_row h).1⟩, fun r h _ => ⟨_, (insulated_row h).2.1⟩,
        fun r h _ => ⟨_, (insulated_row h).2.2.1⟩⟩
    delta := ⟨5, rfl⟩, exportPrice := R.exportPrice
    setpoint := ⟨1, rfl⟩
    prices := fun t h => by
      cases says_inj h (show Says _ _ _ _ "Flat rates" from rfl)
      exact ⟨fun h => absurd h (by decide), fun h => absurd h (by decide), fun h => absurd h (by decide),
        fun h => absurd h (by decide)⟩
    turbines := R.turbines
    panels := R.panels
    performance := R.performance }

theorem insulated_run (size : ℤ × ℤ) : ∃ S, runInputs strong insulated size = .ok S :=
  (C94_ready strong_farm insulated_top (tail_of_height (s := pump "Simple") rfl (Nat.le_refl 47))).mpr
    (insulated_ready size.1)

theorem insulated_known : KnownProcesses insulated := ⟨storeless_known.1, storeless_known.2⟩

theorem insulated_cells : Holds insulated "Controller" 'G' 5 (24 : ℕ) ∧ Holds insulated "Controller" 'G' 6 (48 : ℕ) :=
  ⟨rfl, rfl⟩

theorem insulated_same : SameBut ["Demand input"] storeless insulated := by
  intro name hn
  simp only [List.mem_cons, List.not_mem_nil, or_false] at hn
  unfold insulated
  rw [if_neg hn]

theorem storeless_row_demand {r : ℕ} (h : 6 ≤ r) :
    Holds storeless "Demand input" 'D' r ((r % 7 : ℕ) : ℚ) ∧ Holds storeless "Demand input" 'E' r 2 ∧
    Holds storeless "Demand input" 'F' r 55 ∧ Holds storeless "Demand input" 'G' r 60 := served_row h

theorem insulated_network : SameNetwork storeless insulated where
  columns := by
    simp only [List.forall_mem_cons, List.not_mem_nil, false_implies, implies_true, and_true]
    exact ⟨fun r h => (storeless_row_demand h).2.2.1.trans (insulated_row h).2.2.1.symm,
      fun r h => (storeless_row_demand h).2.2.2.trans (insulated_row h).2.2.2.symm⟩
  cells := by
    simp only [List.forall_mem_cons, List.not_mem_nil, false_implies, implies_true, and_true]
    exact ⟨rfl, rfl⟩
  length := rfl

theorem insulated_lower : LowerOnSheet storeless insulated := by
  unfold LowerOnSheet
  simp only [List.forall_mem_cons, List.not_mem_nil, false_implies, implies_true, and_true]
  refine ⟨fun r h x x' hx hx' => ?_, fun r h x x' hx hx' => ?_⟩
  · rw [holds_inj hx (storeless_row_demand h).1, holds_inj hx' (insulated_row h).1]
    have : (0 : ℚ) ≤ ((r % 7 : ℕ) : ℚ) := Nat.cast_nonneg _
    linarith
  · rw [holds_inj hx (storeless_row_demand h).2.1, holds_inj hx' (insulated_row h).2.1]
    norm_num

end Sample

attribute [local irreducible] Sample.storeless Sample.insulated simulate

/-- C134: with half the heat demand and half the electric demand the two days of the heat pump of size 10 import no more. -/
example : ∃ rs rs', simulate Sample.strong Sample.storeless (10, 0) = .ok rs ∧
    simulate Sample.strong Sample.insulated (10, 0) = .ok rs' ∧ rs.length = 48 ∧
    List.Forall₂ (fun r r' => r'.grid.totalImport ≤ r.grid.totalImport ∧ r.grid.totalExport ≤ r'.grid.totalExport)
      rs rs' := by
  obtain ⟨S, hS⟩ := Sample.calm_run (10, 0)
  obtain ⟨S', hS'⟩ := Sample.insulated_run (10, 0)
  obtain ⟨c1, c2, -⟩ := Sample.storeless_cells
  obtain ⟨d1, d2⟩ := Sample.insulated_cells
  obtain ⟨rs, h, hl⟩ := C99_simulates_partial Sample.strong_year Sample.storeless_top Sample.storeless_known rfl hS
    c1 c2 (by omega)
  obtain ⟨rs', h', hl'⟩ := C99_simulates_partial Sample.strong_year Sample.insulated_top Sample.insulated_known rfl hS'
    d1 d2 (by omega)
  refine ⟨rs, rs', h, h', hl, (C134_workbook Sample.storeless_top Sample.insulated_top Sample.storeless_plain.sensible
    Sample.storeless_plain.battery (fun S hS => Sample.calm_pump hS) Sample.insulated_same Sample.insulated_network
    Sample.insulated_lower (fun r hr y hy => ?_) h h').imp fun _ _ x => ⟨x.1, x.2.1⟩⟩
  rw [Sample.holds_inj hy (Sample.insulated_row hr).1]
  exact div_nonneg (Nat.cast_nonneg _) (by norm_num)

end Verif
