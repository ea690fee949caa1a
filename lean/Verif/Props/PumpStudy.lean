import Verif.Spec.PumpStudy
import Verif.Props.BiggerPump
import Verif.Props.Programme
import Verif.Props.Report

/-!
# Studies of heat pump sizes (C119)
-/

set_option autoImplicit false

namespace Verif
open Spec Pandas Workbook InputReader Simulation HpConfig FixedOrder Programme

variable {L : Libs} {gekko : Gekko} {wb : Pandas.Workbook}

/-- Two combinations with the same store start from the same run, but for the heat pump. -/
theorem same_but_pump {hp hp' ts : ℤ} {S S' : RunIn (List ℚ)} (h : runInputs L wb (hp, ts) = .ok S)
    (h' : runInputs L wb (hp', ts) = .ok S') : S' = { S with hp := S'.hp, perf := S'.perf } := by
  unfold runInputs at h h'
  simp only [except_bind_ok] at h h'
  obtain ⟨c, hc, h⟩ := h
  obtain ⟨c', hc', h'⟩ := h'
  obtain ⟨b, hr, hs⟩ := containerOf_ok hc
  obtain ⟨b', hr', hs'⟩ := containerOf_ok hc'
  cases Except.ok.inj (hr.symm.trans hr')
  obtain ⟨_, _, _, _, _, _, t, -, -, -, -, -, -, ht, rfl⟩ := resizeContainer_ok hs
  obtain ⟨_, _, _, _, _, _, t', -, -, -, -, -, -, ht', rfl⟩ := resizeContainer_ok hs'
  cases Except.ok.inj (ht.symm.trans ht')
  unfold fixedOrderIn at h h'
  simp only [except_bind_ok, except_pure_ok] at h h'
  obtain ⟨o, ho, ⟨d, f⟩, hd, v1, h1, x1, n1, v2, h2, x2, n2, v3, h3, x3, n3, v4, h4, x4, n4,
    v5, h5, x5, n5, v6, h6, x6, n6, price, hprice, ep, hep, sp, hsp, u, hu, da, hda, pv, hpv, perf, hperf,
    rfl⟩ := h
  obtain ⟨o', ho', ⟨d', f'⟩, hd', v1', h1', x1', n1', v2', h2', x2', n2', v3', h3', x3', n3', v4', h4', x4', n4',
    v5', h5', x5', n5', v6', h6', x6', n6', price', hprice', ep', hep', sp', hsp', u', hu', da', hda', pv', hpv',
    perf', hperf', rfl⟩ := h'
  cases Except.ok.inj (hd.symm.trans hd')
  cases Except.ok.inj (h1.symm.trans h1')
  cases Except.ok.inj (n1.symm.trans n1')
  cases Except.ok.inj (h2.symm.trans h2')
  cases Except.ok.inj (n2.symm.trans n2')
  cases Except.ok.inj (h3.symm.trans h3')
  cases Except.ok.inj (n3.symm.trans n3')
  cases Except.ok.inj (h4.symm.trans h4')
  cases Except.ok.inj (n4.symm.trans n4')
  cases Except.ok.inj (h5.symm.trans h5')
  cases Except.ok.inj (n5.symm.trans n5')
  cases Except.ok.inj (h6.symm.trans h6')
  cases Except.ok.inj (n6.symm.trans n6')
  cases Except.ok.inj (hep.symm.trans hep')
  cases Except.ok.inj (hsp.symm.trans hsp')
  unfold init at ho ho'
  simp only [except_bind_ok, except_pure_ok] at ho ho'
  obtain ⟨⟨ud, curve⟩, k1, w, k2, m1, a1, m2, a2, m3, a3, m4, a4, m5, a5, dd, k3, p1, b1, p2, b2, p3, b3,
    p4, b4, pd, k4, pvm, k5, airs, k6, air, k7, ti, k8, tank, k9, bs, k10, args, k11, hpo, k12, mr, k13,
    mo, k14, bat, k15, ax, k16, gr, k17, rfl⟩ := ho
  obtain ⟨⟨ud', curve'⟩, k1', w', k2', m1', a1', m2', a2', m3', a3', m4', a4', m5', a5', dd', k3', p1', b1', p2',
    b2', p3', b3', p4', b4', pd', k4', pvm', k5', airs', k6', air', k7', ti', k8', tank', k9', bs', k10', args',
    k11', hpo', k12', mr', k13', mo', k14', bat', k15', ax', k16', gr', k17', rfl⟩ := ho'
  cases Except.ok.inj (k1.symm.trans k1')
  cases Except.ok.inj (k2.symm.trans k2')
  cases Except.ok.inj (a1.symm.trans a1')
  cases Except.ok.inj (a2.symm.trans a2')
  cases Except.ok.inj (a3.symm.trans a3')
  cases Except.ok.inj (a4.symm.trans a4')
  cases Except.ok.inj (a5.symm.trans a5')
  cases Except.ok.inj (k3.symm.trans k3')
  cases Except.ok.inj (b1.symm.trans b1')
  cases Except.ok.inj (b2.symm.trans b2')
  cases Except.ok.inj (b3.symm.trans b3')
  cases Except.ok.inj (b4.symm.trans b4')
  cases Except.ok.inj (k4.symm.trans k4')
  cases Except.ok.inj (k5.symm.trans k5')
  cases Except.ok.inj (k6.symm.trans k6')
  cases Except.ok.inj (k7.symm.trans k7')
  cases Except.ok.inj (k8.symm.trans k8')
  cases Except.ok.inj (k9.symm.trans k9')
  cases Except.ok.inj (k15.symm.trans k15')
  cases Except.ok.inj (k16.symm.trans k16')
  cases Except.ok.inj (k17.symm.trans k17')
  cases Except.ok.inj (hprice.symm.trans hprice')
  cases Except.ok.inj (hu.symm.trans hu')
  cases Except.ok.inj (hda.symm.trans hda')
  cases Except.ok.inj (hpv.symm.trans hpv')
  rfl

/-- The rows of the simple model, from the workbook. -/
theorem simple_rows {hp ts : ℤ} {o : Objects} {pfs : List Perf} (hm : Reads wb "Heat pump" 'D' 4 ModelName.simple)
    (ho : objects L wb (hp, ts) = .ok o) (hpe : HpConfig.performance L.kernels o.heatPump = .ok pfs) :
    ∃ cop, Holds wb "Heat pump" 'D' 12 cop ∧ pfs = List.replicate 8760 ⟨if hp = 0 then 1 / 2 else cop, hp⟩ := by
  obtain ⟨hcap, -, -, -, -, -, ⟨t, m, S3, R3, hgen, hsim, -⟩⟩ := C91_heat_pump ho
  cases reads_unique ⟨t, S3, R3⟩ hm
  obtain ⟨cop, hcell, hmod⟩ := hsim rfl
  refine ⟨cop, hcell, ?_⟩
  unfold HpConfig.performance at hpe
  by_cases h0 : hp = 0
  · rw [if_pos (show o.heatPump.capacity = 0 by rw [hcap, h0]; rfl),
      mkPerformance_eq (by rw [List.length_replicate, List.length_replicate])] at hpe
    rw [← Except.ok.inj hpe, List.zipWith_replicate, if_pos h0, h0, Nat.min_self]
    rfl
  · rw [if_neg (show ¬ o.heatPump.capacity = 0 by rw [hcap]; exact_mod_cast h0), hmod] at hpe
    dsimp only at hpe
    rw [mkPerformance_eq (by rw [List.length_replicate, List.length_replicate])] at hpe
    rw [← Except.ok.inj hpe, List.zipWith_replicate, if_neg h0, Nat.min_self]

/-- The performance of a heat pump with the simple model: the COP written in D12, and one half for size zero. -/
theorem simple_performance {hp ts : ℤ} {S : RunIn (List ℚ)} (hm : Reads wb "Heat pump" 'D' 4 ModelName.simple)
    (h : runInputs L wb (hp, ts) = .ok S) : ∃ cop, Holds wb "Heat pump" 'D' 12 cop ∧
      S.perf = List.replicate 8760 ⟨if hp = 0 then 1 / 2 else cop, hp⟩ := by
  obtain ⟨o, T⟩ := start_ok h
  exact simple_rows hm T.objects T.perf

/-- C119, two sizes of heat pump in a workbook: every hour of the larger one imports at most as much, and if an
exported kWh earns no more than an imported one costs, its cash flow is at least as high. -/
theorem C119_workbook (W : PumpStudy wb) {hp hp' : ℤ} (h0 : 0 ≤ hp) (hle : hp ≤ hp')
    {rs rs' : List (Results (List ℚ))} (h : simulate L wb (hp, 0) = .ok rs)
    (h' : simulate L wb (hp', 0) = .ok rs') :
    List.Forall₂ (fun r r' => r'.grid.totalImport ≤ r.grid.totalImport ∧
      (ExportCheaper L wb hp → r.grid.cashflow ≤ r'.grid.cashflow)) rs rs' := by
  obtain ⟨S, first, n, hS, hf, hn, hrun⟩ := simulate_ok.mp h
  obtain ⟨S', first', n', hS', hf', hn', hrun'⟩ := simulate_ok.mp h'
  have e1 : first' = first := by exact_mod_cast Except.ok.inj (congrArg numOf (hf'.symm.trans hf))
  have e2 : n' = n := by exact_mod_cast Except.ok.inj (congrArg numOf (hn'.symm.trans hn))
  subst e1 e2
  by_cases hz : hp' = 0
  · have hz' : hp = 0 := by omega
    subst hz hz'
    cases Except.ok.inj (h.symm.trans h')
    exact List.forall₂_same.mpr fun r _ => ⟨le_rfl, fun _ => le_rfl⟩
  have same := same_but_pump hS hS'
  obtain ⟨cop, hc, hperf⟩ := simple_performance W.model hS
  obtain ⟨cop', hc', hperf'⟩ := simple_performance W.model hS'
  have ec : cop' = cop := Except.ok.inj (congrArg numOf (hc'.symm.trans hc))
  subst ec
  have hcop : 1 ≤ cop' := W.cop _ hc
  rw [if_neg hz] at hperf'
  have hpump : ∀ {x : ℤ} {T : RunIn (List ℚ)}, 0 ≤ x → runInputs L wb (x, 0) = .ok T → GoodPump T :=
    fun hx hT => C99_simple_pump hT (.inr ⟨hx, W.model, fun c hcell => by linarith [W.cop c hcell]⟩)
  obtain ⟨H, O⟩ := C99_meaningful W.top W.sensible hS (hpump h0 hS) le_rfl
  obtain ⟨H', -⟩ := C99_meaningful W.top W.sensible hS' (hpump (h0.trans hle) hS') le_rfl
  obtain ⟨o, T⟩ := start_ok hS
  obtain ⟨-, -, o', source, flow, ret, delta, ho', htank, -⟩ := C93_demand W.top hS
  cases Except.ok.inj (ho'.symm.trans T.objects)
  obtain ⟨s, row, hs, hrow, hb, -⟩ := C91_battery W.top T.objects
  have hb0 : S.es.capacity = 0 := by
    rw [T.es]
    exact Except.ok.inj (congrArg numOf (hb.symm.trans (W.battery s row hs hrow)))
  have hns : RunNoStores S :=
    C102_no_tank htank (by rw [(C91_tank T.objects).1]; rfl) hb0
  obtain ⟨fuel, hfuel, -, hel, -⟩ := C91_heater T.objects
  have helec : S.aux.electric = true := by
    rw [T.aux]
    exact hel.mpr (Except.ok.inj (hfuel.symm.trans W.heater))
  obtain ⟨-, hex, ⟨a, a1, a2⟩, ⟨b, b1, b2⟩⟩ := C91_controller hS
  have hord : ∀ {row : ℕ} {t : String} {order : List ℤ}, Says wb "Controller" 'D' row t →
      InputText.readOrder t.toList = .ok order → Lists wb row 9 → 9 ∈ order := by
    rintro row t order h1 h2 ⟨t', order', h3, h4, h5⟩
    cases Except.ok.inj (congrArg textOf (h1.symm.trans h3))
    cases Except.ok.inj (h2.symm.trans h4)
    exact h5
  have ha : PumpOrder false S.orderAbove :=
    ⟨(W.sensible.above a _ a1 a2).1, hord a1 a2 W.listed.1, W.above a _ a1 a2⟩
  have hbo : PumpOrder true S.orderBelow :=
    ⟨(W.sensible.below b _ b1 b2).1, hord b1 b2 W.listed.2, W.below b _ b1 b2⟩
  have hm : BetterPumpRun S S' := by
    refine ⟨same, ?_⟩
    rw [hperf, hperf']
    refine List.forall₂_iff_get.mpr ⟨?_, fun i g1 g2 => ?_⟩
    · exact List.length_replicate.trans List.length_replicate.symm
    · have q1 := List.eq_of_mem_replicate (List.get_mem (List.replicate 8760 _) ⟨i, g1⟩)
      have q2 := List.eq_of_mem_replicate (List.get_mem (List.replicate 8760 _) ⟨i, g2⟩)
      rw [q1, q2]
      refine ⟨?_, ?_⟩
      · show (if hp = 0 then 1 / 2 else cop') ≤ cop'
        split_ifs <;> linarith
      · show (hp : ℚ) ≤ hp'
        exact_mod_cast hle
  have hk : ∀ p ∈ S'.perf, 1 ≤ p.cop := by
    intro p hp
    rw [hperf'] at hp
    rw [List.eq_of_mem_replicate hp]
    exact hcop
  have hall := C119_run H H' hns hm hk helec ha hbo hrun hrun'
  refine ((List.forall₂_and_left _ _).mpr ⟨fun r hr => hr, hall⟩).imp fun r r' g => ⟨g.2.1, ?_⟩
  rintro ⟨ex, e1, e2, e3⟩
  have ee : S.exportPrice = ex := Except.ok.inj (congrArg numOf (hex.symm.trans e1))
  exact g.2.2.2 (by rw [ee]; exact e2) (by rw [ee]; exact e3 rs h r g.1)

/-- C119: with flat rates it is enough to compare the cells of the two prices. -/
theorem C119_flat_rates (W : PumpStudy wb) {hp : ℤ} (h0 : 0 ≤ hp) (hflat : Says wb "Grid" 'D' 5 "Flat rates")
    {ex im : ℚ} (hex : Holds wb "Grid" 'D' 9 ex) (him : Holds wb "Grid" 'C' 9 im) (h1 : 0 ≤ ex) (h2 : ex ≤ im) :
    ExportCheaper L wb hp := by
  refine ⟨ex, hex, h1, fun rs hrs r hr => ?_⟩
  obtain ⟨first, -, -, -, hall⟩ := C99_combination W.top W.sensible le_rfl
    (fun S hS => C99_simple_pump hS (.inr ⟨h0, W.model, fun c hc => by linarith [W.cop c hc]⟩)) hrs
  obtain ⟨k, hk, hkr⟩ := List.getElem_of_mem hr
  have R := hall k r (by rw [List.getElem?_eq_getElem hk, hkr])
  have e : r.grid.importPrice = im :=
    Except.ok.inj (congrArg numOf ((R.costs.2.2.2 hflat).symm.trans him))
  rw [e]
  exact h2

/-- What a table of a study of the fixed order controller shows about a combination. -/
theorem shown_entry (ht : TopRowsEmpty wb) (hc : Says wb "Controller" 'D' 5 "Fixed order control") {root : String}
    {files : List (String × KpiTables.Content)} {e : Option PyErr}
    {st : Main.Store (List Char) Programme.Outcome Figures.Drawn}
    (h : Report.Ends L gekko wb root (.ok (files, e), st)) {file : String} {t : KpiTables.Table}
    (hf : (file, .table t) ∈ files) {pa : Para.Ranges} {sizes : List (ℤ × ℤ)} (hpa : RangesIn wb pa)
    (hz : Para.combos pa = .ok sizes) {i k : ℕ} {size : ℤ × ℤ} (hi : sizes[i]? = some size)
    {row : List (Option ℝ)} (hr : t.rows[i]? = some row) {column : String} (hk : t.columns[k]? = some column)
    {v : Option ℝ} (hv : row[k]? = some v) :
    ∃ C : Kpi.Calcs (List ℚ), Spec.columnMeaning column size C = .ok v ∧ KpiCells L wb size C ∧
      simulate L wb size = .ok C.results ∧ AllHours C := by
  obtain ⟨-, pa', sizes', hpa', hz', -, hrows⟩ := C101_tables ht h hf
  cases Except.ok.inj (hz'.symm.trans ((ranges_combos hpa' hpa).trans hz))
  obtain ⟨C, row', hr', hro, K, hrun⟩ := hrows i size hi
  cases Option.some.inj (hr.symm.trans hr')
  have hsim : simulate L wb size = .ok C.results := by
    rcases hrun with ⟨-, g⟩ | ⟨g, -⟩
    · exact g
    · exact absurd (Except.ok.inj (congrArg textOf (hc.symm.trans g))) (by decide)
  refine ⟨C, forall₂_getElem? hro hk hv, K, hsim, ?_⟩
  obtain ⟨S, first, n, -, -, hn, hrs⟩ := simulate_ok.mp hsim
  have en : n = C.timesteps := by exact_mod_cast Except.ok.inj (congrArg numOf (hn.symm.trans K.hours))
  exact (C27_one_result_per_hour hrs).trans en

/-- C119, the tables of a study: of two heat pumps without a store the larger one has no larger `sum_import`, and
if an exported kWh earns no more than an imported one costs, no larger `opex`. -/
theorem C119_tables (W : PumpStudy wb) (hc : Says wb "Controller" 'D' 5 "Fixed order control") {root : String}
    {files : List (String × KpiTables.Content)} {e : Option PyErr}
    {st : Main.Store (List Char) Programme.Outcome Figures.Drawn}
    (h : Report.Ends L gekko wb root (.ok (files, e), st)) {file : String} {t : KpiTables.Table}
    (hf : (file, .table t) ∈ files) {pa : Para.Ranges} {sizes : List (ℤ × ℤ)} (hpa : RangesIn wb pa)
    (hz : Para.combos pa = .ok sizes) {hp hp' : ℤ} (h0 : 0 ≤ hp) (hle : hp ≤ hp') {i i' k : ℕ}
    (hi : sizes[i]? = some (hp, 0)) (hi' : sizes[i']? = some (hp', 0)) {row row' : List (Option ℝ)}
    (hr : t.rows[i]? = some row) (hr' : t.rows[i']? = some row') {column : String}
    (hk : t.columns[k]? = some column) {v v' : Option ℝ} (hv : row[k]? = some v) (hv' : row'[k]? = some v')
    (hcol : column = "sum_import" ∨ column = "opex" ∧ ExportCheaper L wb hp) :
    ∃ x x' : ℝ, v = some x ∧ v' = some x' ∧ x' ≤ x := by
  obtain ⟨C, m, K, hs, ha⟩ := shown_entry W.top hc h hf hpa hz hi hr hk hv
  obtain ⟨C', m', K', hs', ha'⟩ := shown_entry W.top hc h hf hpa hz hi' hr' hk hv'
  have hall := C119_workbook W h0 hle hs hs'
  rcases hcol with rfl | ⟨rfl, hx⟩
  · have g := sum_le_of_forall₂ (fun r => r.grid.totalImport) (fun r => r.grid.totalImport) hall.flip
      (fun a b hab => hab.1)
    simp only [Spec.columnMeaning, Kpi.sumImport, except_map_ok, Kpi.total_ok ha, Kpi.total_ok ha'] at m m'
    obtain ⟨a, q, m⟩ := m
    obtain ⟨a', q', m'⟩ := m'
    cases Except.ok.inj q
    cases Except.ok.inj q'
    refine ⟨_, _, m.symm, m'.symm, ?_⟩
    exact_mod_cast g
  · have g := sum_le_of_forall₂ (fun r => r.grid.cashflow) (fun r => r.grid.cashflow) hall
      (fun a b hab => hab.2 hx)
    have el := K.heater.mpr W.heater
    have el' := K'.heater.mpr W.heater
    have neg : ∀ l : List (Results (List ℚ)), ((l.map (·.grid.cashflow)).map (- ·)).sum =
        -(l.map (·.grid.cashflow)).sum := by
      intro l
      induction l with
      | nil => rfl
      | cons a l ih => simp only [List.map_cons, List.sum_cons, ih]; ring
    have op : ∀ {D : Kpi.Calcs (List ℚ)}, AllHours D → D.electric = true →
        Kpi.operatingCost D = .ok (-(D.results.map (·.grid.cashflow)).sum / 1000) := by
      intro D hD hel
      unfold Kpi.operatingCost
      rw [Kpi.series_ok hD, Kpi.series_ok hD]
      simp only [hel, if_true]
      show Except.ok _ = Except.ok _
      rw [neg]
    simp only [Spec.columnMeaning, except_map_ok, op ha el, op ha' el'] at m m'
    obtain ⟨a, q, m⟩ := m
    obtain ⟨a', q', m'⟩ := m'
    cases Except.ok.inj q
    cases Except.ok.inj q'
    refine ⟨_, _, m.symm, m'.symm, ?_⟩
    have : -(C'.results.map (·.grid.cashflow)).sum / 1000 ≤ -(C.results.map (·.grid.cashflow)).sum / 1000 := by
      linarith
    exact_mod_cast this

end Verif
