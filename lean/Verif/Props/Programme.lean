import Verif.Lemmas.Programme
import Verif.Spec.Programme
import Verif.Props.RunCosts
import Verif.Props.TankRun
import Verif.Props.Start
import Verif.Props.Main

/-!
# Property C99: a whole study, from the cells of the workbook to the results of every combination
-/

set_option autoImplicit false

namespace Verif
open Pandas Workbook InputReader Enums Simulation Spec FixedOrder Programme

theorem hourly_at {wb : Pandas.Workbook} {sheet : String} {col : Char} {row : ℕ} {xs : List ℚ}
    (h : Hourly wb sheet col row xs) {x : ℚ} (hx : x ∈ xs) :
    ∃ r, row ≤ r ∧ Holds wb sheet col r x := by
  obtain ⟨s, -, -, hc⟩ := h
  obtain ⟨t, ht, rfl⟩ := List.getElem_of_mem hx
  exact ⟨row + t, by omega, hc t _ (List.getElem?_eq_getElem ht)⟩

theorem zero_pump {K : HpConfig.Kernels} {o : HpObj} {ps : List Perf} (h : HpConfig.performance K o = .ok ps)
    (h0 : o.capacity = 0) : ∀ p ∈ ps, p.cop = 1 / 2 ∧ p.duty = 0 := by
  unfold HpConfig.performance at h
  rw [if_pos h0, mkPerformance_eq (by rw [List.length_replicate, List.length_replicate])] at h
  intro p hp
  rw [← Except.ok.inj h, List.zipWith_replicate] at hp
  rw [List.eq_of_mem_replicate hp]
  exact ⟨rfl, rfl⟩

/-- C99: entries that mean something make a system the theorems about runs apply to. -/
theorem C99_meaningful {L : Libs} {wb : Pandas.Workbook} {size : ℤ × ℤ} {S : RunIn (List ℚ)}
    (ht : TopRowsEmpty wb) (hw : Sensible wb) (h : runInputs L wb size = .ok S) (hp : GoodPump S)
    (h2 : 0 ≤ size.2) : RunOk S ∧ OrdersOk S := by
  obtain ⟨o, T⟩ := start_ok h
  obtain ⟨D1, D2, o', source, flow, ret, delta, ho', htank, D3, D4, D5, D6⟩ := C93_demand ht h
  cases Except.ok.inj (ho'.symm.trans T.objects)
  obtain ⟨s, row, hs, hrow, b1, b2, b3, b4, b5, b6, b7⟩ := C91_battery ht T.objects
  obtain ⟨K1, K2⟩ := hw.battery s row hs hrow
  simp only [List.forall_mem_cons, List.not_mem_nil, false_implies, implies_true, and_true] at K1 K2
  obtain ⟨c1, c2, c3, c4, c5, c6, c7⟩ := K1
  obtain ⟨d2, d5, d6, d7⟩ := K2
  refine ⟨{ es := ?_, heat_nonneg := ?_, cop_pos := fun p h => (hp p h).1,
            duty_nonneg := fun p h => (hp p h).2, zero_cap := ?_, tank_nonneg := ?_ }, ?_⟩
  · rw [T.es]
    exact ⟨c1 _ b1, c3 _ b3, c4 _ b4, c2 _ b2, d2 _ b2, c5 _ b5, d5 _ b5, c6 _ b6, d6 _ b6, c7 _ b7, d7 _ b7⟩
  · intro x hx
    obtain ⟨r, hr, hc⟩ := hourly_at D1 hx
    exact hw.heat r hr x hc
  · intro h0 p hpm
    rw [T.hp] at h0
    exact (zero_pump T.perf h0 p hpm).2
  · intro hour st nodes m hh hm
    rw [htank] at hm
    refine C33_nonneg ?_ ?_ hm
    · rw [(C91_tank T.objects).1]
      exact_mod_cast h2
    · dsimp only
      obtain ⟨s1, hs1, l1, -⟩ := D1
      obtain ⟨s2, hs2, l2, hc⟩ := D4
      cases Option.some.inj (hs1.symm.trans hs2)
      have hlt : hour < flow.length := by omega
      rw [List.getD_eq_getElem?_getD, List.getElem?_eq_getElem hlt, Option.getD_some]
      exact hw.network ret D5 (6 + hour) (by omega) _ (hc hour _ (List.getElem?_eq_getElem hlt))
  · obtain ⟨-, -, ⟨a, a1, a2⟩, ⟨b, b1, b2⟩⟩ := C91_controller h
    obtain ⟨x1, x2⟩ := hw.above a _ a1 a2
    obtain ⟨y1, y2⟩ := hw.below b _ b1 b2
    exact ⟨x1, y1, x2, y2⟩

/-- C99: a heat pump of size zero, or one with the simple model, a positive COP in D12 and a size that is not
negative. -/
theorem C99_simple_pump {L : Libs} {wb : Pandas.Workbook} {size : ℤ × ℤ} {S : RunIn (List ℚ)}
    (h : runInputs L wb size = .ok S)
    (hp : size.1 = 0 ∨ 0 ≤ size.1 ∧ Reads wb "Heat pump" 'D' 4 ModelName.simple ∧
      ∀ cop, Holds wb "Heat pump" 'D' 12 cop → 0 < cop) : GoodPump S := by
  obtain ⟨o, T⟩ := start_ok h
  obtain ⟨hcap, -, -, -, -, -, ⟨t, m, S3, R3, hgen, hsim, -⟩⟩ := C91_heat_pump T.objects
  have hpe := T.perf
  intro p hpm
  by_cases h0 : o.heatPump.capacity = 0
  · obtain ⟨e1, e2⟩ := zero_pump hpe h0 p hpm
    rw [e1, e2]
    norm_num
  · rcases hp with hz | ⟨hn, hr, hc⟩
    · exact absurd (by rw [hcap, hz]; rfl) h0
    · cases reads_unique ⟨t, S3, R3⟩ hr
      obtain ⟨cop, hcell, hm⟩ := hsim rfl
      unfold HpConfig.performance at hpe
      rw [if_neg h0, hm] at hpe
      dsimp only at hpe
      rw [mkPerformance_eq (by rw [List.length_replicate, List.length_replicate])] at hpe
      rw [← Except.ok.inj hpe, List.zipWith_replicate] at hpm
      rw [List.eq_of_mem_replicate hpm]
      exact ⟨hc cop hcell, (Int.cast_nonneg_iff (R := ℚ)).mpr hn⟩

/-- What is reported for one hour of a combination, in terms of the workbook. -/
structure Spec.HourReport (wb : Pandas.Workbook) (size : ℤ × ℤ) (hour : ℕ) (r : Results (List ℚ)) : Prop where
  /-- The demands are those of the hour, rows counted from 6. -/
  heat : Holds wb "Demand input" 'D' (6 + hour) r.heatDemand.heatDemand
  elec : Holds wb "Demand input" 'E' (6 + hour) r.elecDemand.elecDemand
  /-- Renewables, battery and import together are the electrical demand, if both orders list the import. -/
  balance : Lists wb 8 3 → Lists wb 9 2 →
    r.elecDemand.res + r.elecDemand.es + r.elecDemand.imp = r.elecDemand.elecDemand
  /-- No more renewable power is used than there is. -/
  generation : r.res.generationTotal = r.res.wind + r.res.pv ∧
    r.res.elecDemand + r.res.hp + r.res.aux + r.res.es + r.res.exp ≤ r.res.generationTotal
  nonneg : FlowsNonneg r
  /-- The battery is neither empty beyond zero nor charged beyond the capacity written in its row. -/
  soc : ∃ s row cap, wb "Electrical storage" = some s ∧ FirstComplete s [5] [0, 1] row ∧
    Holds wb "Electrical storage" 'C' row cap ∧ 0 ≤ r.es.finalSoc ∧ r.es.finalSoc ≤ cap
  /-- The store has as many layers as written, the hotter ones above. -/
  store : ∃ nodes, r.ts.finalNodesTemp = some nodes ∧ Stratified nodes ∧
    Holds wb "Thermal storage" 'D' 8 nodes.length
  /-- Without a store, its layers keep the return temperature. -/
  noStore : size.2 = 0 → ∃ ret nodes, Holds wb "Demand input" 'I' 6 ret ∧
    r.ts.finalNodesTemp = some nodes ∧ ∀ x ∈ nodes, x = ret
  /-- The export is sold at the price written, the import paid at the price reported, and with the tariff of
  flat rates that is the price written. -/
  costs : (∃ ex, Holds wb "Grid" 'D' 9 ex ∧ r.grid.exportIncome = r.grid.totalExport * ex / 1000) ∧
    r.grid.importCosts = r.grid.totalImport * r.grid.importPrice / 1000 ∧
    r.grid.cashflow = r.grid.exportIncome - r.grid.importCosts ∧
    (Says wb "Grid" 'D' 5 "Flat rates" → Holds wb "Grid" 'C' 9 r.grid.importPrice)
  /-- The heat delivered is the demand, if both orders list the boiler and the heat pump gives heat or has no
  minimum output. -/
  delivered : Lists wb 8 9 → Lists wb 9 9 →
    r.hp.heatTotalOutput ≠ 0 ∨ Holds wb "Heat pump" 'D' 8 0 →
    ∃ setpoint, Holds wb "Controller" 'D' 7 setpoint ∧
      heatDelivered (decide (r.grid.importPrice ≤ setpoint)) r = r.heatDemand.heatDemand

theorem lists_mem {wb : Pandas.Workbook} {row : ℕ} {p : ℤ} {order : List ℤ} (h : Lists wb row p)
    (ho : ∃ a, Says wb "Controller" 'D' row a ∧ InputText.readOrder a.toList = .ok order) : p ∈ order := by
  obtain ⟨t, os, h1, h2, h3⟩ := h
  obtain ⟨a, a1, a2⟩ := ho
  have e := h1.symm.trans a1
  injection e with e
  injection e with e
  subst e
  cases Except.ok.inj (h2.symm.trans a2)
  exact h3

/-- C99, one combination: its results are those of the hours asked for in G5 and G6 of the controller sheet,
and each is as `HourReport` says. -/
theorem C99_combination {L : Libs} {wb : Pandas.Workbook} {size : ℤ × ℤ} {rs : List (Results (List ℚ))}
    (ht : TopRowsEmpty wb) (hw : Sensible wb) (h2 : 0 ≤ size.2)
    (hp : ∀ S, runInputs L wb size = .ok S → GoodPump S) (h : simulate L wb size = .ok rs) :
    ∃ first : ℕ, Holds wb "Controller" 'G' 5 first ∧ Holds wb "Controller" 'G' 6 rs.length ∧
      first + rs.length ≤ 8760 ∧
      ∀ k r, rs[k]? = some r → HourReport wb size (first + k) r := by
  obtain ⟨S, first, n, hS, hf, hn, hrun⟩ := simulate_ok.mp h
  obtain ⟨hR, hO⟩ := C99_meaningful ht hw hS (hp S hS) h2
  have hlen := C27_one_result_per_hour hrun
  obtain ⟨o, T⟩ := start_ok hS
  obtain ⟨D1, D2, o', source, flow, ret, delta, ho', htank, D3, D4, D5, D6⟩ := C93_demand ht hS
  cases Except.ok.inj (ho'.symm.trans T.objects)
  obtain ⟨hsp, hex, hoa, hob⟩ := C91_controller hS
  obtain ⟨sb, rowb, hsb, hrowb, bcap, -⟩ := C91_battery ht T.objects
  obtain ⟨tcap, tnum, -⟩ := C91_tank T.objects
  refine ⟨first, hf, by rw [hlen]; exact hn, ?_, ?_⟩
  · obtain ⟨_, _, hle, _⟩ := runTimesteps_ok.mp hrun
    omega
  intro k r hr
  have hk : k < n := by
    rw [← hlen]
    exact (List.getElem?_eq_some_iff.mp hr).1
  have hmem : r ∈ rs := List.mem_of_getElem? hr
  obtain ⟨r1, e1, R1, R2, R3, R4, R5⟩ := C27_reports_its_hour hrun hk
  cases Option.some.inj (hr.symm.trans e1)
  obtain ⟨r1, price, e1, P1, P2, P3, P4, P5⟩ := C24_run_costs hR hO hrun hk
  cases Option.some.inj (hr.symm.trans e1)
  refine
    { heat := ?_, elec := ?_, balance := ?_, generation := ⟨R5, C19_run_within_generation hR hO hrun hmem⟩,
      nonneg := C21_run_flows_nonneg hR hO hrun hmem, soc := ?_, store := ?_, noStore := ?_, costs := ?_,
      delivered := ?_ }
  · obtain ⟨_, -, -, hc⟩ := D1
    exact hc _ _ R1
  · obtain ⟨_, -, -, hc⟩ := D2
    exact hc _ _ R2
  · intro l1 l2
    exact C18_run_demand_supplied hR hO (lists_mem l1 hoa) (lists_mem l2 hob) hrun hmem
  · obtain ⟨s0, s1⟩ := C23_run_soc_within_capacity hR hrun hmem
    exact ⟨sb, rowb, _, hsb, hrowb, bcap, s0, by rw [← T.es]; exact s1⟩
  · obtain ⟨nodes, n1, n2, n3⟩ := C30_run_profiles htank hrun hmem
    exact ⟨nodes, n1, n2, by rw [n3]; exact tnum⟩
  · intro h0
    have hc : S.tank.capacity = 0 := by
      rw [htank]
      show o.tank.capacity = 0
      rw [tcap, h0]
      rfl
    refine ⟨ret, S.tank.initTemps, D5, C32_run_unchanged hc hrun hmem, ?_⟩
    rw [htank]
    intro x hx
    exact List.eq_of_mem_replicate hx
  · refine ⟨⟨_, hex, P4⟩, by rw [P2]; exact P3, P5, fun hflat => ?_⟩
    obtain ⟨G1, G2, -⟩ := C91_grid ht T.objects
    obtain ⟨-, V1, -⟩ := C91_tariff T.objects
    have htar : o.grid.tariff = "Flat rates" := by
      have := G1.symm.trans hflat
      injection this with this
      injection this
    obtain ⟨x, hx⟩ := Option.isSome_iff_exists.mp (V1.mpr (Or.inl htar))
    obtain ⟨c, -, hpr⟩ := T.importPrice
    have hser : S.importPrice = List.replicate 8760 x := by
      have hu : usesFarm o.grid = false := by
        unfold usesFarm
        rw [htar]
        decide
      unfold importPrices Tariff.importCostSeries Tariff.flatRatesSeries at hpr
      rw [hu, if_neg (by decide), okBind] at hpr
      dsimp only at hpr
      rw [if_pos htar, hx] at hpr
      exact (Except.ok.inj hpr).symm
    rw [P2]
    rw [hser] at P1
    rw [List.eq_of_mem_replicate (List.mem_of_getElem? P1)]
    exact G2 x hx
  · intro l1 l2 hor
    refine ⟨_, hsp, ?_⟩
    rcases hor with hon | hmin
    · obtain ⟨r1, price', e1, Q1, Q2⟩ := C26_run_heat_delivered_while_on hR hO (lists_mem l1 hoa)
        (lists_mem l2 hob) hrun hk
      cases Option.some.inj (hr.symm.trans e1)
      cases Option.some.inj (P1.symm.trans Q1)
      rw [P2]
      exact Q2 hon
    · have hm0 : S.hp.minimumOutput = 0 := by
        rw [T.hp]
        have := (C91_heat_pump T.objects).2.2.2.1.symm.trans hmin
        injection this with this
        injection this
      obtain ⟨r1, price', e1, Q1, Q2⟩ := C20_run_heat_delivered_partial hR hO hm0 (lists_mem l1 hoa)
        (lists_mem l2 hob) hrun hk
      cases Option.some.inj (hr.symm.trans e1)
      cases Option.some.inj (P1.symm.trans Q1)
      rw [P2]
      exact Q2

/-- The ranges of the study as written in the workbook; a step counts only where the sizes differ, the step of
the heat pump also where those of the store do. -/
structure Spec.RangesIn (wb : Pandas.Workbook) (pa : Para.Ranges) : Prop where
  hpMax : Holds wb "Parametric" 'D' 6 pa.hpMax
  hpMin : Holds wb "Parametric" 'E' 6 pa.hpMin
  tsMax : Holds wb "Parametric" 'D' 7 pa.tsMax
  tsMin : Holds wb "Parametric" 'E' 7 pa.tsMin
  hpStep : ¬ (pa.hpMin = pa.hpMax ∧ pa.tsMin = pa.tsMax) → Holds wb "Parametric" 'F' 6 pa.hpStep
  tsStep : pa.tsMin ≠ pa.tsMax → Holds wb "Parametric" 'F' 7 pa.tsStep

theorem solve_fixed {L : Libs} {gekko : Gekko} {wb : Pandas.Workbook} {size : ℤ × ℤ} {c : Container}
    {first n : ℕ} (hc : containerOf wb size = .ok c) (hf : Holds wb "Controller" 'G' 5 first)
    (hn : Holds wb "Controller" 'G' 6 n) {r : Programme.Outcome} :
    solvePickle L gekko .fixedOrder first n c = .ok r ↔
      ∃ rs, simulate L wb size = .ok rs ∧ r = .fixed rs := by
  unfold solvePickle Main.runSolver
  simp only [except_bind_ok, except_pure_ok]
  constructor
  · rintro ⟨S, hS, rs, hrs, rfl⟩
    refine ⟨rs, simulate_ok.mpr ⟨S, first, n, ?_, hf, hn, hrs⟩, rfl⟩
    unfold runInputs
    rw [hc]
    exact hS
  · rintro ⟨rs, hsim, rfl⟩
    obtain ⟨S, first', n', hS, hf', hn', hrun⟩ := simulate_ok.mp hsim
    have e1 : first = first' := by exact_mod_cast Except.ok.inj (congrArg numOf (hf.symm.trans hf'))
    have e2 : n = n' := by exact_mod_cast Except.ok.inj (congrArg numOf (hn.symm.trans hn'))
    subst e1 e2
    unfold runInputs at hS
    rw [hc] at hS
    exact ⟨S, hS, rs, hrun, rfl⟩

variable {F K : Type}

theorem ends_ok {L : Libs} {gekko : Gekko} {wb : Pandas.Workbook} {out : Outputs F K} {k : K}
    {st : Main.Store (List Char) Programme.Outcome F} (h : Ends L gekko wb out (.ok k, st)) :
    ∃ s, setup L gekko wb = .ok s ∧ Main.single (s.parts out) s.names = (.ok k, st) := by
  unfold Ends at h
  split at h
  · cases h
  · rename_i s hs
    refine ⟨s, hs, ?_⟩
    rcases h with h | ⟨es, h⟩
    · exact h.symm
    · exact C54_no_false_success h

theorem single_ok {N R : Type} [DecidableEq N] {P : Main.Parts N R F K} {names : List N} {k : K}
    {st : Main.Store N R F} (h : Main.single P names = (.ok k, st)) :
    Main.singleLoop P names .empty = (none, st) ∧ P.kpis st.results = .ok k := by
  unfold Main.single at h
  split at h
  · cases h
  · unfold Main.finish at h
    split at h
    · cases h
    · rename_i heq
      obtain ⟨h1, h2⟩ := Prod.mk.inj h
      subst h2
      exact ⟨heq, h1⟩

/-- The program, on one core or on two, ends with this answer and these output folders, and on two cores nobody killed
the output process and its last jobs took no more than the 30 seconds it is given. -/
def Spec.EndsUndisturbed (two : Bool) (L : Libs) (gekko : Gekko) (wb : Pandas.Workbook) (out : Outputs F K)
    (answer : Except PyErr K × Main.Store (List Char) Programme.Outcome F) : Prop :=
  match setup L gekko wb with
  | .error e => answer = (.error e, .empty)
  | .ok s =>
    if two then ∃ es, Main.TwoCore (s.parts out) s.names es answer ∧ (∀ w c, .proc (.kill w c) ∉ es) ∧ .proc .timeout ∉ es
    else answer = Main.single (s.parts out) s.names

/-- C99, the number of cores: a study that can end without an error at all ends so on one core and on two, in every
schedule in which the output process is not killed and does not run out of time, and always with the same results,
figures and tables. -/
theorem C99_any_cores {L : Libs} {gekko : Gekko} {wb : Pandas.Workbook} {out : Outputs F K} {k : K}
    {st : Main.Store (List Char) Programme.Outcome F} (h : Ends L gekko wb out (.ok k, st)) (two : Bool) :
    (∃ answer, Spec.EndsUndisturbed two L gekko wb out answer) ∧
    ∀ answer, Spec.EndsUndisturbed two L gekko wb out answer → answer = (.ok k, st) := by
  obtain ⟨s, hs, h1⟩ := ends_ok h
  have hplot : ∀ n ∈ s.names, ∀ r, (s.parts out).solve n = .ok r → ((s.parts out).plot n r).2 = none := by
    intro n hn r hr
    obtain ⟨r', hr', -, -, hp⟩ := (singleLoop_ok (single_ok h1).1).1 n hn
    cases Except.ok.inj (hr.symm.trans hr')
    exact hp
  have hne : s.names ≠ [] := by
    intro h0
    rw [h0] at h1
    cases h1
  unfold Spec.EndsUndisturbed
  rw [hs]
  cases two with
  | false => exact ⟨⟨_, rfl⟩, fun answer ha => ha.trans h1⟩
  | true =>
    obtain ⟨es, he⟩ := C54_two_cores_end hne hplot
    refine ⟨⟨_, es, he⟩, ?_⟩
    rintro answer ⟨es, ha, hkill, htime⟩
    exact (C54_every_schedule_partial ha hplot hkill htime).trans h1

/-- C99, the study: when the program ends without an error, on one core or on two and whatever happens in
which order, then the results of every combination of the ranges written in the workbook are the simulation
of that combination, nothing else has results, and the tables are made from these results. -/
theorem C99_study {L : Libs} {gekko : Gekko} {wb : Pandas.Workbook} {out : Outputs F K} {k : K}
    {st : Main.Store (List Char) Programme.Outcome F}
    (hc : Says wb "Controller" 'D' 5 "Fixed order control") (h : Ends L gekko wb out (.ok k, st)) :
    ∃ pa sizes, RangesIn wb pa ∧ Para.combos pa = .ok sizes ∧ sizes ≠ [] ∧
      (∀ size ∈ sizes, ∃ rs, simulate L wb size = .ok rs ∧
        st.results (Para.folderName size) = some (.fixed rs) ∧
        st.figures (Para.folderName size) = (out.plot (Para.folderName size) (.fixed rs)).1) ∧
      (∀ name, (∀ size ∈ sizes, name ≠ Para.folderName size) →
        st.results name = none ∧ st.figures name = []) ∧
      out.kpis st.results = .ok k := by
  obtain ⟨s, hs, h⟩ := ends_ok h
  obtain ⟨pa, sizes, ctl, first, n, Z⟩ := setup_ok hs
  obtain ⟨hloop, hk⟩ := single_ok h
  obtain ⟨h1, h2⟩ := singleLoop_ok hloop
  have hctl : controllerOf ctl = .fixedOrder := by
    rw [← Z.chosen]
    unfold Says at hc
    rw [hc]
    rfl
  refine ⟨pa, sizes, ⟨Z.hpMax, Z.hpMin, Z.tsMax, Z.tsMin, Z.hpStep, Z.tsStep⟩, Z.combos, Z.nonempty, ?_, ?_, hk⟩
  · intro size hz
    obtain ⟨r, hr, e1, e2, -⟩ := h1 (Para.folderName size)
      (by rw [Z.names]; exact List.mem_map_of_mem hz)
    obtain ⟨c, hcont, hsol⟩ := Z.solve size hz
    have hr' : s.solve (Para.folderName size) = .ok r := hr
    rw [hsol, hctl, solve_fixed hcont Z.from_hour Z.hours] at hr'
    obtain ⟨rs, hsim, rfl⟩ := hr'
    exact ⟨rs, hsim, e1, e2⟩
  · intro name hn
    refine h2 name (fun hm => ?_)
    rw [Z.names] at hm
    obtain ⟨z, hz, rfl⟩ := List.mem_map.mp hm
    exact hn z hz rfl

/-- C99, the hours of a study: with meaningful entries, every reported hour of every combination is as
`HourReport` says. -/
theorem C99_study_hours {L : Libs} {gekko : Gekko} {wb : Pandas.Workbook} {out : Outputs F K} {k : K}
    {st : Main.Store (List Char) Programme.Outcome F} (ht : TopRowsEmpty wb) (hw : Sensible wb)
    (hp : ∀ size S, runInputs L wb size = .ok S → GoodPump S)
    (hc : Says wb "Controller" 'D' 5 "Fixed order control") (h : Ends L gekko wb out (.ok k, st)) :
    ∃ pa sizes, RangesIn wb pa ∧ Para.combos pa = .ok sizes ∧ ∀ size ∈ sizes, 0 ≤ size.2 →
      ∃ rs, st.results (Para.folderName size) = some (.fixed rs) ∧
      ∃ first : ℕ, Holds wb "Controller" 'G' 5 first ∧ Holds wb "Controller" 'G' 6 rs.length ∧
        ∀ i r, rs[i]? = some r → HourReport wb size (first + i) r := by
  obtain ⟨pa, sizes, h1, h2, -, h3, -⟩ := C99_study hc h
  refine ⟨pa, sizes, h1, h2, fun size hz h0 => ?_⟩
  obtain ⟨rs, hsim, hres, -⟩ := h3 size hz
  obtain ⟨first, hf, hn, -, hall⟩ := C99_combination ht hw h0 (hp size) hsim
  exact ⟨rs, hres, first, hf, hn, hall⟩

/-- C99: the program gets to the loop over the combinations exactly if the workbook can be read, the ranges
and the hours are whole numbers, there is a combination, and its container can be made. -/
theorem C99_sets_up {L : Libs} {gekko : Gekko} {wb : Pandas.Workbook} (ht : TopRowsEmpty wb) :
    (∃ s, setup L gekko wb = .ok s) ↔ Readable wb ∧ ∃ pa sizes, ∃ first n : ℕ, RangesIn wb pa ∧
      Para.combos pa = .ok sizes ∧ sizes ≠ [] ∧ Holds wb "Controller" 'G' 5 first ∧
      Holds wb "Controller" 'G' 6 n ∧ ∀ size ∈ sizes, ∃ c, containerOf wb size = .ok c := by
  constructor
  · rintro ⟨s, hs⟩
    obtain ⟨pa, sizes, ctl, first, n, Z⟩ := setup_ok hs
    refine ⟨?_, pa, sizes, first, n, ⟨Z.hpMax, Z.hpMin, Z.tsMax, Z.tsMin, Z.hpStep, Z.tsStep⟩, Z.combos,
      Z.nonempty, Z.from_hour, Z.hours, fun size hz => ?_⟩
    · unfold setup at hs
      simp only [except_bind_ok] at hs
      obtain ⟨b, hb, -⟩ := hs
      exact (C92_readable ht).mp ⟨b, hb⟩
    · obtain ⟨c, hc, -⟩ := Z.solve size hz
      exact ⟨c, hc⟩
  · rintro ⟨hr, pa, sizes, first, n, R, hcom, hne, hf, hn, hall⟩
    obtain ⟨b, hb⟩ := (C92_readable ht).mpr hr
    obtain ⟨s1, w1, p1⟩ := (readInputs_ok hb).parametric
    obtain ⟨s2, w2, p2⟩ := (readInputs_ok hb).controller
    obtain ⟨r1, r2, r3, r4, r5, r6⟩ := R
    unfold Holds at r1 r2 r3 r4 r5 r6 hf hn
    simp only [excel_eq w1] at r1 r2 r3 r4 r5 r6
    simp only [excel_eq w2] at hf hn
    have hran : rangesOf b.parametric = .ok (pruned pa) := by
      rw [parametric_cells p1]
      have e1 : s1.cell 6 3 = _ := r1
      have e2 : s1.cell 6 4 = _ := r2
      have e3 : s1.cell 7 3 = _ := r3
      have e4 : s1.cell 7 4 = _ := r4
      rw [e1, e2, e3, e4]
      exact rangesOf_num pa r5 r6
    have hres : ∀ z ∈ sizes, ∃ c, resizeContainer z b = .ok c := by
      intro z hz
      obtain ⟨c, hc⟩ := hall z hz
      unfold containerOf at hc
      rw [hb] at hc
      exact ⟨c, hc⟩
    obtain ⟨dir, hdir⟩ := createPickles_total (fun n => if n = Para.baseFile then some b else none) hres
    obtain ⟨P1, -⟩ := createPickles_ok hdir
    cases sizes with
    | nil => exact absurd rfl hne
    | cons z zs =>
      obtain ⟨c, hc, hdz⟩ := P1 z List.mem_cons_self
      obtain ⟨-, e, -⟩ := resize_rest hc
      unfold setup
      simp only [hb, hran, combos_pruned, hcom, hdir, okBind, hdz, e, (controller_cells p2).1, dict_cons,
        reduceIte, String.reduceEq]
      have e1 : natOf (s2.cell 6 6) = .ok n := (congrArg natOf hn).trans (natOf_num n)
      have e2 : natOf (s2.cell 5 6) = .ok first := (congrArg natOf hf).trans (natOf_num first)
      rw [e1, okBind, e2]
      exact ⟨_, rfl⟩

/-- C99: the program ends for every workbook; if it does not get to the loop over the combinations, it ends with
the exception of the preparation, no results saved and no figure drawn. -/
theorem C99_always_ends (L : Libs) (gekko : Gekko) (wb : Pandas.Workbook) (out : Outputs F K) :
    (∃ answer, Ends L gekko wb out answer) ∧
    ((¬ ∃ s, setup L gekko wb = .ok s) → ∀ answer, Ends L gekko wb out answer →
      (∀ k, answer.1 ≠ .ok k) ∧ (∀ name, answer.2.results name = none) ∧
      (∀ name, answer.2.figures name = [])) := by
  unfold Ends
  cases setup L gekko wb with
  | error e =>
    refine ⟨⟨_, rfl⟩, fun _ answer h => ?_⟩
    have h' : answer = (.error e, .empty) := h
    subst h'
    exact ⟨fun k hk => (by cases hk), fun _ => rfl, fun _ => rfl⟩
  | ok s => exact ⟨⟨_, Or.inl rfl⟩, fun h => absurd ⟨s, rfl⟩ h⟩

/-- A file without the sheets. -/
example (L : Libs) (gekko : Gekko) : ¬ ∃ s, setup L gekko (fun _ => none) = .ok s := by
  rintro ⟨s, hs⟩
  cases hs

end Verif
