import Verif.Spec.RunBalance
import Verif.Props.StoreBalance
import Verif.Props.BatteryRun
import Verif.Props.RunCosts
import Verif.Props.MoreGeneration

/-!
# A run passes energy on and makes none (C132)
-/

set_option autoImplicit false

namespace Verif
open Spec FixedOrder Tank
variable {N : Type}

/-! ## One hour -/

/-- An hour with a safe order in which nothing is left over or missing. -/
theorem hour_books {P : Plant N} {i : StepIn N} (H : StepOk P i) {b : Bool} {order : List ℤ} (hnd : order.Nodup)
    (hs : SafeOrder b order) (h1 : (numbers b).importToDemand ∈ order) (h2 : (numbers b).auxToDemand ∈ order)
    (h3 : (numbers b).resToExport ∈ order) {c : Checks} {r : Results N} (h : dispatch P i b order = .ok (c, r))
    (hst : step P i b order = .ok r) :
    i.surplus + r.grid.totalImport + r.es.dischargingTotal =
      i.deficit + pumpElectricity r + heaterElectricity P.aux r + r.es.chargingTotal + r.grid.totalExport ∧
    r.hp.heatTotalOutput + r.aux.demand + r.ts.dischargingTotal = i.heatDemand + r.ts.chargingTotal := by
  have a1 := C18_deficit_met_partial H hnd (fun hb => (hs.2 hb).1 8 (by simp)) h1 hst
  have a2 := C19_surplus_spent_exactly_partial H hnd hs h3 h
  have a3 := C20_demand_met_partial H hnd hs h2 h
  obtain ⟨b1, b2, b3, b4, b5, b6, b7, b8, b9⟩ := C61_reports_agree H hnd h
  obtain ⟨d1, d2, -⟩ := C24_total_import_is_sum h
  obtain ⟨e1, e2, e3, e4⟩ := C24_import_parts_match_devices H hnd h
  obtain ⟨f1, -, -, f2, -⟩ := C26_heat_pump_totals hst
  obtain ⟨g1, g2⟩ := C23_totals_are_sums hst
  have k : r.aux.demand = r.aux.resToDemand + r.aux.resToTs + (r.heatDemand.aux - if b then 0 else r.aux.resToDemand) := by
    obtain ⟨r0, nodes, -, hr⟩ := dispatch_ok h
    dsimp only at hr
    subst hr
    cases b <;> simp [totals2, totals1]
  unfold resSpent at a2
  unfold heatDelivered at a3
  unfold pumpElectricity heaterElectricity
  constructor
  · split_ifs at d1 ⊢ <;> linarith
  · cases b <;> simp at a3 k <;> linarith

/-- **The books of an hour.** With safe orders that buy, heat and sell, and no minimum output, in every hour of a run
electricity in is electricity out, and heat in is heat out. -/
theorem C132_hour {S : RunIn N} (H : RunOk S) (hord : OrdersOk S) (hf : FullOrders S) (hmin : S.hp.minimumOutput = 0)
    {first n : ℕ} {rs : List (Results N)} (h : runTimesteps S first n = .ok rs) :
    ∀ r ∈ rs, ElectricityBooks S.aux r ∧ HeatBooks r := by
  intro r hr
  obtain ⟨_, _, _, _, heat, price, row, perf, gen, wnd, pv, elec, r0, ho, hsp, hst⟩ := run_mem H h hr
  obtain ⟨hnd, hsafe⟩ := hour_order hord price
  obtain ⟨c, hd⟩ := step_no_minimum hmin ho.stepEq
  have hin : ∀ {x y : ℤ}, x ∈ S.orderAbove → y ∈ S.orderBelow → ∀ b : Bool, b = decide (price ≤ S.setpoint) →
      (if b then y else x) ∈ (if price > S.setpoint then S.orderAbove else S.orderBelow) := by
    intro x y hx hy b hb
    by_cases hp : price > S.setpoint
    · rw [if_pos hp, hb, decide_eq_false (not_le.mpr hp)]; exact hx
    · rw [if_neg hp, hb, decide_eq_true (not_lt.mp hp)]; exact hy
  have q : ∀ b : Bool, (numbers b).importToDemand = (if b then 2 else 3) ∧ (numbers b).auxToDemand = (if b then 9 else 9) ∧
      (numbers b).resToExport = (if b then 15 else 13) := by decide
  obtain ⟨q1, q2, q3⟩ := q (decide (price ≤ S.setpoint))
  obtain ⟨k1, k2⟩ := hour_books hst hnd hsafe (by rw [q1]; exact hin hf.buys.1 hf.buys.2 _ rfl)
    (by rw [q2]; exact hin hf.heats.1 hf.heats.2 _ rfl) (by rw [q3]; exact hin hf.sells.1 hf.sells.2 _ rfl) hd ho.stepEq
  have s1 := hsp.demand
  have s2 := hsp.generation
  rw [ho.resultEq]
  refine ⟨?_, k2⟩
  unfold ElectricityBooks
  have k3 : row.surplus + r0.grid.totalImport + r0.es.dischargingTotal =
      row.deficit + pumpElectricity r0 + heaterElectricity S.aux r0 + r0.es.chargingTotal + r0.grid.totalExport := k1
  show gen + r0.grid.totalImport + r0.es.dischargingTotal =
    elec + pumpElectricity r0 + heaterElectricity S.aux r0 + r0.es.chargingTotal + r0.grid.totalExport
  linarith

/-- The heat of the heat pump in an hour: its efficiency times its electricity, but for a rounding to two digits below
the setpoint. -/
theorem pump_heat {P : Plant N} {i : StepIn N} (H : StepOk P i) {b : Bool} {order : List ℤ} (hnd : order.Nodup)
    (hs : SafeOrder b order) {c : Checks} {r : Results N} (h : dispatch P i b order = .ok (c, r))
    (hst : step P i b order = .ok r) :
    r.hp.heatTotalOutput ≤ i.perf.cop * pumpElectricity r + (if b then 1 / 200 else 0) := by
  obtain ⟨-, b2, -⟩ := C61_reports_agree H hnd h
  obtain ⟨f1, f2, f3, f4, f5, f6, -⟩ := C26_heat_pump_totals hst
  unfold pumpElectricity
  rw [f1, f2, f3, f4, f5, f6, b2]
  cases b
  · obtain ⟨e1, e2, e3, e4, e5⟩ := C63_heat_is_cop_times_electricity H hnd hst
    rw [e1, e2, e3, e4, e5]
    simp only [Bool.false_eq_true, if_false]
    exact le_of_eq (by ring)
  · obtain ⟨e1, e2, e3, e4, -, e5⟩ := C63_below_partial H hnd hs.2 h
    rw [e1, e2, e3, e4, if_pos rfl]
    linarith

/-! ## A run -/

theorem tally_add (rs : List (Results N)) (f g : Results N → ℚ) :
    tally rs (fun r => f r + g r) = tally rs f + tally rs g := List.sum_map_add

theorem tally_le {rs : List (Results N)} {f g : Results N → ℚ} (h : ∀ r ∈ rs, f r ≤ g r) : tally rs f ≤ tally rs g :=
  List.sum_le_sum h

theorem tally_congr {rs : List (Results N)} {f g : Results N → ℚ} (h : ∀ r ∈ rs, f r = g r) : tally rs f = tally rs g := by
  unfold tally
  rw [List.map_congr_left h]

theorem tally_nonneg {rs : List (Results N)} {f : Results N → ℚ} (h : ∀ r ∈ rs, 0 ≤ f r) : 0 ≤ tally rs f :=
  List.sum_nonneg fun x hx => by obtain ⟨r, hr, rfl⟩ := List.mem_map.mp hx; exact h r hr

/-- **The books of a run.** Over any hours of such a run, too. -/
theorem C132_run {S : RunIn N} (H : RunOk S) (hord : OrdersOk S) (hf : FullOrders S) (hmin : S.hp.minimumOutput = 0)
    {first n : ℕ} {rs part : List (Results N)} (h : runTimesteps S first n = .ok rs) (hp : ∀ r ∈ part, r ∈ rs) :
    tally part (·.res.generationTotal) + tally part (·.grid.totalImport) + tally part (·.es.dischargingTotal) =
      tally part (·.elecDemand.elecDemand) + tally part pumpElectricity + tally part (heaterElectricity S.aux) +
        tally part (·.es.chargingTotal) + tally part (·.grid.totalExport) ∧
    tally part (·.hp.heatTotalOutput) + tally part (·.aux.demand) + tally part (·.ts.dischargingTotal) =
      tally part (·.heatDemand.heatDemand) + tally part (·.ts.chargingTotal) := by
  have k := fun r hr => C132_hour H hord hf hmin h r (hp r hr)
  simp only [← tally_add]
  exact ⟨tally_congr fun r hr => (k r hr).1, tally_congr fun r hr => (k r hr).2⟩

/-- Over the first hours of a run the heat pump makes no more heat than its best efficiency allows. -/
theorem pump_heat_run {S : RunIn N} (H : RunOk S) (hord : OrdersOk S) (hmin : S.hp.minimumOutput = 0) {best : ℚ}
    (hcop : ∀ p ∈ S.perf, p.cop ≤ best) {first n : ℕ} {rs : List (Results N)} (h : runTimesteps S first n = .ok rs) :
    ∀ k ≤ n, tally (rs.take k) (·.hp.heatTotalOutput) ≤ best * tally (rs.take k) pumpElectricity +
      (cheapHours S.importPrice S.setpoint first k : ℚ) / 200 := by
  obtain ⟨rows, hours⟩ := run_hours H h
  intro k
  induction k with
  | zero => intro _; simp [tally, cheapHours]
  | succ k ih =>
    intro hk
    have hle := ih (by omega)
    obtain ⟨r, heat, price, row, perf, gen, wnd, pv, elec, r0, hr, ho, -, hstep⟩ := hours k (by omega)
    obtain ⟨o1, o2⟩ := hour_order hord price
    obtain ⟨c, hd⟩ := step_no_minimum hmin ho.stepEq
    have q := pump_heat hstep o1 o2 hd ho.stepEq
    have q1 : 0 ≤ pumpElectricity r := by
      have F := C21_run_flows_nonneg H hord h (List.mem_of_getElem? hr)
      exact add_nonneg F.hpElec.1 F.es.2.2.2.1
    have q2 : perf.cop ≤ best := hcop _ (List.mem_of_getElem? ho.perfEq)
    have q3 : r.hp.heatTotalOutput ≤ perf.cop * pumpElectricity r + (if decide (price ≤ S.setpoint) then 1 / 200 else 0) := by
      rw [ho.resultEq]; exact q
    have q4 := mul_le_mul_of_nonneg_right q2 q1
    have q5 := cheapHours_succ (setpoint := S.setpoint) ho.priceEq
    have q6 : (if decide (price ≤ S.setpoint) then (1 / 20 : ℚ) else 0) =
        10 * (if decide (price ≤ S.setpoint) then 1 / 200 else 0) := by split_ifs <;> norm_num
    rw [q6] at q5
    unfold tally at hle ⊢
    rw [List.take_add_one, hr]
    simp only [Option.toList_some, List.map_append, List.map_cons, List.map_nil, List.sum_append, List.sum_cons,
      List.sum_nil, add_zero]
    linarith

theorem heater_parts (a : AuxI) (rs : List (Results N)) :
    tally rs (heaterElectricity a) + tally rs (fuelHeat a) = tally rs (·.aux.demand) := by
  rw [← tally_add]
  refine tally_congr fun r _ => ?_
  unfold heaterElectricity fuelHeat
  split_ifs <;> ring

/-- If the stores give back no more than they got and `heldE` and `heldH`, a run has to be supplied. -/
theorem run_needs {S : RunIn N} (H : RunOk S) (hord : OrdersOk S) (hf : FullOrders S) (hmin : S.hp.minimumOutput = 0)
    {best : ℚ} (h1 : 1 ≤ best) (hcop : ∀ p ∈ S.perf, p.cop ≤ best) {first n : ℕ} {rs : List (Results N)}
    (h : runTimesteps S first n = .ok rs) {k : ℕ} (hk : k ≤ n) {heldE heldH : ℚ}
    (hE : tally (rs.take k) (·.es.dischargingTotal) ≤ tally (rs.take k) (·.es.chargingTotal) + heldE)
    (hH : tally (rs.take k) (·.ts.dischargingTotal) ≤ tally (rs.take k) (·.ts.chargingTotal) + heldH) :
    best * (tally (rs.take k) (·.elecDemand.elecDemand) + tally (rs.take k) (·.grid.totalExport)) +
        tally (rs.take k) (·.heatDemand.heatDemand) ≤
      best * (tally (rs.take k) (·.res.generationTotal) + tally (rs.take k) (·.grid.totalImport) + heldE) +
        tally (rs.take k) (fuelHeat S.aux) + heldH + (cheapHours S.importPrice S.setpoint first k : ℚ) / 200 := by
  have hmem : ∀ r ∈ rs.take k, r ∈ rs := fun r hr => List.mem_of_mem_take hr
  obtain ⟨e, q⟩ := C132_run H hord hf hmin h hmem
  have p := pump_heat_run H hord hmin hcop h k hk
  have a := heater_parts S.aux (rs.take k)
  have w : 0 ≤ tally (rs.take k) (heaterElectricity S.aux) := tally_nonneg fun r hr => by
    have F := C21_run_flows_nonneg H hord h (hmem r hr)
    unfold heaterElectricity
    split_ifs
    · exact F.aux.1
    · exact add_nonneg F.aux.2.1 F.aux.2.2
  have b1 := mul_le_mul_of_nonneg_left hE (by linarith : (0 : ℚ) ≤ best)
  have b2 := mul_le_mul_of_nonneg_right h1 w
  have e' := congrArg (best * ·) e
  linarith

/-- A battery that is not there gives nothing. -/
theorem no_battery_gives {S : RunIn N} (H : RunOk S) (hord : OrdersOk S) (h0 : S.es.capacity = 0) {first n : ℕ}
    {rs part : List (Results N)} (h : runTimesteps S first n = .ok rs) (hp : ∀ r ∈ part, r ∈ rs) :
    tally part (·.es.dischargingTotal) ≤ tally part (·.es.chargingTotal) := by
  refine tally_le fun r hr => ?_
  obtain ⟨_, _, _, soc, heat, price, row, perf, gen, wnd, pv, elec, r0, ho, -, hst⟩ := run_mem H h (hp r hr)
  obtain ⟨o1, o2⟩ := hour_order hord price
  obtain ⟨-, -, n3, -⟩ := C130_within_soc hst o1 o2 ho.stepEq
  have s1 : soc ≤ S.es.capacity := hst.soc_le
  have e : r.es = r0.es := by rw [ho.resultEq]; rfl
  rw [e]
  have n4 : r0.es.dischargingTotal ≤ soc + r0.es.chargingTotal := n3
  linarith

/-- A thermal store that is not there gives nothing. -/
theorem no_tank_gives {S : RunIn N} (H : RunOk S) (hord : OrdersOk S) (hns : RunNoStores S)
    (hmin : S.hp.minimumOutput = 0) {first n : ℕ} {rs part : List (Results N)} (h : runTimesteps S first n = .ok rs)
    (hp : ∀ r ∈ part, r ∈ rs) : tally part (·.ts.dischargingTotal) ≤ tally part (·.ts.chargingTotal) := by
  refine tally_le fun r hr => ?_
  have F := C21_run_flows_nonneg H hord h (hp r hr)
  obtain ⟨_, t, nodes, soc, heat, price, row, perf, gen, wnd, pv, elec, r0, ho, -, hst⟩ := run_mem H h (hp r hr)
  obtain ⟨c, hd⟩ := step_no_minimum hmin ho.stepEq
  obtain ⟨q, _, hq, e1⟩ := dispatch_ok hd
  dsimp only at e1 hq
  obtain ⟨ps, hf, hps⟩ := runOrder_ok hq
  have hn : NoStores (plant S) (hourIn t heat price row perf nodes soc) :=
    ⟨hns.battery, fun s m hm => hns.tank _ s _ m hm⟩
  have I := runProcs_induct (P := plant S) (fun _ s => Idle (plant S) (hourIn t heat price row perf nodes soc) s.1 ∧
      s.1.tsDischarge = s.2.ts.dischargingTotal)
    (fun _ p c r a ha hh => by
      obtain ⟨h1, h2⟩ := hh
      have ea := amount_plain hst hn h1 ha
      have h3 := idle_step hst h1 p
      rw [← ea] at h3
      refine ⟨h3, ?_⟩
      have d0 := h1.dis
      have d1 := h3.dis
      cases p <;> simp only [update, record] at d1 h2 ⊢ <;> linarith) ps [] _ _ hps
    ⟨idle_init hst hn, rfl⟩
  have e : r.ts.dischargingTotal = q.ts.dischargingTotal := by rw [ho.resultEq, e1]; rfl
  have e2 := I.1.dis
  rw [I.2, ← e] at e2
  rw [e2]
  exact F.ts.1

/-- **Without stores a run has to be supplied in full.** Over its first hours, the electric demand, the heat demand
divided by the best efficiency of the heat pump, and the export are together at most the generation, the import, and
the heat made of fuel divided by that efficiency (times that efficiency; and 0.005 kWh of heat an hour below the
setpoint). -/
theorem C132_without_stores {S : RunIn N} (H : RunOk S) (hns : RunNoStores S) (hord : OrdersOk S) (hf : FullOrders S)
    (hmin : S.hp.minimumOutput = 0) {best : ℚ} (h1 : 1 ≤ best) (hcop : ∀ p ∈ S.perf, p.cop ≤ best) {first n : ℕ}
    {rs : List (Results N)} (h : runTimesteps S first n = .ok rs) {k : ℕ} (hk : k ≤ n) :
    best * (tally (rs.take k) (·.elecDemand.elecDemand) + tally (rs.take k) (·.grid.totalExport)) +
        tally (rs.take k) (·.heatDemand.heatDemand) ≤
      best * (tally (rs.take k) (·.res.generationTotal) + tally (rs.take k) (·.grid.totalImport)) +
        tally (rs.take k) (fuelHeat S.aux) + (cheapHours S.importPrice S.setpoint first k : ℚ) / 200 := by
  have hmem : ∀ r ∈ rs.take k, r ∈ rs := fun r hr => List.mem_of_mem_take hr
  have := run_needs H hord hf hmin h1 hcop h hk (heldE := 0) (heldH := 0)
    (by rw [add_zero]; exact no_battery_gives H hord hns.battery h hmem)
    (by rw [add_zero]; exact no_tank_gives H hord hns hmin h hmem)
  linarith

/-- The sample year without stores and with a heat pump that runs at any output. -/
def Spec.needyRun : RunIn Unit := { bareRun with hp := ⟨12, 60, 0⟩ }

theorem needyRun_ok : RunOk needyRun where
  es := bareBattery_ok
  heat_nonneg := sampleRun_ok.heat_nonneg
  cop_pos := sampleRun_ok.cop_pos
  duty_nonneg := sampleRun_ok.duty_nonneg
  zero_cap := fun h => by
    simp only [needyRun] at h
    norm_num at h
  tank_nonneg := fun _ _ _ _ _ h => (Except.ok.inj h).le

theorem needyRun_full : FullOrders needyRun := ⟨⟨by decide, by decide⟩, ⟨by decide, by decide⟩, ⟨by decide, by decide⟩⟩

theorem tally_const {rs : List (Results N)} {f : Results N → ℚ} {x : ℚ} (h : ∀ r ∈ rs, f r = x) :
    tally rs f = x * rs.length := by
  unfold tally
  rw [List.map_eq_replicate_iff.mpr h, List.sum_replicate, nsmul_eq_mul, mul_comm]

theorem constant_hours {S : RunIn N} {first n : ℕ} {rs : List (Results N)} (h : runTimesteps S first n = .ok rs)
    (part : List (Results N)) (hp : ∀ r ∈ part, r ∈ rs) {heat elec wu wd pv : ℚ}
    (hh : S.heatDemand = List.replicate 8760 heat) (he : S.elecDemand = List.replicate 8760 elec)
    (hwu : S.windUser = List.replicate 8760 wu) (hwd : S.windData = List.replicate 8760 wd)
    (hpv : S.pv = List.replicate 8760 pv) : ∀ r ∈ part, r.heatDemand.heatDemand = heat ∧
      r.elecDemand.elecDemand = elec ∧ r.res.generationTotal = wu + wd + pv := by
  intro r hr
  obtain ⟨j, hj, rfl⟩ := List.getElem_of_mem (hp r hr)
  obtain ⟨r', e, h1, h2, h3, ⟨u, d, h4, h5, h6⟩, h7⟩ := C27_reports_its_hour h (k := j)
    (by rw [← C27_one_result_per_hour h]; exact hj)
  have ee : rs[j] = r' := Option.some.inj ((List.getElem?_eq_getElem hj).symm.trans e)
  rw [← ee] at h1 h2 h3 h6 h7
  rw [hh] at h1
  rw [he] at h2
  rw [hpv] at h3
  rw [hwu] at h4
  rw [hwd] at h5
  have g3 := List.eq_of_mem_replicate (List.mem_of_getElem? h3)
  have g4 := List.eq_of_mem_replicate (List.mem_of_getElem? h4)
  have g5 := List.eq_of_mem_replicate (List.mem_of_getElem? h5)
  exact ⟨List.eq_of_mem_replicate (List.mem_of_getElem? h1), List.eq_of_mem_replicate (List.mem_of_getElem? h2),
    by rw [h7, h6, g3, g4, g5]⟩

/-- In every hour of that year 8 kWh of electricity and 30 kWh of heat are needed and 5 kWh generated; the best
efficiency is 3, and the heater is electric. So in any number of hours at least 13 kWh an hour are bought. -/
example : ∃ rs, runTimesteps needyRun 0 8760 = .ok rs ∧ ∀ k : ℕ, k ≤ 8760 →
    13 * (k : ℚ) + tally (rs.take k) (·.grid.totalExport) ≤ tally (rs.take k) (·.grid.totalImport) := by
  obtain ⟨rs, h⟩ := C27_accepts_span_inside_year (S := needyRun) (first := 0) (n := 8760)
    ⟨sampleRun_fullYear.windUser, sampleRun_fullYear.windData, sampleRun_fullYear.pv, sampleRun_fullYear.elecDemand,
      sampleRun_fullYear.heatDemand, sampleRun_fullYear.importPrice, sampleRun_fullYear.perf⟩
    ⟨show ∀ n ∈ bareRun.orderAbove, 1 ≤ n ∧ n ≤ 13 by decide,
      show ∀ n ∈ bareRun.orderBelow, 1 ≤ n ∧ n ≤ 15 by decide⟩
    (fun _ _ _ => ⟨_, rfl⟩) (fun _ _ _ _ _ => ⟨_, rfl⟩) (by omega)
  refine ⟨rs, h, fun k hk => ?_⟩
  have t := C132_without_stores needyRun_ok ⟨rfl, rfl, bareRun_noStores.tank⟩
    ⟨sampleRun_orders.1, sampleRun_orders.2, sampleRun_orders.3, sampleRun_orders.4⟩ needyRun_full rfl
    (best := 3) (by norm_num) (fun p hp => by rw [List.eq_of_mem_replicate hp]) h hk
  have hc : cheapHours needyRun.importPrice needyRun.setpoint 0 k = 0 := by
    unfold cheapHours
    refine List.countP_eq_zero.mpr fun x hx => ?_
    rw [List.eq_of_mem_replicate (List.mem_of_mem_drop (List.mem_of_mem_take hx))]
    norm_num [needyRun, bareRun, sampleRun]
  have hl : (rs.take k).length = k := by
    rw [List.length_take, C27_one_result_per_hour h]
    exact min_eq_left hk
  have hr := constant_hours h (rs.take k) (fun r hr => List.mem_of_mem_take hr) rfl rfl rfl rfl rfl
  have hf : tally (rs.take k) (fuelHeat needyRun.aux) = 0 := by
    rw [tally_const (f := fuelHeat _) (x := 0) fun r _ => by unfold fuelHeat; exact if_pos rfl, zero_mul]
  rw [hc, hf, tally_const fun r h => (hr r h).1, tally_const fun r h => (hr r h).2.1,
    tally_const fun r h => (hr r h).2.2, hl] at t
  norm_num at t
  linarith

/-- **A run has to be supplied.** With a battery that is not there, or that has no losses in discharging and is never
drawn beyond its rating, and a thermal store as in C126: over its first hours, the electric demand, the heat demand
divided by the best efficiency of the heat pump, and the export are together at most the generation, the import, what
the battery held at first, and the heat made of fuel or held by the store at first divided by that efficiency (times
that efficiency; and 0.055 kWh of heat an hour below the setpoint). -/
theorem C132_supplied_partial {S : RunIn (List ℚ)} (H : RunOk S) (hord : OrdersOk S) (hf : FullOrders S)
    (hmin : S.hp.minimumOutput = 0) {best : ℚ} (h1 : 1 ≤ best) (hcop : ∀ p ∈ S.perf, p.cop ≤ best)
    {tk : Tank} {net : ℕ → NetTemps} {air source ret cp : ℚ} (htank : S.tank = toTankI tk net ret)
    (hst : ∀ hour < 8760, SteadyStore tk (net hour) air ∧ (net hour).source = source ∧ (net hour).ret = ret)
    (hcp : specificHeat source = .ok cp)
    (hhold : ∀ hour de, S.heatDemand[hour]? = some de → LayersHold tk (net hour) de)
    {first n : ℕ} {rs : List (Results (List ℚ))} (h : runTimesteps S first n = .ok rs)
    (hbat : S.es.capacity = 0 ∨ S.es.dischargeEff = 1 ∧ ∀ r ∈ rs, WithinRating S.es r) {k : ℕ} (hk : k ≤ n) :
    best * (tally (rs.take k) (·.elecDemand.elecDemand) + tally (rs.take k) (·.grid.totalExport)) +
        tally (rs.take k) (·.heatDemand.heatDemand) ≤
      best * (tally (rs.take k) (·.res.generationTotal) + tally (rs.take k) (·.grid.totalImport) + S.es.initState) +
        tally (rs.take k) (fuelHeat S.aux) + tk.capacity * cp * (ret - air) / 3600000 +
        (cheapHours S.importPrice S.setpoint first k : ℚ) * 11 / 200 := by
  have hmem : ∀ r ∈ rs.take k, r ∈ rs := fun r hr => List.mem_of_mem_take hr
  have t := C129_gives_back H hord hf.heats hmin htank hst hcp hhold h hk
  have := run_needs H hord hf hmin h1 hcop h hk (heldE := S.es.initState)
    (heldH := tk.capacity * cp * (ret - air) / 3600000 + (cheapHours S.importPrice S.setpoint first k : ℚ) / 20)
    (by
      rcases hbat with h0 | ⟨h0, hw⟩
      · have := no_battery_gives H hord h0 h hmem
        have e := (C01_soc_within_capacity _ H.es.capacity_nonneg H.es.init_nonneg H.es.init_le_one []).1
        have : (0 : ℚ) ≤ S.es.initState := e
        linarith
      · have := C130_lossless_partial H hord h0 h hw hk
        unfold tally
        linarith)
    (by unfold tally; linarith)
  linarith

/-- The year of C126 without its battery and without its wind. -/
def Spec.calmRun : RunIn (List ℚ) :=
  { servedRun with es := { sampleBattery with capacity := 0 }, windUser := List.replicate 8760 0 }

theorem calmRun_ok : RunOk calmRun where
  es := bareBattery_ok
  heat_nonneg := servedRun_ok.heat_nonneg
  cop_pos := servedRun_ok.cop_pos
  duty_nonneg := servedRun_ok.duty_nonneg
  zero_cap := servedRun_ok.zero_cap
  tank_nonneg := servedRun_ok.tank_nonneg

theorem calmRun_orders : OrdersOk calmRun :=
  ⟨sampleRun_orders.1, sampleRun_orders.2, sampleRun_orders.3, sampleRun_orders.4⟩

theorem calmRun_hold (hour : ℕ) (de : ℚ) (h : calmRun.heatDemand[hour]? = some de) : LayersHold bigStore labNet de := by
  rw [List.eq_of_mem_replicate (List.mem_of_getElem? h)]
  norm_num [LayersHold, labNet, bigStore, wallTank, labTank, nodeMass]

theorem calmRun_ends : ∃ rs, runTimesteps calmRun 0 8760 = .ok rs := by
  obtain ⟨rs, h, -⟩ := C126_run_ends calmRun_ok calmRun_orders
    ⟨fun n h => by
        have : n ∈ [1, 2, 3, 4, 5, 6, 7, 8, 9, 10, 11, 12, 13] := h
        simp only [List.mem_cons, List.not_mem_nil, or_false] at this
        omega,
      fun n h => by
        have : n ∈ [1, 2, 3, 4, 5, 6, 7, 8, 9, 10, 11, 12, 13, 14, 15] := h
        simp only [List.mem_cons, List.not_mem_nil, or_false] at this
        omega⟩
    ⟨by decide, by decide⟩
    ⟨List.length_replicate, List.length_replicate, List.length_replicate, List.length_replicate,
      List.length_replicate, List.length_replicate, List.length_replicate⟩ rfl
    (net := fun _ => labNet) rfl (fun _ _ => ⟨bigStore_steady, rfl, rfl⟩) calmRun_hold (le_refl (0 + 8760))
  exact ⟨rs, h⟩

/-- In every hour of that year 8 kWh of electricity and 5 kWh of heat are needed and 1 kWh generated. The store holds
less than 872 kWh at first. So what is bought is at least a third of 26 kWh an hour, less these 872. -/
example : ∃ rs, runTimesteps calmRun 0 8760 = .ok rs ∧ ∀ k : ℕ, k ≤ 8760 →
    26 * (k : ℚ) - 872 ≤ 3 * tally (rs.take k) (·.grid.totalImport) := by
  obtain ⟨rs, h⟩ := calmRun_ends
  refine ⟨rs, h, fun k hk => ?_⟩
  have t := C132_supplied_partial calmRun_ok calmRun_orders
    ⟨⟨by decide, by decide⟩, ⟨by decide, by decide⟩, ⟨by decide, by decide⟩⟩ rfl
    (best := 3) (by norm_num) (fun p hp => by rw [List.eq_of_mem_replicate hp])
    (tk := bigStore) (net := fun _ => labNet) (air := 15) (source := 60) (ret := 40) (cp := 4185) rfl
    (fun _ _ => ⟨bigStore_steady, rfl, rfl⟩) (by decide +kernel) calmRun_hold h (Or.inl rfl) hk
  have hc : cheapHours calmRun.importPrice calmRun.setpoint 0 k = 0 := by
    unfold cheapHours
    refine List.countP_eq_zero.mpr fun x hx => ?_
    rw [List.eq_of_mem_replicate (List.mem_of_mem_drop (List.mem_of_mem_take hx))]
    norm_num [calmRun, servedRun]
  have hl : (rs.take k).length = k := by
    rw [List.length_take, C27_one_result_per_hour h]
    exact min_eq_left hk
  have hr := constant_hours h (rs.take k) (fun r hr => List.mem_of_mem_take hr) rfl rfl rfl rfl rfl
  have hx : 0 ≤ tally (rs.take k) (·.grid.totalExport) := tally_nonneg fun r hr =>
    (C21_run_flows_nonneg calmRun_ok calmRun_orders h (List.mem_of_mem_take hr)).grid.2.1
  have hf : tally (rs.take k) (fuelHeat calmRun.aux) = 0 := by
    rw [tally_const (f := fuelHeat _) (x := 0) fun r _ => by unfold fuelHeat; exact if_pos rfl, zero_mul]
  have e : bigStore.capacity = 30000 := rfl
  have e2 : (30000 : ℚ) * 4185 * (40 - 15) / 3600000 < 872 := by norm_num
  have e3 : calmRun.es.initState = 0 := by
    show (1 / 2 : ℚ) * 0 = 0
    norm_num
  rw [hc, hf, e, e3, tally_const fun r h => (hr r h).1, tally_const fun r h => (hr r h).2.1,
    tally_const fun r h => (hr r h).2.2, hl] at t
  norm_num at t e2
  linarith

/-! ## Against the full claim -/

/-- **A system supplied by nobody.** In the year of C130, whatever the number of hours, 10 kWh are used in every hour,
nothing is generated and nothing is bought; the battery held 100 kWh at first. -/
theorem C132_from_nothing {n : ℕ} (hn : n ≤ 8760) : ∃ rs, runTimesteps trickleRun 0 n = .ok rs ∧
    tally rs (·.elecDemand.elecDemand) = 10 * n ∧ tally rs (·.res.generationTotal) = 0 ∧
    tally rs (·.grid.totalImport) = 0 ∧ trickleRun.es.initState = 100 := by
  obtain ⟨rs, h, -, -, h3, h4⟩ := C130_gives_what_it_never_got hn
  have hl := C27_one_result_per_hour h
  have hs : ∀ (f : Results Unit → ℚ) (x : ℚ), (∀ r ∈ rs, f r = x) → tally rs f = x * n := by
    intro f x hx
    unfold tally
    rw [List.map_eq_replicate_iff.mpr hx, List.sum_replicate, nsmul_eq_mul, hl, mul_comm]
  refine ⟨rs, h, hs _ _ fun r hr => (h3 r hr).2.2.2, ?_, ?_, h4⟩
  · rw [hs _ 0 fun r hr => (h3 r hr).2.2.1, zero_mul]
  · rw [hs _ 0 fun r hr => (h3 r hr).2.1, zero_mul]

end Verif
