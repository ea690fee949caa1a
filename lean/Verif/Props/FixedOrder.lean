import Verif.Lemmas.FixedOrderSoc

/-!
# Properties of one fixed-order timestep (C18–C26, C61–C63)

`step P i below order` is `above_setpoint` / `below_setpoint`; `dispatch` is the same up to the
minimum output rule (`C26_rule_idle` says when the two agree). Orders are arbitrary lists of
numbers, of any length, without repeats.
-/

set_option autoImplicit false

namespace Verif
open Spec FixedOrder
variable {N : Type}

/-- Default order above the setpoint, used in the examples. -/
def orderAbove : List ℤ := [1, 2, 3, 4, 5, 6, 7, 8, 9, 10, 11, 12, 13]

/-- Default order below the setpoint, used in the examples. -/
def orderBelow : List ℤ := [1, 2, 3, 4, 5, 6, 7, 8, 9, 10, 11, 12, 13, 14, 15]

theorem orderAbove_safe : orderAbove.Nodup ∧ SafeOrder false orderAbove := by
  refine ⟨by decide, by decide, fun h => by cases h⟩

theorem orderBelow_safe : orderBelow.Nodup ∧ SafeOrder true orderBelow := by
  refine ⟨by decide, by decide, fun _ => ⟨by decide, by decide⟩⟩

/-- The hour with a surplus, above the setpoint. -/
theorem sampleStep_dispatched : ∃ s, dispatch samplePlant sampleStep false orderAbove = .ok s ∧
    s.2.hp.heatTotalOutput = 12 := exists_of_checks (by decide +kernel)

theorem sampleStep_steps : ∃ r, step samplePlant sampleStep false orderAbove = .ok r ∧
    r.hp.heatTotalOutput = 12 := exists_of_checks (by decide +kernel)

/-- The hour with a deficit, above the setpoint and below it. -/
theorem sampleStep2_steps : (∃ r, step samplePlant sampleStep2 false orderAbove = .ok r ∧ r.hp.heatTotalOutput ≠ 0) ∧
    ∃ r, step samplePlant sampleStep2 true orderBelow = .ok r ∧ r.hp.heatTotalOutput ≠ 0 :=
  ⟨exists_of_checks (by decide +kernel), exists_of_checks (by decide +kernel)⟩

/-- Everything known about a dispatch. -/
theorem dispatch_facts {P : Plant N} {i : StepIn N} (H : StepOk P i) {b : Bool} {order : List ℤ}
    (hnd : order.Nodup) {c : Checks} {r : Results N} (h : dispatch P i b order = .ok (c, r)) :
    ∃ ps r0 nodes, List.Forall₂ (fun n p => keyOf b n = .ok p) order ps ∧
      LoopOk P i b ps.reverse c r0 ∧ r = totals2 P i b nodes (totals1 P b r0) ∧
      (Safe2 ps.reverse → CopRel i r0) ∧
      (Safe2 ps.reverse → Safe3 ps.reverse → Tot i ps.reverse c r0) := by
  obtain ⟨r0, nodes, h0, hr⟩ := dispatch_ok h
  obtain ⟨ps, hf, hl, h1, h2⟩ := loop_ok_hp H hnd h0
  exact ⟨ps, r0, nodes, hf, hl, hr, h1, h2⟩

/-! ## C18 electricity demand -/

/-- Battery and import never deliver more than the deficit of the hour. -/
theorem C18_never_over_supplied {P : Plant N} {i : StepIn N} (H : StepOk P i) {b : Bool}
    {order : List ℤ} (hnd : order.Nodup) {r : Results N} (h : step P i b order = .ok r) :
    r.elecDemand.es + r.elecDemand.imp ≤ i.deficit := by
  obtain ⟨c, r1, hd, hm⟩ := step_ok h
  obtain ⟨ps, r0, nodes, hf, hl, hr, -, -⟩ := dispatch_facts H hnd hd
  have h1 : r.elecDemand = r0.elecDemand := by
    rcases rule_outcome hm with ⟨rfl, _⟩ | ⟨_, _, rfl⟩ | ⟨_, _, _, rfl⟩ | ⟨_, _, _, _, _, rfl⟩ <;>
      subst hr <;> rfl
  rw [h1]
  have := hl.bal.elec
  have := hl.base.e0
  linarith

example : ∃ r, step samplePlant sampleStep2 false orderAbove = .ok r ∧ r.elecDemand.es + r.elecDemand.imp ≤ 6 := by
  obtain ⟨⟨r, h, -⟩, -⟩ := sampleStep2_steps
  exact ⟨r, h, C18_never_over_supplied sampleStep2_ok orderAbove_safe.1 h⟩

/-- The deficit is met exactly as soon as import to demand is one of the processes. Below the setpoint
the battery must not drive the heat pump (8) after 'HP import to TS' (12): see
`C18_rounding_leaves_unmet`. -/
theorem C18_deficit_met_partial {P : Plant N} {i : StepIn N} (H : StepOk P i) {b : Bool}
    {order : List ℤ} (hnd : order.Nodup) (hs : b = true → ¬ ([12, 8] : List ℤ).Sublist order)
    (himp : (numbers b).importToDemand ∈ order) {r : Results N} (h : step P i b order = .ok r) :
    r.elecDemand.es + r.elecDemand.imp = i.deficit := by
  obtain ⟨c, r1, hd, hm⟩ := step_ok h
  obtain ⟨r0, nodes, h0, hr⟩ := dispatch_ok hd
  obtain ⟨_, _, hl⟩ := loop_ok H hnd h0
  obtain ⟨ps, hf, hi⟩ := loop_soc H hnd hs h0
  have hr' : r1 = totals2 P i b nodes (totals1 P b r0) := hr
  have h1 : r.elecDemand = r0.elecDemand := by
    rcases rule_outcome hm with ⟨rfl, _⟩ | ⟨_, _, rfl⟩ | ⟨_, _, _, rfl⟩ | ⟨_, _, _, _, _, rfl⟩ <;>
      subst hr' <;> rfl
  rw [h1]
  have hk : keyOf b (numbers b).importToDemand = .ok .importToDemand := by cases b <;> rfl
  have := hi.met ((mem_done hf hk).mpr himp)
  have := hl.bal.elec
  linarith

example : ∃ r, step samplePlant sampleStep2 true orderBelow = .ok r ∧ r.elecDemand.es + r.elecDemand.imp = 6 := by
  obtain ⟨-, r, h, -⟩ := sampleStep2_steps
  exact ⟨r, h, C18_deficit_met_partial sampleStep2_ok orderBelow_safe.1 (fun _ => by decide) (by decide) h⟩

/-- The order condition of `C18_deficit_met_partial` is needed. 'HP import to TS' rounds 12.005 kWh up to
12.01, above the duty; 'ES to HP' then takes back 0.005 kWh, 'Import to ES' overcorrects the empty battery
to below zero, and 'ES to demand' charges it from the demand already met by import. -/
theorem C18_rounding_leaves_unmet : ∃ r,
    step { samplePlant with es := { sampleBattery with capacity := 0, selfDischarge := 0 } }
      { sampleStep2 with soc := 0, perf := { cop := 3, duty := 12015 / 1000 } } true
      [12, 8, 14, 2, 3] = .ok r ∧
    r.elecDemand.es + r.elecDemand.imp < sampleStep2.deficit :=
  exists_of_checks (by decide +kernel)

example : ∃ r, step samplePlant sampleStep2 false orderAbove = .ok r ∧
    r.elecDemand.es = 5 ∧ r.elecDemand.imp = 1 := exists_of_checks (by decide +kernel)

example : ∃ r, step samplePlant sampleStep2 true orderBelow = .ok r ∧
    r.elecDemand.es = 0 ∧ r.elecDemand.imp = 6 := exists_of_checks (by decide +kernel)

/-- An order that lists import to demand twice reports no supply at all: the second run
overwrites the first. -/
theorem C18_repeats_lose_supply : ∃ r, step samplePlant sampleStep2 false [3, 3] = .ok r ∧
    r.elecDemand.es + r.elecDemand.imp = 0 ∧ 0 < sampleStep2.deficit :=
  exists_of_checks (by decide +kernel)

/-! ## C19 renewable surplus -/

/-- The surplus is never spent twice (before the minimum output rule, any order). -/
theorem C19_dispatch_at_most_surplus {P : Plant N} {i : StepIn N} (H : StepOk P i) {b : Bool}
    {order : List ℤ} (hnd : order.Nodup) {c : Checks} {r : Results N}
    (h : dispatch P i b order = .ok (c, r)) : resSpent r ≤ i.surplus := by
  obtain ⟨ps, r0, nodes, hf, hl, rfl, -, -⟩ := dispatch_facts H hnd h
  have h1 := hl.bal.res
  have h2 := hl.base.r0
  simp only [resSpent, totals2, totals1]
  linarith

example : ∃ s, dispatch samplePlant sampleStep false orderAbove = .ok s ∧ resSpent s.2 ≤ 5 := by
  obtain ⟨⟨c, r⟩, h, -⟩ := sampleStep_dispatched
  exact ⟨_, h, C19_dispatch_at_most_surplus sampleStep_ok orderAbove_safe.1 h⟩

/-- It is spent completely when export is one of the processes, for safe orders
(`C19_unsafe_order_not_spent` for others). -/
theorem C19_surplus_spent_exactly_partial {P : Plant N} {i : StepIn N} (H : StepOk P i) {b : Bool}
    {order : List ℤ} (hnd : order.Nodup) (hs : SafeOrder b order)
    (hexp : (numbers b).resToExport ∈ order) {c : Checks} {r : Results N}
    (h : dispatch P i b order = .ok (c, r)) : resSpent r = i.surplus := by
  obtain ⟨ps, r0, nodes, hf, hl, rfl, -, -⟩ := dispatch_facts H hnd h
  have h1 := hl.bal.res
  have hk : keyOf b (numbers b).resToExport = .ok .resToExport := by cases b <;> rfl
  have h2 := hl.exp (safe2_done hf hs.2) (safe1_done hf hs.1) ((mem_done hf hk).mpr hexp)
  simp only [resSpent, totals2, totals1]
  linarith

example : ∃ s, dispatch samplePlant sampleStep false orderAbove = .ok s ∧ resSpent s.2 = 5 := by
  obtain ⟨⟨c, r⟩, h, -⟩ := sampleStep_dispatched
  exact ⟨_, h, C19_surplus_spent_exactly_partial sampleStep_ok orderAbove_safe.1 orderAbove_safe.2 (by decide) h⟩

/-- The minimum output rule does not make the spending exceed the surplus. -/
theorem C19_at_most_surplus {P : Plant N} {i : StepIn N} (H : StepOk P i) {b : Bool}
    {order : List ℤ} (hnd : order.Nodup) (hs : SafeOrder b order) {r : Results N}
    (h : step P i b order = .ok r) : resSpent r ≤ i.surplus := by
  obtain ⟨c, r1, hd, hm⟩ := step_ok h
  have h0 := C19_dispatch_at_most_surplus H hnd hd
  obtain ⟨ps, r0, nodes, hf, hl, hr, -, -⟩ := dispatch_facts H hnd hd
  have hnn := hl.nonneg (safe2_done hf hs.2) (safe1_done hf hs.1)
  have e1 := hnn.eResD
  have e2 := hnn.eResTs
  have k1 := hl.copies.c4
  have k2 := hl.copies.c10
  have g1 : 0 ≤ r1.res.hpToHeatDemand := by
    subst hr; simp only [totals2, totals1]; linarith
  have g2 : 0 ≤ r1.res.hpToTs := by subst hr; simp only [totals2, totals1]; linarith
  simp only [resSpent] at h0 ⊢
  rcases rule_outcome hm with ⟨rfl, _⟩ | ⟨_, _, rfl⟩ | ⟨_, _, _, rfl⟩ | ⟨_, _, _, _, _, rfl⟩
  · exact h0
  · exact h0
  · simp only [zeroHp]; linarith
  · simp only [zeroHp]; linarith

example : ∃ s, dispatch samplePlant sampleStep false orderAbove = .ok s ∧
    s.2.res.hpToHeatDemand = 4 ∧ s.2.res.hpToTs = 0 ∧ s.2.aux.resToDemand = 1 ∧
    resSpent s.2 = 5 := exists_of_checks (by decide +kernel)

/-- With repeats the account breaks: 'RES to ES' twice with a 1 kW charger spends 2 kWh but
reports 1. -/
theorem C19_repeats_lose_energy : ∃ s, dispatch
    { samplePlant with es := { sampleBattery with chargeMax := 1 } } sampleStep false [12, 12, 13]
      = .ok s ∧ resSpent s.2 < sampleStep.surplus :=
  exists_of_checks (by decide +kernel)

/-- The order condition of `C19_surplus_spent_exactly_partial` is needed: 'Import to ES' overfills the
battery and 'RES to ES' after the export takes the excess back, which is not exported any more. -/
theorem C19_unsafe_order_not_spent : ∃ s, dispatch samplePlant { sampleStep with soc := 9 } true [14, 15, 13]
      = .ok s ∧ resSpent s.2 < sampleStep.surplus :=
  exists_of_checks (by decide +kernel)

/-! ## C20 heat demand -/

/-- Heat delivered never exceeds the demand. -/
theorem C20_never_over_supplied {P : Plant N} {i : StepIn N} (H : StepOk P i) {b : Bool}
    {order : List ℤ} (hnd : order.Nodup) {c : Checks} {r : Results N}
    (h : dispatch P i b order = .ok (c, r)) : heatDelivered b r ≤ i.heatDemand := by
  obtain ⟨ps, r0, nodes, hf, hl, rfl, -, -⟩ := dispatch_facts H hnd h
  have h1 := hl.bal.heat
  have h2 := hl.base.h0
  cases b <;>
    simp only [heatDelivered, totals2, totals1, if_true, if_false, Bool.false_eq_true] <;> linarith

example : ∃ s, dispatch samplePlant sampleStep false orderAbove = .ok s ∧ heatDelivered false s.2 ≤ 30 := by
  obtain ⟨⟨c, r⟩, h, -⟩ := sampleStep_dispatched
  exact ⟨_, h, C20_never_over_supplied sampleStep_ok orderAbove_safe.1 h⟩

/-- Heat delivered is exactly the demand when the boiler is one of the processes, for safe orders
(`C20_unsafe_order_not_met` for others). -/
theorem C20_demand_met_partial {P : Plant N} {i : StepIn N} (H : StepOk P i) {b : Bool}
    {order : List ℤ} (hnd : order.Nodup) (hs : SafeOrder b order)
    (haux : (numbers b).auxToDemand ∈ order) {c : Checks} {r : Results N}
    (h : dispatch P i b order = .ok (c, r)) : heatDelivered b r = i.heatDemand := by
  obtain ⟨ps, r0, nodes, hf, hl, rfl, -, -⟩ := dispatch_facts H hnd h
  have h1 := hl.bal.heat
  have hk : keyOf b (numbers b).auxToDemand = .ok .auxToDemand := by cases b <;> rfl
  have h2 := hl.auxD (safe2_done hf hs.2) (safe1_done hf hs.1) ((mem_done hf hk).mpr haux)
  cases b <;>
    simp only [heatDelivered, totals2, totals1, if_true, if_false, Bool.false_eq_true] <;> linarith

example : ∃ s, dispatch samplePlant sampleStep false orderAbove = .ok s ∧
    s.2.heatDemand.hp = 12 ∧ s.2.heatDemand.ts = 15 ∧ s.2.heatDemand.aux = 3 ∧
    heatDelivered false s.2 = 30 := exists_of_checks (by decide +kernel)

/-- Below the setpoint the parts reported under `heat_demand` do not add up to the demand: the
electric heater fed by renewables is left out (it is included above the setpoint). -/
theorem C20_below_report_omits_electric_heater : ∃ s,
    dispatch samplePlant sampleStep true [5, 9] = .ok s ∧
    s.2.heatDemand.hp + s.2.heatDemand.ts + s.2.heatDemand.aux < sampleStep.heatDemand :=
  exists_of_checks (by decide +kernel)

/-- The order condition of `C20_demand_met_partial` is needed: heater to store, boiler, heater to demand. -/
theorem C20_unsafe_order_not_met : ∃ s,
    dispatch { samplePlant with peakHeatDemand := 30 } sampleStep false [11, 9, 5] = .ok s ∧
    heatDelivered false s.2 < sampleStep.heatDemand :=
  exists_of_checks (by decide +kernel)

theorem C20_repeats_lose_heat : ∃ s, dispatch samplePlant sampleStep false [9, 9] = .ok s ∧
    heatDelivered false s.2 = 0 ∧ 0 < sampleStep.heatDemand :=
  exists_of_checks (by decide +kernel)

/-! ## C21 non-negativity -/

theorem C21_dispatch_nonneg {P : Plant N} {i : StepIn N} (H : StepOk P i) {b : Bool}
    {order : List ℤ} (hnd : order.Nodup) (hs : SafeOrder b order) {c : Checks} {r : Results N}
    (h : dispatch P i b order = .ok (c, r)) : FlowsNonneg r := by
  obtain ⟨ps, r0, nodes, hf, hl, rfl, -, -⟩ := dispatch_facts H hnd h
  obtain ⟨n1, n2, n3, n4, n5, n6, n7, n8, n9, n10, n11, n12, n13, n14, n15, n16, n17, n18, n19⟩ :=
    hl.nonneg (safe2_done hf hs.2) (safe1_done hf hs.1)
  obtain ⟨c1, c2, c3, c4, c5, c6, c7, c8, c9, c10, c11, c12, c13, c14, c15, c16, c17⟩ := hl.copies
  have hf7 := hl.frame.below
  have hti : 0 ≤ (totals2 P i b nodes (totals1 P b r0)).grid.totalImport := by
    simp only [totals2, totals1]; split_ifs <;> linarith
  constructor
  · simp only [totals2, totals1]; exact ⟨n1, n2⟩
  · cases b <;> simp only [totals2, totals1, if_true, if_false, Bool.false_eq_true] <;>
      refine ⟨?_, ?_, ?_, ?_, ?_, ?_⟩ <;> linarith
  · simp only [totals2, totals1]; refine ⟨?_, ?_, ?_, ?_⟩ <;> linarith
  · simp only [totals2, totals1]; refine ⟨?_, ?_, ?_, ?_, ?_, ?_, ?_, ?_⟩ <;> linarith
  · simp only [totals2, totals1]; refine ⟨?_, ?_, ?_, ?_, ?_, ?_, ?_, ?_⟩ <;> linarith
  · simp only [totals2, totals1]; refine ⟨?_, ?_, ?_, ?_, ?_, ?_⟩ <;> linarith
  · simp only [totals2, totals1]; refine ⟨?_, ?_, ?_⟩ <;> linarith
  · refine ⟨?_, ?_, ?_, ?_, ?_, ?_, ?_⟩
    all_goals try (simp only [totals2, totals1]; linarith)
    exact (C01_step_within_capacity _ H.es.capacity_nonneg _ _).1
  · refine ⟨hti, ?_, ?_, ?_, ?_, ?_, ?_, ?_⟩
    all_goals try (simp only [totals2, totals1]; linarith)
    cases b
    · simp only [totals2, totals1, if_false, Bool.false_eq_true]; linarith
    · exact hti

example : ∃ s, dispatch samplePlant sampleStep false orderAbove = .ok s ∧ FlowsNonneg s.2 := by
  obtain ⟨⟨c, r⟩, h, -⟩ := sampleStep_dispatched
  exact ⟨_, h, C21_dispatch_nonneg sampleStep_ok orderAbove_safe.1 orderAbove_safe.2 h⟩

/-- Every flow reported by a timestep is non-negative, for safe orders. -/
theorem C21_flows_nonneg {P : Plant N} {i : StepIn N} (H : StepOk P i) {b : Bool}
    {order : List ℤ} (hnd : order.Nodup) (hs : SafeOrder b order) {r : Results N}
    (h : step P i b order = .ok r) : FlowsNonneg r := by
  obtain ⟨c, r1, hd, hm⟩ := step_ok h
  have h0 := C21_dispatch_nonneg H hnd hs hd
  have hover := C20_never_over_supplied H hnd hd
  obtain ⟨ps, r0, nodes', hf, hl, hr, -, -⟩ := dispatch_facts H hnd hd
  have hcop : r1.hp.cop = i.perf.cop := by subst hr; exact hl.frame.cop
  have hts : r1.ts.dischargingTotal ≤ i.heatDemand := by
    have hk := hl.copies.c7
    have e1 : r1.ts.dischargingTotal = r0.ts.dischargingTotal := by subst hr; rfl
    have e2 : r1.heatDemand.ts = r0.heatDemand.ts := by subst hr; rfl
    have hh := h0.heatDemand
    have ha := h0.aux
    cases b <;> simp only [heatDelivered, if_true, if_false, Bool.false_eq_true] at hover <;>
      linarith [hh.1, hh.2.2.2.2.2, ha.2.1]
  obtain ⟨f1, f2, f3, f4, f5, f6, f7, f8, f9⟩ := h0
  have hc := H.cop_pos
  rcases rule_outcome hm with ⟨rfl, _⟩ | ⟨nodes, hu, rfl⟩ | ⟨nodes, hu, hb, rfl⟩ |
    ⟨nodes, dis, hu, hb, ⟨m, hm', hdis⟩, rfl⟩
  · exact ⟨f1, f2, f3, f4, f5, f6, f7, f8, f9⟩
  · have hinc : 0 ≤ minOut P i - r1.hp.heatTotalOutput := by linarith [hu.1]
    have hinc' : 0 ≤ (minOut P i - r1.hp.heatTotalOutput) / r1.hp.cop := by
      rw [hcop]; exact div_nonneg hinc hc.le
    obtain ⟨g1, g2, g3, g4, g5, g6, g7, g8⟩ := f4
    obtain ⟨k1, k2, k3, k4, k5, k6, k7, k8⟩ := f5
    obtain ⟨l1, l2, l3, l4, l5, l6⟩ := f6
    refine ⟨f1, f2, f3, ?_, ?_, ?_, f7, f8, f9⟩
    · exact ⟨add_nonneg g1 hinc, g2, add_nonneg g3 hinc, g4, g5, g6, add_nonneg g7 hinc, g8⟩
    · exact ⟨add_nonneg k1 hinc', k2, add_nonneg k3 hinc', k4, k5, k6, add_nonneg k7 hinc', k8⟩
    · exact ⟨l1, l2, add_nonneg l3 hinc, l4, add_nonneg l5 hinc, l6⟩
  · refine ⟨f1, ?_, ?_, ?_, ?_, ?_, ?_, f8, f9⟩
    · exact ⟨le_rfl, le_rfl, le_rfl, le_rfl, f2.2.2.2.2.1, f2.2.2.2.2.2⟩
    · exact ⟨le_rfl, le_rfl, f3.2.2.1, f3.2.2.2⟩
    · exact ⟨le_rfl, le_rfl, le_rfl, le_rfl, le_rfl, le_rfl, le_rfl, le_rfl⟩
    · exact ⟨le_rfl, le_rfl, le_rfl, le_rfl, le_rfl, le_rfl, le_rfl, le_rfl⟩
    · exact ⟨f6.1, f6.2.1, le_rfl, le_rfl, le_rfl, f6.2.2.2.2.2⟩
    · exact ⟨sub_nonneg.mpr hts, f7.2.1, f7.2.2⟩
  · have hd0 : 0 ≤ dis := by
      rw [hdis]; exact le_min (H.tank_nonneg _ _ hm') H.heat_nonneg
    have hd1 : dis ≤ i.heatDemand := by rw [hdis]; exact min_le_right _ _
    refine ⟨f1, ?_, ?_, ?_, ?_, ?_, ?_, f8, f9⟩
    · exact ⟨le_rfl, le_rfl, le_rfl, le_rfl, f2.2.2.2.2.1, f2.2.2.2.2.2⟩
    · exact ⟨le_rfl, le_rfl, f3.2.2.1, f3.2.2.2⟩
    · exact ⟨le_rfl, le_rfl, le_rfl, le_rfl, le_rfl, le_rfl, le_rfl, le_rfl⟩
    · exact ⟨le_rfl, le_rfl, le_rfl, le_rfl, le_rfl, le_rfl, le_rfl, le_rfl⟩
    · exact ⟨le_rfl, hd0, le_rfl, le_rfl, le_rfl, f6.2.2.2.2.2⟩
    · refine ⟨?_, f7.2.1, f7.2.2⟩
      dsimp only
      split_ifs <;> linarith

example : StepOk samplePlant sampleStep ∧ orderBelow.Nodup ∧ SafeOrder true orderBelow :=
  ⟨sampleStep_ok, orderBelow_safe⟩

example : ∃ r, step samplePlant sampleStep true orderBelow = .ok r ∧
    r.hp.heatTotalOutput = 12 ∧ r.es.chargingFromImport = 4 ∧ r.grid.totalImport > 0 :=
  exists_of_checks (by decide +kernel)

/-- An hour with 60 kWh surplus and 50 kWh heat demand, the yearly peak. -/
def coldStep : StepIn Unit := { sampleStep with surplus := 60, heatDemand := 50 }

/-- Without the order condition the electric heater can be negative: store first, boiler
next, heater last. -/
theorem C21_unsafe_order_negative_heater : ∃ r,
    step samplePlant coldStep false [11, 9, 5] = .ok r ∧ r.aux.resToDemand < 0 :=
  exists_of_checks (by decide +kernel)

/-- 'HP import to TS' rounds to two decimals, so a later heat pump process can be negative. -/
theorem C21_unsafe_order_negative_pump : ∃ r,
    step samplePlant { sampleStep with perf := ⟨3, 12006 / 1000⟩ } true [12, 6] = .ok r ∧
      r.hp.heatFromImportToDemand < 0 :=
  exists_of_checks (by decide +kernel)

/-- 'Import to ES' overfills, so a later 'RES to ES' is negative charging. -/
theorem C21_unsafe_order_negative_charging : ∃ r,
    step samplePlant { sampleStep with soc := 9 } true [14, 13] = .ok r ∧
      r.es.chargingFromRes < 0 :=
  exists_of_checks (by decide +kernel)

/-! ## C22 heat pump duty -/

/-- Above the setpoint, the total output is at most the duty if no heat pump process comes after
'ES to HP to demand'. -/
theorem C22_above_le_duty_partial {P : Plant N} {i : StepIn N} (H : StepOk P i)
    {order : List ℤ} (hnd : order.Nodup) (hlast : EsPumpLast false order)
    (hmin : P.hp.minimumOutput * P.hp.minimumRuntime ≤ 6000) {r : Results N}
    (h : step P i false order = .ok r) : r.hp.heatTotalOutput ≤ i.perf.duty := by
  obtain ⟨c, r1, hd, hm⟩ := step_ok h
  obtain ⟨ps, r0, nodes', hf, hl, hr, -, htot⟩ := dispatch_facts H hnd hd
  have hs2 := safe2_done hf (fun hb => by cases hb)
  have ht := htot hs2 (safe3_done hf hlast)
  have h12 : Process.hpImportToTs ∉ ps.reverse :=
    fun hh => (forall₂_noTwelve hf).1 (List.mem_reverse.mp hh)
  have h1 := ht.exact' h12
  have h2 := hl.bal.hp
  have h3 : r1.hp.heatTotalOutput ≤ i.perf.duty := by
    subst hr; simp only [totals2, totals1]; linarith
  have hmo : minOut P i ≤ i.perf.duty := by
    have := mul_le_mul_of_nonneg_right hmin H.duty_nonneg
    unfold minOut; linarith
  rcases rule_outcome hm with ⟨rfl, _⟩ | ⟨_, _, rfl⟩ | ⟨_, _, _, rfl⟩ | ⟨_, _, _, hb, _, _⟩
  · exact h3
  · dsimp only; linarith
  · exact H.duty_nonneg
  · cases hb

example : ∃ r, step samplePlant sampleStep2 false [1, 2, 3, 4, 5, 6, 8, 10, 7, 9, 13] = .ok r ∧
    r.hp.heatTotalOutput ≤ 12 := by
  obtain ⟨r, h, -⟩ : ∃ r, step samplePlant sampleStep2 false [1, 2, 3, 4, 5, 6, 8, 10, 7, 9, 13] = .ok r ∧ True :=
    exists_of_checks (by decide +kernel)
  exact ⟨r, h, C22_above_le_duty_partial sampleStep2_ok (by decide) (by simp only [EsPumpLast]; decide)
    (by norm_num [samplePlant]) h⟩

/-- Below the setpoint, the same up to the two-decimal rounding of 'HP import to TS'. -/
theorem C22_below_le_duty_partial {P : Plant N} {i : StepIn N} (H : StepOk P i)
    {order : List ℤ} (hnd : order.Nodup) (hs : NoOvershoot true order)
    (hlast : EsPumpLast true order)
    (hmin : P.hp.minimumOutput * P.hp.minimumRuntime ≤ 6000) {r : Results N}
    (h : step P i true order = .ok r) : r.hp.heatTotalOutput ≤ i.perf.duty + 1 / 200 := by
  obtain ⟨c, r1, hd, hm⟩ := step_ok h
  obtain ⟨ps, r0, nodes', hf, hl, hr, -, htot⟩ := dispatch_facts H hnd hd
  have ht := htot (safe2_done hf hs) (safe3_done hf hlast)
  have h1 := ht.slack
  have h2 := hl.bal.hp
  have hdu := H.duty_nonneg
  have h3 : r1.hp.heatTotalOutput ≤ i.perf.duty + 1 / 200 := by
    subst hr; simp only [totals2, totals1]; linarith
  have hmo : minOut P i ≤ i.perf.duty := by
    have := mul_le_mul_of_nonneg_right hmin H.duty_nonneg
    unfold minOut; linarith
  rcases rule_outcome hm with ⟨rfl, _⟩ | ⟨_, _, rfl⟩ | ⟨_, _, hb, _⟩ | ⟨_, _, _, _, _, rfl⟩
  · exact h3
  · dsimp only; linarith
  · cases hb
  · simp only [zeroHp]; linarith

example : ∃ r, step samplePlant sampleStep2 true [1, 2, 3, 4, 5, 6, 7, 10, 11, 8, 9, 13, 15] = .ok r ∧
    r.hp.heatTotalOutput ≤ 12 + 1 / 200 := by
  obtain ⟨r, h, -⟩ : ∃ r, step samplePlant sampleStep2 true [1, 2, 3, 4, 5, 6, 7, 10, 11, 8, 9, 13, 15] = .ok r ∧ True :=
    exists_of_checks (by decide +kernel)
  exact ⟨r, h, C22_below_le_duty_partial sampleStep2_ok (by decide) (fun _ => ⟨by decide, by decide⟩)
    (by simp only [EsPumpLast]; decide) (by norm_num [samplePlant]) h⟩

/-- Output fed by renewables and import (everything but the battery) never exceeds the duty by
more than the rounding, whatever the position of 'ES to HP to demand'. -/
theorem C22_direct_output_le_duty {P : Plant N} {i : StepIn N} (H : StepOk P i) {b : Bool}
    {order : List ℤ} (hnd : order.Nodup) (hs : NoOvershoot b order) {c : Checks} {r : Results N}
    (h : dispatch P i b order = .ok (c, r)) :
    r.hp.heatTotalOutput - r.hp.heatFromEsToDemand
      ≤ i.perf.duty + (if b then 1 / 200 else 0) := by
  obtain ⟨ps, r0, nodes', hf, hl, rfl, -, -⟩ := dispatch_facts H hnd h
  have hc := hl.caps (safe2_done hf hs)
  have h2 := hl.bal.hp
  cases b with
  | true =>
    have := hc.u2
    simp only [totals2, totals1, if_true]; linarith
  | false =>
    have := hc.u1 (fun hh => (forall₂_noTwelve hf).1 (List.mem_reverse.mp hh))
    simp only [totals2, totals1, if_false, Bool.false_eq_true]; linarith

/-- Default orders put other heat pump processes after 'ES to HP'; this one does not. -/
example : EsPumpLast false [1, 2, 3, 4, 5, 6, 8, 10, 7, 9, 13] ∧
    EsPumpLast true [1, 2, 3, 4, 5, 6, 7, 10, 11, 8, 9, 13, 15] ∧
    samplePlant.hp.minimumOutput * samplePlant.hp.minimumRuntime ≤ 6000 := by
  refine ⟨by simp only [EsPumpLast]; decide, by simp only [EsPumpLast]; decide, ?_⟩
  norm_num [samplePlant]

/-- Heat made with battery electricity is not counted, so the reported output can be twice the
duty: 'ES to HP' followed by 'HP import'. -/
theorem C22_es_then_import_exceeds_duty : ∃ r, step samplePlant sampleStep false [7, 8] = .ok r ∧
    r.hp.heatTotalOutput = 2 * sampleStep.perf.duty :=
  exists_of_checks (by decide +kernel)

/-- The same happens with the default order. -/
theorem C22_default_order_exceeds_duty : ∃ r,
    step { samplePlant with tank := { sampleTank with maxInOut := fun _ _ _ => .ok 0 } }
      { sampleStep with surplus := 0 } false orderAbove = .ok r ∧
    r.hp.heatTotalOutput > sampleStep.perf.duty :=
  exists_of_checks (by decide +kernel)

/-- Rounding alone can exceed the duty below the setpoint. -/
theorem C22_rounding_exceeds_duty : ∃ r,
    step samplePlant { sampleStep with perf := ⟨3, 12006 / 1000⟩ } true [12] = .ok r ∧
      r.hp.heatTotalOutput > 12006 / 1000 :=
  exists_of_checks (by decide +kernel)

/-! ## C23 battery -/

/-- The state of charge after a timestep stays inside the battery. -/
theorem C23_final_soc_within_capacity {P : Plant N} {i : StepIn N} (H : StepOk P i) {b : Bool}
    {order : List ℤ} {r : Results N} (h : step P i b order = .ok r) :
    0 ≤ r.es.finalSoc ∧ r.es.finalSoc ≤ P.es.capacity := by
  obtain ⟨c, r1, hd, hm⟩ := step_ok h
  obtain ⟨r0, nodes, -, hr⟩ := dispatch_ok hd
  have h1 : r.es.finalSoc = r1.es.finalSoc := by
    rcases rule_outcome hm with ⟨rfl, _⟩ | ⟨_, _, rfl⟩ | ⟨_, _, _, rfl⟩ | ⟨_, _, _, _, _, rfl⟩ <;> rfl
  rw [h1]
  subst hr
  exact C01_step_within_capacity _ H.es.capacity_nonneg _ _

example : ∃ r, step samplePlant sampleStep2 true orderBelow = .ok r ∧ 0 ≤ r.es.finalSoc ∧
    r.es.finalSoc ≤ samplePlant.es.capacity := by
  obtain ⟨-, r, h, -⟩ := sampleStep2_steps
  exact ⟨r, h, C23_final_soc_within_capacity sampleStep2_ok h⟩

/-- Reported charging and discharging are the sums of their parts. -/
theorem C23_totals_are_sums {P : Plant N} {i : StepIn N} {b : Bool}
    {order : List ℤ} {r : Results N} (h : step P i b order = .ok r) :
    r.es.chargingTotal = r.es.chargingFromRes + r.es.chargingFromImport ∧
    r.es.dischargingTotal = r.es.dischargingToDemand + r.es.dischargingToHp := by
  obtain ⟨c, r1, hd, hm⟩ := step_ok h
  obtain ⟨r0, nodes, -, hr⟩ := dispatch_ok hd
  have h1 : r.es = r1.es := by
    rcases rule_outcome hm with ⟨rfl, _⟩ | ⟨_, _, rfl⟩ | ⟨_, _, _, rfl⟩ | ⟨_, _, _, _, _, rfl⟩ <;> rfl
  rw [h1]
  subst hr
  exact ⟨rfl, rfl⟩

example : ∃ r, step samplePlant sampleStep2 true orderBelow = .ok r ∧
    r.es.chargingTotal = r.es.chargingFromRes + r.es.chargingFromImport := by
  obtain ⟨-, r, h, -⟩ := sampleStep2_steps
  exact ⟨r, h, (C23_totals_are_sums h).1⟩

/-- Above the setpoint the state of charge follows the reported flows in every hour that
charges on balance. -/
theorem C23_soc_follows_net_charging {P : Plant N} {i : StepIn N} (H : StepOk P i)
    {order : List ℤ} (hnd : order.Nodup) (hs : SafeOrder false order) {r : Results N}
    (h : step P i false order = .ok r) (hnet : r.es.dischargingTotal ≤ r.es.chargingTotal) :
    r.es.finalSoc = clampSoc P.es.capacity
      (i.soc + (r.es.chargingTotal - r.es.dischargingTotal) - i.soc * P.es.selfDischarge) := by
  obtain ⟨c, r1, hd, hm⟩ := step_ok h
  have hrate := (fun r0 h0 => (rating_ok (b := false) (order := order) H (s := (c, r0)) h0).1)
  obtain ⟨r0', nodes', hrun, hr'⟩ := dispatch_ok hd
  obtain ⟨ps, hf, hl⟩ := loop_ok H hnd hrun
  have h1 : r.es = r1.es := by
    rcases rule_outcome hm with ⟨rfl, _⟩ | ⟨_, _, rfl⟩ | ⟨_, _, _, rfl⟩ | ⟨_, _, _, _, _, rfl⟩ <;> rfl
  rw [h1] at hnet ⊢
  have hra := hrate r0' hrun
  have hs2 := safe2_done hf hs.2
  have hnn := hl.nonneg hs2 (safe1_done hf hs.1)
  have h14 : Process.importToEs ∉ ps.reverse :=
    fun hh => (forall₂_noTwelve hf).2 (List.mem_reverse.mp hh)
  have hcap := (hl.caps hs2).scap h14
  have hfr := (hl.fresh _ h14).2
  have hsoc := hl.bal.soc
  have k1 := hl.copies.c1
  have k9 := hl.copies.c9
  have n1 := hnn.edEs
  have n8 := hnn.eEsD
  subst hr'
  simp only [totals2, totals1] at hnet hsoc hfr hra hcap ⊢
  exact newSoc_charge H.es H.soc_nonneg (by linarith) (by linarith) (by linarith)

example : ∃ r, step samplePlant sampleStep false [12, 13] = .ok r ∧ r.es.finalSoc = clampSoc samplePlant.es.capacity
    (5 + (r.es.chargingTotal - r.es.dischargingTotal) - 5 * samplePlant.es.selfDischarge) := by
  obtain ⟨r, h, hn⟩ : ∃ r, step samplePlant sampleStep false [12, 13] = .ok r ∧
    r.es.dischargingTotal ≤ r.es.chargingTotal := exists_of_checks (by decide +kernel)
  exact ⟨r, h, C23_soc_follows_net_charging sampleStep_ok (by decide) ⟨by decide, fun h => by cases h⟩ h hn⟩

/-- With a lossless discharge and net discharge within the rating, the state of charge follows
the reported flows in every hour that discharges on balance. -/
theorem C23_soc_follows_net_discharging_partial {P : Plant N} {i : StepIn N} (H : StepOk P i)
    {b : Bool} {order : List ℤ} {r : Results N}
    (h : step P i b order = .ok r) (hnet : r.es.chargingTotal ≤ r.es.dischargingTotal)
    (heff : P.es.dischargeEff = 1)
    (hrate : r.es.dischargingTotal - r.es.chargingTotal ≤ P.es.dischargeMax) :
    r.es.finalSoc = clampSoc P.es.capacity
      (i.soc + (r.es.chargingTotal - r.es.dischargingTotal) - i.soc * P.es.selfDischarge) := by
  obtain ⟨c, r1, hd, hm⟩ := step_ok h
  obtain ⟨r0, nodes, hrun, hr⟩ := dispatch_ok hd
  have h1 : r.es = r1.es := by
    rcases rule_outcome hm with ⟨rfl, _⟩ | ⟨_, _, rfl⟩ | ⟨_, _, _, rfl⟩ | ⟨_, _, _, _, _, rfl⟩ <;> rfl
  rw [h1] at hnet hrate ⊢
  subst hr
  simp only [totals2, totals1] at hnet hrate ⊢
  exact newSoc_discharge H.es H.soc_nonneg H.soc_le (by linarith) heff (by linarith)

example : ∃ r, step samplePlant sampleStep false [12, 13] = .ok r ∧
    r.es.dischargingTotal ≤ r.es.chargingTotal ∧ r.es.chargingTotal = 4 ∧
    r.es.finalSoc = 895 / 100 :=
  exists_of_checks (by decide +kernel)

example : ∃ r, step { samplePlant with es := { sampleBattery with dischargeEff := 1 } }
    { sampleStep2 with deficit := 2 } false orderAbove = .ok r ∧
    r.es.chargingTotal ≤ r.es.dischargingTotal ∧
    r.es.dischargingTotal - r.es.chargingTotal ≤ 5 ∧ r.es.dischargingTotal > 2 :=
  exists_of_checks (by decide +kernel)

/-- The controller reports a discharge above the rating (5 kWh from a 3 kW battery), and the
state of charge does not fall by the reported amount. -/
theorem C23_reported_discharge_exceeds_rating : ∃ r,
    step samplePlant sampleStep2 false [2, 3] = .ok r ∧
    r.es.dischargingTotal > samplePlant.es.dischargeMax ∧
    r.es.finalSoc ≠ clampSoc samplePlant.es.capacity (sampleStep2.soc
      + (r.es.chargingTotal - r.es.dischargingTotal) - sampleStep2.soc * (1 / 100)) :=
  exists_of_checks (by decide +kernel)

/-- Within the rating but with discharge losses, the state of charge falls by less than the
energy delivered: the efficiency is applied the wrong way round. -/
theorem C23_losses_create_energy : ∃ r,
    step samplePlant { sampleStep2 with deficit := 2 } false [2, 3] = .ok r ∧
    r.es.dischargingTotal = 2 ∧
    r.es.finalSoc > 5 - 5 * (1 / 100) - r.es.dischargingTotal :=
  exists_of_checks (by decide +kernel)

/-! ## C24 grid totals and cash flow -/

/-- Costs, income and cash flow of a timestep, for every order. -/
theorem C24_cashflow {P : Plant N} {i : StepIn N} {b : Bool} {order : List ℤ} {r : Results N}
    (H : StepOk P i) (hnd : order.Nodup) (h : step P i b order = .ok r) :
    r.grid.importCosts = r.grid.totalImport * i.importPrice / 1000 ∧
    r.grid.exportIncome = r.grid.totalExport * P.exportPrice / 1000 ∧
    r.grid.cashflow = r.grid.exportIncome - r.grid.importCosts ∧
    r.grid.importPrice = i.importPrice := by
  obtain ⟨c, r1, hd, hm⟩ := step_ok h
  obtain ⟨ps, r0, nodes, hf, hl, hr, -, -⟩ := dispatch_facts H hnd hd
  have h1 : r.grid = r1.grid := by
    rcases rule_outcome hm with ⟨rfl, _⟩ | ⟨_, _, rfl⟩ | ⟨_, _, _, rfl⟩ | ⟨_, _, _, _, _, rfl⟩ <;> rfl
  rw [h1]
  subst hr
  have hp := hl.frame.importPrice
  refine ⟨?_, rfl, rfl, hp⟩
  rw [← hp]; rfl

example : ∃ r, step samplePlant sampleStep2 true orderBelow = .ok r ∧
    r.grid.importCosts = r.grid.totalImport * 100 / 1000 := by
  obtain ⟨-, r, h, -⟩ := sampleStep2_steps
  exact ⟨r, h, (C24_cashflow sampleStep2_ok orderBelow_safe.1 h).1⟩

/-- `total_import` is the sum of its reported parts, plus grid-fed electric heating. -/
theorem C24_total_import_is_sum {P : Plant N} {i : StepIn N} {b : Bool} {order : List ℤ}
    {c : Checks} {r : Results N} (h : dispatch P i b order = .ok (c, r)) :
    r.grid.totalImport = r.grid.importForElecDemand + r.grid.importForHeatPumpTotal
      + r.grid.importForEs
      + (if P.aux.electric then r.aux.demand - r.aux.resToDemand - r.aux.resToTs else 0) ∧
    r.grid.importForHeatPumpTotal
      = r.grid.importForHeatPumpToHeatDemand + r.grid.importForHeatPumpToTs ∧
    (b = true → r.grid.importBelowSetpoint = r.grid.totalImport) := by
  obtain ⟨r0, nodes, hrun, hr⟩ := dispatch_ok h
  dsimp only at hr
  subst hr
  refine ⟨?_, rfl, fun hb => by subst hb; rfl⟩
  simp only [totals2]
  split_ifs <;> ring

example : ∃ s, dispatch samplePlant sampleStep false orderAbove = .ok s ∧ s.2.grid.importForHeatPumpTotal =
    s.2.grid.importForHeatPumpToHeatDemand + s.2.grid.importForHeatPumpToTs := by
  obtain ⟨⟨c, r⟩, h, -⟩ := sampleStep_dispatched
  exact ⟨_, h, (C24_total_import_is_sum h).2.1⟩

/-- With a fuelled boiler the sum also holds after the minimum output rule. -/
theorem C24_total_import_final_fuelled {P : Plant N} {i : StepIn N} {b : Bool} {order : List ℤ}
    {r : Results N} (h : step P i b order = .ok r) (hf : P.aux.electric = false) :
    r.grid.totalImport = r.grid.importForElecDemand + r.grid.importForHeatPumpTotal
      + r.grid.importForEs := by
  obtain ⟨c, r1, hd, hm⟩ := step_ok h
  have h1 : r.grid = r1.grid := by
    rcases rule_outcome hm with ⟨rfl, _⟩ | ⟨_, _, rfl⟩ | ⟨_, _, _, rfl⟩ | ⟨_, _, _, _, _, rfl⟩ <;> rfl
  have := (C24_total_import_is_sum hd).1
  rw [h1]
  simpa [hf] using this

/-- A gas boiler. -/
example : ∃ r, step { samplePlant with aux := ⟨false, 9 / 10, 5, 1 / 10⟩ } sampleStep2 true orderBelow = .ok r ∧
    r.grid.totalImport = r.grid.importForElecDemand + r.grid.importForHeatPumpTotal + r.grid.importForEs ∧
    r.grid.totalImport ≠ 0 := by
  obtain ⟨r, h, hn⟩ : ∃ r, step { samplePlant with aux := ⟨false, 9 / 10, 5, 1 / 10⟩ } sampleStep2 true orderBelow = .ok r ∧
    r.grid.totalImport ≠ 0 := exists_of_checks (by decide +kernel)
  exact ⟨r, h, C24_total_import_final_fuelled h rfl, hn⟩

/-- Electricity imported for heat is what the heat pump and electric heater used: the parts of
`total_import` are the amounts recorded by the devices. -/
theorem C24_import_parts_match_devices {P : Plant N} {i : StepIn N} (H : StepOk P i) {b : Bool}
    {order : List ℤ} (hnd : order.Nodup) {c : Checks} {r : Results N}
    (h : dispatch P i b order = .ok (c, r)) :
    r.grid.importForElecDemand = r.elecDemand.imp ∧
    r.grid.importForHeatPumpTotal = r.hp.elecImportUsage ∧
    r.grid.importForEs = r.es.chargingFromImport ∧
    r.grid.totalExport = r.res.exp := by
  obtain ⟨ps, r0, nodes, hf, hl, rfl, -, -⟩ := dispatch_facts H hnd h
  have k2 := hl.copies.c2
  have k6 := hl.copies.c6
  have k13 := hl.copies.c13
  have k16 := hl.copies.c16
  have k17 := hl.copies.c17
  simp only [totals2, totals1]
  exact ⟨k2, by rw [k6, k13], k16, k17.symm⟩

example : ∃ r, step samplePlant sampleStep2 true orderBelow = .ok r ∧
    r.grid.importForElecDemand = 6 ∧ r.grid.importForHeatPumpTotal = 4 ∧
    r.grid.importForEs = 4 ∧ r.aux.demand = 3 ∧ r.grid.totalImport = 17 ∧
    r.grid.cashflow = -(17 * 100 / 1000) :=
  exists_of_checks (by decide +kernel)

/-- Above the setpoint the results claim an export price of 0 although income is computed with
the configured price. -/
theorem C24_reported_export_price_wrong : ∃ r, step samplePlant sampleStep false [13] = .ok r ∧
    r.grid.exportPrice = 0 ∧ r.grid.exportIncome = 5 * 40 / 1000 :=
  exists_of_checks (by decide +kernel)

/-! ## C25 minimum output -/

/-- After a timestep the heat pump is off, or at or above its minimum output, or was dispatched
at no more than 0.1 kWh above the setpoint. -/
theorem C25_min_output_partial {P : Plant N} {i : StepIn N} {b : Bool} {order : List ℤ}
    {r : Results N} (h : step P i b order = .ok r) :
    r.hp.heatTotalOutput = 0 ∨
    P.hp.minimumOutput / 100 * (P.hp.minimumRuntime / 60) * i.perf.duty ≤ r.hp.heatTotalOutput ∨
    r.hp.heatTotalOutput ≤ (if b then 0 else 1 / 10) := by
  obtain ⟨c, r1, hd, hm⟩ := step_ok h
  have hmo : minOut P i = P.hp.minimumOutput / 100 * (P.hp.minimumRuntime / 60) * i.perf.duty := by
    unfold minOut; ring
  rw [← hmo]
  rcases rule_outcome hm with ⟨rfl, hu⟩ | ⟨_, _, rfl⟩ | ⟨_, _, _, rfl⟩ | ⟨_, _, _, _, _, rfl⟩
  · right
    rw [not_and_or, not_lt, not_lt] at hu
    exact hu
  · right; left; dsimp only; linarith
  · left; rfl
  · left; rfl

example : ∃ r, step samplePlant { sampleStep2 with heatDemand := 1 } true [6] = .ok r ∧
    (r.hp.heatTotalOutput = 0 ∨ 20 / 100 * (60 / 60) * 12 ≤ r.hp.heatTotalOutput ∨ r.hp.heatTotalOutput ≤ 0) := by
  obtain ⟨r, h, -⟩ : ∃ r, step samplePlant { sampleStep2 with heatDemand := 1 } true [6] = .ok r ∧ True :=
    exists_of_checks (by decide +kernel)
  exact ⟨r, h, C25_min_output_partial h⟩

/-- Below the setpoint, with a safe order: off, or at or above the minimum. -/
theorem C25_min_output_below {P : Plant N} {i : StepIn N} (H : StepOk P i) {order : List ℤ}
    (hnd : order.Nodup) (hs : SafeOrder true order) {r : Results N}
    (h : step P i true order = .ok r) :
    r.hp.heatTotalOutput = 0 ∨
    P.hp.minimumOutput / 100 * (P.hp.minimumRuntime / 60) * i.perf.duty
      ≤ r.hp.heatTotalOutput := by
  rcases C25_min_output_partial h with h1 | h1 | h1
  · exact Or.inl h1
  · exact Or.inr h1
  · exact Or.inl (le_antisymm h1 (C21_flows_nonneg H hnd hs h).hpHeat.1)

/-- 1 kWh of heat demand needs less than the minimum output of 2.4. -/
example : ∃ r, step samplePlant { sampleStep2 with heatDemand := 1 } true [6] = .ok r ∧
    r.hp.heatTotalOutput = 24 / 10 :=
  exists_of_checks (by decide +kernel)

/-- Above the setpoint an output of 0.1 kWh stays although the minimum is 2.4. -/
theorem C25_small_output_above_kept : ∃ r,
    step samplePlant { sampleStep2 with heatDemand := 1 / 10 } false [8] = .ok r ∧
    0 < r.hp.heatTotalOutput ∧ r.hp.heatTotalOutput < 20 / 100 * (60 / 60) * 12 :=
  exists_of_checks (by decide +kernel)

/-! ## C26 the minimum output rule -/

/-- The rule does nothing when the output is at least the minimum, or does not exceed the
trigger. -/
theorem C26_rule_idle {P : Plant N} {i : StepIn N} {b : Bool} {order : List ℤ} {c : Checks}
    {r : Results N} (h : dispatch P i b order = .ok (c, r))
    (hi : P.hp.minimumOutput / 100 * (P.hp.minimumRuntime / 60) * i.perf.duty
        ≤ r.hp.heatTotalOutput ∨ r.hp.heatTotalOutput ≤ (if b then 0 else 1 / 10)) :
    step P i b order = .ok r := by
  have hmo : minOut P i = P.hp.minimumOutput / 100 * (P.hp.minimumRuntime / 60) * i.perf.duty := by
    unfold minOut; ring
  rw [← hmo] at hi
  simp only [step, h]
  change minOutputRule P i b c r = _
  simp only [minOutputRule]
  rw [if_neg]
  rintro ⟨h1, h2⟩
  rcases hi with hi | hi
  · exact absurd hi (not_le.mpr h1)
  · exact absurd hi (not_le.mpr h2)

example : ∃ r, step samplePlant sampleStep false orderAbove = .ok r := by
  obtain ⟨⟨c, r⟩, h, h12⟩ := sampleStep_dispatched
  exact ⟨r, C26_rule_idle h (.inl (by rw [h12]; norm_num [samplePlant, sampleStep]))⟩

/-- Raising keeps the demand side untouched and books the extra heat into the store: heat and
electricity of the heat pump stay the sums of their parts. -/
theorem C26_heat_pump_totals {P : Plant N} {i : StepIn N} {b : Bool} {order : List ℤ}
    {r : Results N} (h : step P i b order = .ok r) :
    r.hp.heatTotalOutput = r.hp.heatToHeatDemand + r.hp.heatToTs ∧
    r.hp.heatToHeatDemand = r.hp.heatFromResToDemand + r.hp.heatFromImportToDemand
      + r.hp.heatFromEsToDemand ∧
    r.hp.heatToTs = r.hp.heatFromResToTs + r.hp.heatFromImportToTs ∧
    r.hp.elecTotalUsage = r.hp.elecResUsage + r.hp.elecImportUsage ∧
    r.hp.elecResUsage = r.hp.elecFromResToDemand + r.hp.elecFromResToTs ∧
    r.hp.elecImportUsage = r.hp.elecFromImportToDemand + r.hp.elecFromImportToTs ∧
    r.heatDemand.hp = r.heatDemand.hpRes + r.heatDemand.hpImport + r.heatDemand.hpEs ∧
    r.ts.hpToTs = r.ts.hpFromResToTs + r.ts.hpFromImportToTs := by
  obtain ⟨c, r1, hd, hm⟩ := step_ok h
  obtain ⟨r0, nodes, hrun, hr⟩ := dispatch_ok hd
  dsimp only at hr
  rcases rule_outcome hm with ⟨rfl, hu⟩ | ⟨_, _, rfl⟩ | ⟨_, _, _, rfl⟩ | ⟨_, _, _, _, _, rfl⟩
  · subst hr; exact ⟨rfl, rfl, rfl, rfl, rfl, rfl, rfl, rfl⟩
  · subst hr
    simp only [totals2, totals1]
    refine ⟨?_, trivial, ?_, ?_, trivial, ?_, trivial, ?_⟩ <;> ring
  · simp [zeroHp]
  · simp [zeroHp]

example : ∃ r, step samplePlant sampleStep2 true orderBelow = .ok r ∧
    r.hp.heatTotalOutput = r.hp.heatToHeatDemand + r.hp.heatToTs := by
  obtain ⟨-, r, h, -⟩ := sampleStep2_steps
  exact ⟨r, h, (C26_heat_pump_totals h).1⟩

/-- Unless it switches the heat pump off, a timestep delivers exactly the heat demand. -/
theorem C26_heat_delivered_unless_off {P : Plant N} {i : StepIn N} (H : StepOk P i) {b : Bool}
    {order : List ℤ} (hnd : order.Nodup) (hs : SafeOrder b order)
    (haux : (numbers b).auxToDemand ∈ order) {r : Results N} (h : step P i b order = .ok r)
    (hon : r.hp.heatTotalOutput ≠ 0) : heatDelivered b r = i.heatDemand := by
  obtain ⟨c, r1, hd, hm⟩ := step_ok h
  have h0 := C20_demand_met_partial H hnd hs haux hd
  rcases rule_outcome hm with ⟨rfl, hu⟩ | ⟨_, _, rfl⟩ | ⟨_, _, _, rfl⟩ | ⟨_, _, _, _, _, rfl⟩
  · exact h0
  · exact h0
  · exact absurd rfl hon
  · exact absurd rfl hon

example : ∃ r, step samplePlant sampleStep2 true orderBelow = .ok r ∧ heatDelivered true r = 30 := by
  obtain ⟨-, r, h, hon⟩ := sampleStep2_steps
  exact ⟨r, h, C26_heat_delivered_unless_off sampleStep2_ok orderBelow_safe.1 orderBelow_safe.2 (by decide) h hon⟩

/-- Switching off above the setpoint: boiler output plus storage discharge is the heat
demand. -/
theorem C26_off_above_boiler_covers {P : Plant N} {i : StepIn N}
    {order : List ℤ} {c : Checks} {r1 r : Results N}
    (hd : dispatch P i false order = .ok (c, r1)) (h : step P i false order = .ok r)
    (hon : r1.hp.heatTotalOutput ≠ 0) (hoff : r.hp.heatTotalOutput = 0) (hmo : 0 < minOut P i) :
    r.aux.demand + r.ts.dischargingTotal = i.heatDemand := by
  obtain ⟨c', r1', hd', hm⟩ := step_ok h
  rw [hd] at hd'
  cases hd'
  rcases rule_outcome hm with ⟨rfl, hu⟩ | ⟨_, _, rfl⟩ | ⟨_, _, _, rfl⟩ | ⟨_, _, _, hb, _, rfl⟩
  · exact absurd hoff hon
  · dsimp only at hoff; linarith
  · simp [zeroHp]
  · cases hb

example : ∃ r, step { samplePlant with tank := { sampleTank with maxInOut := fun _ _ _ => .ok 0 } }
    { sampleStep2 with heatDemand := 1 } false [8, 9] = .ok r ∧
    r.hp.heatTotalOutput = 0 ∧ r.aux.demand = 1 :=
  exists_of_checks (by decide +kernel)

/-- Switching off below the setpoint with a tank installed: the unmet heat is dropped. The heat
demand of 1 kWh is met by nothing. -/
theorem C26_off_below_drops_heat : ∃ r,
    step { samplePlant with tank := { sampleTank with maxInOut := fun _ _ _ => .ok 0 } }
      { sampleStep2 with heatDemand := 1 } true [6, 9] = .ok r ∧
    r.hp.heatTotalOutput = 0 ∧ r.ts.dischargingTotal = 0 ∧ r.aux.demand = 0 ∧
    heatDelivered true r = 0 :=
  exists_of_checks (by decide +kernel)

/-- After switching off, `heat_demand` does not show who covers the demand: its parts sum to 0
although the boiler was asked for 1 kWh. -/
theorem C26_off_above_report_not_updated : ∃ r,
    step { samplePlant with tank := { sampleTank with maxInOut := fun _ _ _ => .ok 0 } }
      { sampleStep2 with heatDemand := 1 } false [8, 9] = .ok r ∧
    r.aux.demand = 1 ∧ heatDelivered false r = 0 :=
  exists_of_checks (by decide +kernel)

/-- After switching off, the import for the heat pump is still billed although it uses none. -/
theorem C26_off_still_bills_import : ∃ r,
    step { samplePlant with tank := { sampleTank with maxInOut := fun _ _ _ => .ok 0 } }
      { sampleStep2 with heatDemand := 1 } false [8, 9] = .ok r ∧
    r.hp.elecTotalUsage = 0 ∧ r.grid.importForHeatPumpTotal = 1 / 3 :=
  exists_of_checks (by decide +kernel)

/-- After raising, the extra electricity of the heat pump is not in the grid import. -/
theorem C26_raise_import_not_billed : ∃ r,
    step samplePlant { sampleStep2 with heatDemand := 1 } false [8] = .ok r ∧
    r.hp.elecImportUsage = 8 / 10 ∧ r.grid.importForHeatPumpTotal = 1 / 3 :=
  exists_of_checks (by decide +kernel)

/-! ## C61 amounts reported under two headings agree -/

theorem C61_reports_agree {P : Plant N} {i : StepIn N} (H : StepOk P i) {b : Bool}
    {order : List ℤ} (hnd : order.Nodup) {c : Checks} {r : Results N}
    (h : dispatch P i b order = .ok (c, r)) :
    r.es.dischargingToDemand = r.elecDemand.es ∧
    r.es.dischargingToHp = r.hp.elecFromEsToDemand ∧
    r.res.es = r.es.chargingFromRes ∧
    r.res.hpToHeatDemand + r.res.hpToTs = r.hp.elecResUsage ∧
    r.heatDemand.hp = r.hp.heatToHeatDemand ∧
    r.heatDemand.ts = r.ts.dischargingTotal ∧
    r.ts.hpToTs = r.hp.heatToTs ∧
    r.ts.auxToTs = r.aux.resToTs ∧
    r.ts.chargingTotal = r.hp.heatToTs + r.aux.resToTs := by
  obtain ⟨ps, r0, nodes, hf, hl, rfl, -, -⟩ := dispatch_facts H hnd h
  obtain ⟨c1, c2, c3, c4, c5, c6, c7, c8, c9, c10, c11, c12, c13, c14, c15, c16, c17⟩ := hl.copies
  simp only [totals2, totals1]
  refine ⟨?_, ?_, ?_, ?_, ?_, ?_, ?_, ?_, ?_⟩ <;> linarith

example : ∃ s, dispatch samplePlant sampleStep false orderAbove = .ok s ∧
    s.2.es.dischargingToDemand = s.2.elecDemand.es := by
  obtain ⟨⟨c, r⟩, h, -⟩ := sampleStep_dispatched
  exact ⟨_, h, (C61_reports_agree sampleStep_ok orderAbove_safe.1 h).1⟩

/-! ## C62 the thermal store is asked for no more than it offers -/

theorem C62_store_within_offer_partial {P : Plant N} {i : StepIn N} (H : StepOk P i) {b : Bool}
    {order : List ℤ} (hnd : order.Nodup) (hs : NoOvershoot b order) {c : Checks} {r : Results N}
    (h : dispatch P i b order = .ok (c, r)) {mIn mOut : ℚ}
    (hin : P.tank.maxInOut i.hour .charging i.nodes = .ok mIn)
    (hout : P.tank.maxInOut i.hour .discharging i.nodes = .ok mOut) :
    r.ts.chargingTotal - r.ts.dischargingTotal ≤ mIn + (if b then 1 / 200 else 0) ∧
    r.ts.dischargingTotal - r.ts.chargingTotal ≤ mOut := by
  obtain ⟨ps, r0, nodes, hf, hl, rfl, -, -⟩ := dispatch_facts H hnd h
  have hc := hl.caps (safe2_done hf hs)
  have h1 := hl.bal.dis
  have h2 := hl.bal.ch
  have h3 := hc.avail _ hout
  refine ⟨?_, by simp only [totals2, totals1]; linarith⟩
  cases b with
  | true =>
    have := hc.room2 _ hin
    simp only [totals2, totals1, if_true]; linarith
  | false =>
    have := hc.room _ hin (fun hh => (forall₂_noTwelve hf).1 (List.mem_reverse.mp hh))
    simp only [totals2, totals1, if_false, Bool.false_eq_true]; linarith

example : ∃ s, dispatch samplePlant { sampleStep2 with heatDemand := 1 } true orderBelow = .ok s ∧
    s.2.ts.chargingTotal = 11 ∧ s.2.ts.dischargingTotal = 0 :=
  exists_of_checks (by decide +kernel)

/-- **Against C62.** 'HP import to TS' rounds the room left in the tank, here 11.996 kWh, up to 12. -/
theorem C62_rounding_overcharges : ∃ s,
    dispatch { samplePlant with tank := { sampleTank with maxInOut := fun _ _ _ => .ok (11996 / 1000) } }
      sampleStep true [12] = .ok s ∧
    (11996 / 1000 : ℚ) < s.2.ts.chargingTotal - s.2.ts.dischargingTotal :=
  exists_of_checks (by decide +kernel)

/-- **Against C62.** After that rounding exceeded the duty, 'HP RES to TS' takes 0.005 kWh back from a
tank that 'TS to demand' emptied in between. -/
theorem C62_unsafe_order_overdraws : ∃ s,
    dispatch samplePlant { sampleStep with perf := { cop := 3, duty := 12015 / 1000 } } true [12, 7, 10]
      = .ok s ∧ 15 < s.2.ts.dischargingTotal - s.2.ts.chargingTotal :=
  exists_of_checks (by decide +kernel)

/-! ## C63 heat of the heat pump is COP times its electricity -/

/-- Above the setpoint, for every flow and for every order, also after the minimum output
rule. -/
theorem C63_heat_is_cop_times_electricity {P : Plant N} {i : StepIn N} (H : StepOk P i)
    {order : List ℤ} (hnd : order.Nodup) {r : Results N} (h : step P i false order = .ok r) :
    r.hp.heatFromResToDemand = i.perf.cop * r.hp.elecFromResToDemand ∧
    r.hp.heatFromImportToDemand = i.perf.cop * r.hp.elecFromImportToDemand ∧
    r.hp.heatFromEsToDemand = i.perf.cop * r.hp.elecFromEsToDemand ∧
    r.hp.heatFromResToTs = i.perf.cop * r.hp.elecFromResToTs ∧
    r.hp.heatFromImportToTs = i.perf.cop * r.hp.elecFromImportToTs := by
  obtain ⟨c, r1, hd, hm⟩ := step_ok h
  obtain ⟨ps, r0, nodes, hf, hl, hr, hcr, -⟩ := dispatch_facts H hnd hd
  obtain ⟨t1, t2, t3, t4, -⟩ := hcr (safe2_done hf (fun hb => by cases hb))
  have h12 := hl.fresh _ (fun hh => (forall₂_noTwelve hf).1 (List.mem_reverse.mp hh))
  have z1 := h12.2.1
  have z2 := h12.2.2.1
  have hcop := hl.frame.cop
  have hc := H.cop_pos
  rcases rule_outcome hm with ⟨rfl, hu⟩ | ⟨_, _, rfl⟩ | ⟨_, _, _, rfl⟩ | ⟨_, _, _, _, _, rfl⟩
  · subst hr
    simp only [totals2, totals1]
    exact ⟨t1, t2, t3, t4, by rw [z1, z2, mul_zero]⟩
  · have e1 : r1.hp.cop = i.perf.cop := by subst hr; exact hcop
    have e2 : r1.hp.heatFromImportToTs = 0 := by subst hr; exact z1
    have e3 : r1.hp.elecFromImportToTs = 0 := by subst hr; exact z2
    refine ⟨by subst hr; exact t1, by subst hr; exact t2, by subst hr; exact t3,
      by subst hr; exact t4, ?_⟩
    dsimp only
    rw [e1, e2, e3, zero_add, zero_add, mul_div_cancel₀ _ hc.ne']
  · simp [zeroHp]
  · simp [zeroHp]

example : ∃ r, step samplePlant sampleStep false orderAbove = .ok r ∧
    r.hp.heatFromResToDemand = 3 * r.hp.elecFromResToDemand := by
  obtain ⟨r, h, -⟩ := sampleStep_steps
  exact ⟨r, h, (C63_heat_is_cop_times_electricity sampleStep_ok orderAbove_safe.1 h).1⟩

/-- Below the setpoint the same holds at dispatch, up to the rounding of 'HP import to TS'. -/
theorem C63_below_partial {P : Plant N} {i : StepIn N} (H : StepOk P i)
    {order : List ℤ} (hnd : order.Nodup) (hs : NoOvershoot true order) {c : Checks}
    {r : Results N} (h : dispatch P i true order = .ok (c, r)) :
    r.hp.heatFromResToDemand = i.perf.cop * r.hp.elecFromResToDemand ∧
    r.hp.heatFromImportToDemand = i.perf.cop * r.hp.elecFromImportToDemand ∧
    r.hp.heatFromEsToDemand = i.perf.cop * r.hp.elecFromEsToDemand ∧
    r.hp.heatFromResToTs = i.perf.cop * r.hp.elecFromResToTs ∧
    i.perf.cop * r.hp.elecFromImportToTs ≤ r.hp.heatFromImportToTs ∧
    r.hp.heatFromImportToTs ≤ i.perf.cop * r.hp.elecFromImportToTs + 1 / 200 := by
  obtain ⟨ps, r0, nodes, hf, hl, rfl, hcr, -⟩ := dispatch_facts H hnd h
  obtain ⟨t1, t2, t3, t4, t5, t6⟩ := hcr (safe2_done hf hs)
  exact ⟨t1, t2, t3, t4, t5, t6⟩

example : ∃ r, step samplePlant sampleStep false orderAbove = .ok r ∧
    r.hp.heatFromResToDemand = 12 ∧ r.hp.elecFromResToDemand = 4 :=
  exists_of_checks (by decide +kernel)

/-- Rounding gives free heat below the setpoint: 12.01 kWh from electricity for 12.006. -/
theorem C63_rounding_free_heat : ∃ r,
    step samplePlant { sampleStep with perf := ⟨3, 12006 / 1000⟩ } true [12] = .ok r ∧
      r.hp.heatFromImportToTs > 3 * r.hp.elecFromImportToTs :=
  exists_of_checks (by decide +kernel)

/-- The total electricity use reported leaves out the battery: the heat pump delivers 12 kWh and
reports no electricity. -/
theorem C63_total_usage_omits_battery : ∃ r, step samplePlant sampleStep false [7] = .ok r ∧
    r.hp.heatTotalOutput = 12 ∧ r.hp.elecFromEsToDemand = 4 ∧ r.hp.elecTotalUsage = 0 :=
  exists_of_checks (by decide +kernel)

/-! ## C68 auxiliary heating is booked -/

/-- Heat, fuel, mass and bill of the auxiliary agree: the heat is what surplus electricity made plus
what fuel or import made, the fuel is that heat over the efficiency, and what fuel or import made is
billed at the import price (electric) or the fuel price, per kWh of heat. -/
theorem C68_auxiliary_booked {P : Plant N} {i : StepIn N} (H : StepOk P i) {b : Bool}
    {order : List ℤ} (hnd : order.Nodup) (hs : SafeOrder b order) (heff : P.aux.efficiency ≠ 0)
    {c : Checks} {r : Results N} (h : dispatch P i b order = .ok (c, r)) : ∃ paid : ℚ, 0 ≤ paid ∧
    r.aux.demand = r.aux.resToDemand + r.aux.resToTs + paid ∧
    r.heatDemand.aux = (if b then paid else paid + r.aux.resToDemand) ∧
    r.aux.usage * P.aux.efficiency = r.aux.demand ∧
    r.aux.cost = (if P.aux.electric then i.importPrice else P.aux.cost) * paid ∧
    r.aux.mass = (if P.aux.electric then 0 else P.aux.energyDensity * r.aux.usage) := by
  obtain ⟨ps, r0, nodes, hf, hl, rfl, -, -⟩ := dispatch_facts H hnd h
  obtain ⟨n1, n2, n3, n4, n5, n6, n7, n8, n9, n10, n11, n12, n13, n14, n15, n16, n17, n18, n19⟩ :=
    hl.nonneg (safe2_done hf hs.2) (safe1_done hf hs.1)
  have hp := hl.frame.importPrice
  refine ⟨r0.heatDemand.aux, by linarith, rfl, rfl, ?_, ?_, ?_⟩
  · simp only [totals2, totals1, AuxI.fuelUsage]
    exact div_mul_cancel₀ _ heff
  · simp only [totals2, totals1, hp]
    ring
  · simp only [totals2, totals1]
    split_ifs <;> simp

example : ∃ s, dispatch samplePlant sampleStep false orderAbove = .ok s ∧ ∃ paid : ℚ, 0 ≤ paid ∧
    s.2.aux.demand = s.2.aux.resToDemand + s.2.aux.resToTs + paid := by
  obtain ⟨⟨c, r⟩, h, -⟩ := sampleStep_dispatched
  obtain ⟨paid, h1, h2, -⟩ := C68_auxiliary_booked sampleStep_ok orderAbove_safe.1 orderAbove_safe.2
    (by norm_num [samplePlant]) h
  exact ⟨_, h, paid, h1, h2⟩

/-- The bill is for the heat, not for the fuel burned to make it: a boiler with efficiency 1/2 burns
60 kWh of fuel for 30 kWh of heat and bills 30 kWh. -/
theorem C68_fuel_bill_ignores_efficiency : ∃ r, step
    { samplePlant with aux := { electric := false, efficiency := 1 / 2, cost := 40, energyDensity := 5 } }
      sampleStep2 false [9] = .ok r ∧
    r.aux.demand = 30 ∧ r.aux.usage = 60 ∧ r.aux.cost = 40 * 30 :=
  exists_of_checks (by decide +kernel)

/-- When the heat pump is switched off, the auxiliary's heat is rewritten but its fuel and bill are
not. -/
theorem C68_off_bill_not_updated : ∃ r,
    step { samplePlant with tank := { sampleTank with maxInOut := fun _ _ _ => .ok 0 } }
      { sampleStep2 with heatDemand := 1 } false [8, 9] = .ok r ∧
    r.aux.demand = 1 ∧ r.aux.usage = 0 ∧ r.aux.cost = 0 :=
  exists_of_checks (by decide +kernel)

example : ∃ s, dispatch samplePlant sampleStep false orderAbove = .ok s ∧
    s.2.aux.demand = 3 ∧ s.2.aux.resToDemand = 1 ∧ s.2.aux.resToTs = 0 ∧ s.2.aux.cost = 200 :=
  exists_of_checks (by decide +kernel)

end Verif
