import Verif.Props.KpiShares

/-!
# C81-C83: efficiency, renewable energy and cost indicators
-/

set_option autoImplicit false

namespace Verif
open FixedOrder Kpi Spec
variable {N : Type}

/-! ## C81 size ratio, utilisation and seasonal efficiency -/

/-- `m` is the largest of the amounts `f` of the results. -/
def Spec.LargestOf (rs : List (Results N)) (f : Results N → ℚ) (m : ℚ) : Prop :=
  (∃ r ∈ rs, f r = m) ∧ ∀ r ∈ rs, f r ≤ m

theorem foldl_max_mem : ∀ (xs : List ℚ) (a : ℚ), xs.foldl max a = a ∨ xs.foldl max a ∈ xs
  | [], a => Or.inl rfl
  | x :: xs, a => by
    rw [List.foldl_cons]
    rcases foldl_max_mem xs (max a x) with h | h
    · rcases max_choice a x with h' | h'
      · left; rw [h, h']
      · right; rw [h, h']; exact List.mem_cons_self ..
    · exact Or.inr (List.mem_cons_of_mem _ h)

theorem amax_largest {rs : List (Results N)} {f : Results N → ℚ} {m : ℚ} :
    amax (rs.map f) = .ok m ↔ LargestOf rs f m := by
  cases rs with
  | nil =>
    refine ⟨fun h => (by cases h), ?_⟩
    rintro ⟨⟨r, hr, -⟩, -⟩
    cases hr
  | cons r rs =>
    have key : LargestOf (r :: rs) f ((rs.map f).foldl max (f r)) := by
      constructor
      · rcases foldl_max_mem (rs.map f) (f r) with h | h
        · exact ⟨r, List.mem_cons_self .., h.symm⟩
        · obtain ⟨q, hq, hqe⟩ := List.mem_map.mp h
          exact ⟨q, List.mem_cons_of_mem _ hq, hqe⟩
      · intro q hq
        rcases List.mem_cons.mp hq with rfl | hq
        · exact (le_foldl_max _ _).1
        · exact (le_foldl_max _ _).2 _ (List.mem_map_of_mem hq)
    constructor
    · intro h
      rw [← Except.ok.inj h]
      exact key
    · rintro ⟨⟨q, hq, rfl⟩, h2⟩
      obtain ⟨⟨p, hp, hpe⟩, h4⟩ := key
      refine congrArg Except.ok (le_antisymm ?_ (h4 q hq))
      rw [← hpe]
      exact h2 p hp

theorem sum_mul_left' {α : Type} (c : ℚ) (f : α → ℚ) : ∀ l : List α, (l.map fun x => c * f x).sum = c * (l.map f).sum
  | [] => by simp
  | x :: xs => by simp only [List.map_cons, List.sum_cons, sum_mul_left' c f xs]; ring

/-- C81: the size ratio is the largest output of the heat pump over the largest heat demand, to two
decimals. -/
theorem C81_size_ratio {C : Calcs N} (h : AllHours C) {out dem : ℚ}
    (ho : LargestOf C.results (·.hp.heatTotalOutput) out)
    (hd : LargestOf C.results (·.heatDemand.heatDemand) dem) :
    hpSizeRatio C = .ok (if dem = 0 then none else some (pyRound (out / dem) 2)) := by
  unfold hpSizeRatio maxHeatPumpOutput maxHeatDemand
  rw [series_ok h, series_ok h]
  have e1 : (do let xs ← (Except.ok (C.results.map fun r : Results N => r.hp.heatTotalOutput) : Except PyErr (List ℚ)); amax xs) = .ok out :=
    amax_largest.mpr ho
  have e2 : (do let xs ← (Except.ok (C.results.map fun r : Results N => r.heatDemand.heatDemand) : Except PyErr (List ℚ)); amax xs) = .ok dem :=
    amax_largest.mpr hd
  rw [e1, e2]
  show Except.ok ((npDiv out dem).map _) = _
  unfold npDiv
  split_ifs <;> rfl

/-- C81: the sample with outputs 12 and 6 against demands 10 and 24. -/
example : ∃ x, hpSizeRatio (sampleCalcs (N := Unit) [{ hp := { heatTotalOutput := 12 }, heatDemand := { heatDemand := 10 } },
    { hp := { heatTotalOutput := 6 }, heatDemand := { heatDemand := 24 } }] 2) = .ok (some x) ∧ x = 1/2 :=
  ⟨1/2, by decide +kernel, rfl⟩

/-- C81: the utilisation is the heat of the heat pump in per cent of the heat demand, to whole per
cents. -/
theorem C81_utilisation {C : Calcs N} (h : AllHours C) {demand : ℚ}
    (hd : demand = (C.results.map (·.heatDemand.heatDemand)).sum) (h0 : demand ≠ 0) :
    ∃ x, hpUtilisation C = .ok (some x) ∧ |x - 100 * (pumpHeat C.results / demand)| ≤ 1/2 := by
  refine ⟨pyRound (pumpHeat C.results / demand) 2 * 100, ?_, ?_⟩
  · unfold hpUtilisation sumHpOutput sumHd
    rw [total_ok h, total_ok h, ← hd]
    show Except.ok ((npDiv _ demand).map _) = _
    unfold npDiv
    rw [if_neg h0]
    rfl
  · have := pyRound_bounds (pumpHeat C.results / demand) 2
    norm_num at this
    rw [abs_le]
    constructor <;> linarith [this.1, this.2]

example : ∃ x, hpUtilisation (sampleCalcs (N := Unit) [{ hp := { heatTotalOutput := 12 }, heatDemand := { heatDemand := 20 } }] 1) =
    .ok (some x) ∧ |x - 60| ≤ 1/2 := by
  obtain ⟨x, h, h'⟩ := C81_utilisation (C := sampleCalcs (N := Unit)
    [{ hp := { heatTotalOutput := 12 }, heatDemand := { heatDemand := 20 } }] 1) rfl (demand := 20)
    (by decide +kernel) (by norm_num)
  rw [show pumpHeat (sampleCalcs (N := Unit)
    [{ hp := { heatTotalOutput := 12 }, heatDemand := { heatDemand := 20 } }] 1).results = 12 by decide +kernel] at h'
  exact ⟨x, h, by norm_num at h' ⊢; exact h'⟩

/-- C81: the seasonal efficiency is heat over electricity, both over the whole run. -/
theorem C81_seasonal_efficiency {C : Calcs N} (h : AllHours C) :
    calcScop C = .ok (if pumpElec C.results = 0 then none
      else some (pumpHeat C.results / pumpElec C.results)) := by
  unfold calcScop sumHpOutput sumHpUsage
  rw [total_ok h, total_ok h]
  rfl

example : calcScop (sampleCalcs (N := Unit) [{ hp := { heatTotalOutput := 12, elecTotalUsage := 4 } }] 1) = .ok (some 3) :=
  (C81_seasonal_efficiency (C := sampleCalcs (N := Unit) [{ hp := { heatTotalOutput := 12, elecTotalUsage := 4 } }] 1) rfl).trans (by decide +kernel)

/-- C81: it is at least the lowest hourly COP. -/
theorem C81_at_least_worst_hour {S : RunIn N} (H : RunOk S) (hord : OrdersOk S) {first n : ℕ} {C : Calcs N}
    (h : OfRun S first n C) {worst x : ℚ} (hw : ∀ p ∈ S.perf, worst ≤ p.cop) (hx : calcScop C = .ok (some x)) :
    worst ≤ x := by
  have key : ∀ r ∈ C.results, 0 ≤ r.hp.elecTotalUsage ∧ worst * r.hp.elecTotalUsage ≤ r.hp.heatTotalOutput := by
    intro r hr
    have hf := C21_run_flows_nonneg H hord h.1 hr
    refine ⟨hf.hpElec.1, ?_⟩
    obtain ⟨_, _, _, _, heat, price, row, perf, gen, wnd, pv, elec, r0, ho, hsp, hst⟩ := run_mem H h.1 hr
    obtain ⟨hnd, hsafe⟩ := hour_order hord price
    obtain ⟨h1, h2⟩ := step_pump_heat hst hnd hsafe ho.stepEq
    have h3 := (C26_heat_pump_totals ho.stepEq).2.2.2.1
    have e : r.hp = r0.hp := by rw [ho.resultEq]; rfl
    have hnn := hf.hpElec.1
    rw [e] at hnn ⊢
    have hcop : worst ≤ r0.hp.cop := by
      rw [h1]
      exact hw _ (List.mem_of_getElem? ho.perfEq)
    have := mul_le_mul_of_nonneg_right hcop hnn
    rw [h3] at this ⊢
    linarith
  rw [C81_seasonal_efficiency h.all] at hx
  have h0 : pumpElec C.results ≠ 0 := by
    intro h0
    rw [if_pos h0] at hx
    cases hx
  rw [if_neg h0] at hx
  rw [← Option.some.inj (Except.ok.inj hx)]
  have hpos : 0 < pumpElec C.results :=
    lt_of_le_of_ne (sum_map_nonneg fun r hr => (key r hr).1) (Ne.symm h0)
  rw [le_div_iff₀ hpos]
  unfold pumpElec pumpHeat
  rw [← sum_mul_left']
  exact sum_le_sum_map fun r hr => (key r hr).2

example : ∃ rs, OfRun sampleRun 10 24 (sampleCalcs rs 24) ∧ ∀ p ∈ sampleRun.perf, 3 ≤ p.cop := by
  obtain ⟨rs, h⟩ := sampleCalcs_ofRun 10 24 (by norm_num)
  exact ⟨rs, h, fun p hp => by rw [List.eq_of_mem_replicate hp]⟩

/-- C81 is false of the best hour: electricity from the battery is not counted, so a heat pump with a
COP of 3 has a seasonal efficiency of 6. -/
theorem C81_battery_not_counted : ∃ r,
    step { samplePlant with hp := { samplePlant.hp with capacity := 60 } }
      { sampleStep with perf := ⟨3, 60⟩ } false [4, 7] = .ok r ∧
    r.hp.cop = 3 ∧ calcScop (sampleCalcs [complete ⟨5, 5, 0, 0⟩ 5 5 0 0 30 r] 1) = .ok (some 6) :=
  exists_of_checks (by decide +kernel)

/-! ## C82 renewable energy indicators -/

/-- Renewable electricity used for heat in an hour with much wind, when the auxiliary is electric: import of
heater and heat pump. -/
def Spec.heatImport (r : Results N) : ℚ := (r.aux.demand - r.res.aux) + r.hp.elecImportUsage

/-- C82: the electricity for heat that is renewable is the import for heat in the hours with much wind,
and of the local generation what is neither sold nor used for other demand. -/
theorem C82_renewable_heat_electricity {C : Calcs N} (h : AllHours C) {windy : ℚ}
    (hw : gridRes C heatImport = .ok windy) :
    heatTotalResUsed C = .ok (windy + (C.results.map fun r =>
      r.res.generationTotal - r.grid.totalExport - r.res.elecDemand).sum) := by
  have e : heatGridResUsed C = .ok windy := hw
  unfold heatTotalResUsed totalResSelfConsumption Kpi.sumRes sumExport sumEdRes
  rw [e, total_ok h, total_ok h, total_ok h, sum_map_sub', sum_map_sub']
  show Except.ok _ = _
  exact congrArg Except.ok (by ring)

example : heatTotalResUsed (sampleCalcs (N := Unit) [{ res := { generationTotal := 9, elecDemand := 2 }, grid := { totalExport := 3 } }] 1) =
    .ok 4 :=
  (C82_renewable_heat_electricity (C := sampleCalcs (N := Unit) [{ res := { generationTotal := 9, elecDemand := 2 }, grid := { totalExport := 3 } }] 1) rfl (windy := 0) (by decide +kernel)).trans (by decide +kernel)

/-- C82: in a run it is never negative, if the tariff has no wind farm. -/
theorem C82_never_negative {S : RunIn N} (H : RunOk S) (hord : OrdersOk S) {first n : ℕ}
    {C : Calcs N} (h : OfRun S first n C) (ht : C.tariff ∈ ["Flat rates", "Variable periods", "Time of use - WM"]) :
    ∃ x, heatTotalResUsed C = .ok x ∧ 0 ≤ x := by
  refine ⟨_, C82_renewable_heat_electricity h.all (C70_other_tariffs ht _), ?_⟩
  rw [zero_add]
  refine sum_map_nonneg fun r hr => ?_
  have h1 := C19_run_within_generation H hord h.1 hr
  have hf := C21_run_flows_nonneg H hord h.1 hr
  obtain ⟨_, _, _, _, heat, price, row, perf, gen, wnd, pv, elec, r0, ho, hsp, hst⟩ := run_mem H h.1 hr
  obtain ⟨hnd, hsafe⟩ := hour_order hord price
  obtain ⟨c, r1, hd, hm⟩ := step_ok ho.stepEq
  have h24 := (C24_import_parts_match_devices hst hnd hd).2.2.2
  have e1 : r.grid.totalExport = r.res.exp := by
    rw [ho.resultEq]
    show r0.grid.totalExport = r0.res.exp
    rcases rule_outcome hm with ⟨rfl, _⟩ | ⟨_, _, rfl⟩ | ⟨_, _, _, rfl⟩ | ⟨_, _, _, _, _, rfl⟩ <;> exact h24
  have e2 : r.res.hp = r.hp.elecResUsage := by rw [ho.resultEq]; rfl
  have e3 : r.res.aux = r.aux.resToDemand + r.aux.resToTs := by rw [ho.resultEq]; rfl
  have k1 := hf.hpElec.2.1
  have k2 := hf.aux
  have k3 := hf.res.2.2.1
  rw [e2, e3] at h1
  rw [e1]
  linarith [k2.2.1, k2.2.2]

example : ∃ rs, OfRun sampleRun 10 24 (sampleCalcs rs 24) ∧
    (sampleCalcs rs 24).tariff ∈ ["Flat rates", "Variable periods", "Time of use - WM"] := by
  obtain ⟨rs, h⟩ := sampleCalcs_ofRun 10 24 (by norm_num)
  exact ⟨rs, h, by simp [sampleCalcs]⟩

/-- C82: the renewable heat of the heat pump is its COP times the renewable electricity it uses, local and
of windy hours, and never more than all its heat. -/
theorem C82_pump_heat {S : RunIn N} (H : RunOk S) (hord : OrdersOk S) {first n : ℕ}
    {C : Calcs N} (h : OfRun S first n C) {windy : ℚ}
    (hw : gridRes C (fun r => r.hp.elecImportUsage * r.hp.cop) = .ok windy) :
    ∃ x, hpTotalResUsed C = .ok x ∧
      x = (C.results.map fun r => r.hp.elecResUsage * r.hp.cop).sum + windy ∧
      0 ≤ x ∧ x ≤ pumpHeat C.results := by
  have e : hpFromGridRes C = .ok windy := hw
  refine ⟨(C.results.map fun r => r.hp.elecResUsage * r.hp.cop).sum + windy, ?_, rfl, ?_, ?_⟩
  · unfold hpTotalResUsed hpFromLocalRes
    rw [total_ok h.all, e]
    rfl
  · exact add_nonneg (sum_map_nonneg fun r hr => (run_pump_heat H hord h.1 hr).1)
      (gridRes_bounds h.all (fun r hr => (run_pump_heat H hord h.1 hr).2.1) hw).1
  · have h1 := (gridRes_bounds h.all (fun r hr => (run_pump_heat H hord h.1 hr).2.1) hw).2
    have h2 := sum_le_sum_map (l := C.results) fun r hr => (run_pump_heat H hord h.1 hr).2.2
    rw [sum_map_add'] at h2
    unfold pumpHeat
    linarith

example : ∃ rs x, OfRun sampleRun 10 24 (sampleCalcs rs 24) ∧ hpTotalResUsed (sampleCalcs rs 24) = .ok x ∧
    0 ≤ x ∧ x ≤ pumpHeat rs := by
  obtain ⟨rs, h⟩ := sampleCalcs_ofRun 10 24 (by norm_num)
  obtain ⟨x, h1, -, h2, h3⟩ := C82_pump_heat sampleRun_ok sampleRun_orders h (windy := 0) rfl
  exact ⟨rs, x, h, h1, h2, h3⟩

/-! ## C83 costs of heat and electricity -/

/-- What heating costs over the results, in pounds: all import but that for the electric demand, at the price
of the hour, and the fuel (if that is not electricity). -/
def Spec.heatBill (electric : Bool) (rs : List (Results N)) : ℚ :=
  (rs.map fun r => (r.grid.totalImport - r.grid.importForElecDemand) * r.grid.importPrice).sum / 1000 +
    if electric then 0 else (rs.map (·.aux.cost)).sum / 1000

theorem heatCost_eq {C : Calcs N} (h : AllHours C) : heatCost C = .ok (heatBill C.electric C.results) := by
  unfold heatCost heatBill
  by_cases he : C.electric = true
  · rw [if_pos he, if_pos he, total_ok h, sum_map_div', add_zero]
  · rw [if_neg he, if_neg he, total_ok h, sum_map_add', sum_map_div', sum_map_div']

/-- C83: the cost of heat is the bill for heating less the year's subsidy, over the heat made. -/
theorem C83_cost_of_heat {C : Calcs N} (h : AllHours C) {i : RhiIncome} (hi : rhiIncome C = .ok i) {made : ℚ}
    (hm : made = (C.results.map fun r => r.aux.demand + r.hp.heatTotalOutput).sum) (h0 : made ≠ 0) :
    costOfHeat C = .ok (some ((heatBill C.electric C.results - i.year) / made)) := by
  unfold costOfHeat sumAuxOutput sumHpOutput
  rw [heatCost_eq h, total_ok h, total_ok h, hi]
  show Except.ok (npDiv _ _) = _
  rw [sum_map_add'] at hm
  rw [← hm]
  unfold npDiv
  rw [if_neg h0]

/-- An hour with 12 kWh from the pump on 4 kWh imported at 100 per MWh. -/
def Spec.importHour : Results Unit :=
  { hp := { heatTotalOutput := 12, elecTotalUsage := 4 }, grid := { totalImport := 4, importPrice := 100 } }

example : ∃ x, costOfHeat (sampleCalcs (N := Unit) [importHour] 1) = .ok (some x) := by
  obtain ⟨i, h, -⟩ : ∃ i, rhiIncome (sampleCalcs (N := Unit) [importHour] 1) = .ok i ∧ True := exists_of_checks (by decide +kernel)
  exact ⟨_, C83_cost_of_heat (C := sampleCalcs (N := Unit) [importHour] 1) rfl h rfl (by decide +kernel)⟩

/-- C83: in a run with prices that are not negative the bill for heating is not. -/
theorem C83_bill_nonneg {S : RunIn N} (H : RunOk S) (hord : OrdersOk S) (hp : ∀ x ∈ S.importPrice, 0 ≤ x)
    {first n : ℕ} {C : Calcs N} (h : OfRun S first n C) (he : C.electric = true) :
    0 ≤ heatBill C.electric C.results := by
  unfold heatBill
  rw [if_pos he, add_zero]
  refine div_nonneg (sum_map_nonneg fun r hr => ?_) (by norm_num)
  obtain ⟨_, _, _, _, heat, price, row, perf, gen, wnd, pv, elec, r0, ho, hsp, hst⟩ := run_mem H h.1 hr
  obtain ⟨hnd, hsafe⟩ := hour_order hord price
  obtain ⟨c, r1, hd, hm⟩ := step_ok ho.stepEq
  have hg : r.grid = r1.grid := by
    rw [ho.resultEq]
    show r0.grid = r1.grid
    rcases rule_outcome hm with ⟨rfl, _⟩ | ⟨_, _, rfl⟩ | ⟨_, _, _, rfl⟩ | ⟨_, _, _, _, _, rfl⟩ <;> rfl
  have hg0 : r.grid = r0.grid := by rw [ho.resultEq]; rfl
  have hpr : r.grid.importPrice = price := by rw [hg0]; exact (C24_cashflow hst hnd ho.stepEq).2.2.2
  refine mul_nonneg ?_ (by rw [hpr]; exact hp _ (List.mem_of_getElem? ho.priceEq))
  rw [hg]
  have hnn := (C21_dispatch_nonneg hst hnd hsafe hd).grid
  rw [(C24_total_import_is_sum hd).1]
  obtain ⟨ps, r', nodes, hf', hl, hr', -, -⟩ := dispatch_facts hst hnd hd
  obtain ⟨n1, n2, n3, n4, n5, n6, n7, n8, n9, n10, n11, n12, n13, n14, n15, n16, n17, n18, n19⟩ :=
    hl.nonneg (safe2_done hf' hsafe.2) (safe1_done hf' hsafe.1)
  have haux : 0 ≤ r1.aux.demand - r1.aux.resToDemand - r1.aux.resToTs := by
    subst hr'
    simp only [totals2, totals1]
    linarith
  have k1 := hnn.2.2.2.1
  have k2 := hnn.2.2.2.2.2.2.1
  split_ifs <;> linarith

example : (∀ x ∈ sampleRun.importPrice, 0 ≤ x) ∧ ∃ rs, OfRun sampleRun 10 24 (sampleCalcs rs 24) :=
  ⟨fun x hx => by rw [List.eq_of_mem_replicate hx]; norm_num, sampleCalcs_ofRun 10 24 (by norm_num)⟩

/-- C83: import charged to heat and import for the electric demand are all the import: the costs of heat and
of the electric demand together are what all imports cost. -/
theorem C83_bill_split {C : Calcs N} (h : AllHours C) (he : C.electric = true) {price : ℚ}
    (hp : ∀ r ∈ C.results, r.grid.importPrice = price) :
    ∃ heat elec all, heatCost C = .ok heat ∧ sumEdImport C = .ok elec ∧ sumImport C = .ok all ∧
      heat + elec * price / 1000 = all * price / 1000 := by
  refine ⟨_, _, _, heatCost_eq h, total_ok h _, total_ok h _, ?_⟩
  unfold heatBill
  rw [if_pos he, add_zero]
  have e : (C.results.map fun r => (r.grid.totalImport - r.grid.importForElecDemand) * r.grid.importPrice) =
      C.results.map fun r => price * (r.grid.totalImport - r.grid.importForElecDemand) :=
    List.map_congr_left fun r hr => by rw [hp r hr]; ring
  rw [e, sum_mul_left', sum_map_sub']
  ring

example : ∃ heat elec all, heatCost (sampleCalcs (N := Unit) [{ grid := { totalImport := 4, importForElecDemand := 1, importPrice := 100 } }] 1) = .ok heat ∧
    sumEdImport (sampleCalcs (N := Unit) [{ grid := { totalImport := 4, importForElecDemand := 1, importPrice := 100 } }] 1) = .ok elec ∧
    sumImport (sampleCalcs (N := Unit) [{ grid := { totalImport := 4, importForElecDemand := 1, importPrice := 100 } }] 1) = .ok all ∧
      heat + elec * 100 / 1000 = all * 100 / 1000 :=
  C83_bill_split (C := sampleCalcs (N := Unit) [{ grid := { totalImport := 4, importForElecDemand := 1, importPrice := 100 } }] 1)
    rfl rfl (by decide +kernel)

/-- What the import for the electric demand costs over the results, in pounds, each hour at its own price. -/
def Spec.demandBill (rs : List (Results N)) : ℚ :=
  (rs.map fun r => r.grid.importForElecDemand * r.grid.importPrice / 1000).sum

/-- C83: after a run, whatever the prices of its hours, the bill for heating and the bill for the electric demand make up
all that was paid for import and for fuel; and the cost of electricity, in thousand pounds, is what was paid for
import less what the export earned. -/
theorem C83_bills_of_run {S : RunIn N} (H : RunOk S) (hord : OrdersOk S) {first n : ℕ} {C : Calcs N}
    (h : OfRun S first n C) :
    ∃ heat elec, heatCost C = .ok heat ∧ costElec C = .ok elec ∧
      heat + demandBill C.results = (C.results.map (·.grid.importCosts)).sum +
        (if C.electric then 0 else (C.results.map (·.aux.cost)).sum / 1000) ∧
      1000 * elec = (C.results.map (·.grid.importCosts)).sum -
        (C.results.map fun r => r.grid.totalExport * S.exportPrice / 1000).sum := by
  have hr : ∀ r ∈ C.results, r.grid.importCosts = r.grid.totalImport * r.grid.importPrice / 1000 ∧
      r.grid.cashflow = r.grid.totalExport * S.exportPrice / 1000 - r.grid.importCosts := by
    intro r hr
    obtain ⟨_, _, _, _, heat, price, row, perf, gen, wnd, pv, elec, r0, ho, hsp, hst⟩ := run_mem H h.1 hr
    obtain ⟨h1, h2, h3, h4⟩ := C24_cashflow hst (hour_order hord price).1 ho.stepEq
    have hg : r.grid = r0.grid := by rw [ho.resultEq]; rfl
    rw [hg, h4, h3, h2]
    exact ⟨h1, rfl⟩
  refine ⟨_, _, heatCost_eq h.all, total_ok h.all _, ?_, ?_⟩
  · unfold heatBill demandBill
    have e : (C.results.map (·.grid.importCosts)) =
        C.results.map fun r => (r.grid.totalImport - r.grid.importForElecDemand) * r.grid.importPrice / 1000 +
          r.grid.importForElecDemand * r.grid.importPrice / 1000 :=
      List.map_congr_left fun r hm => by rw [(hr r hm).1]; ring
    rw [e, sum_map_add', sum_map_div' C.results (fun r => (r.grid.totalImport - r.grid.importForElecDemand) * r.grid.importPrice)]
    ring
  · have e : (C.results.map fun r => -r.grid.cashflow / 1000) =
        C.results.map fun r => (r.grid.importCosts - r.grid.totalExport * S.exportPrice / 1000) / 1000 :=
      List.map_congr_left fun r hm => by rw [(hr r hm).2]; ring
    rw [e, sum_map_div', sum_map_sub']
    ring

example {first n : ℕ} (hn : first + n ≤ 8760) : ∃ rs heat elec,
    runTimesteps sampleRun first n = .ok rs ∧ heatCost (sampleCalcs rs n) = .ok heat ∧
    costElec (sampleCalcs rs n) = .ok elec ∧ heat + demandBill rs = (rs.map (·.grid.importCosts)).sum := by
  obtain ⟨rs, h⟩ := sampleRun_runs first n hn
  obtain ⟨heat, elec, h1, h2, h3, -⟩ := C83_bills_of_run sampleRun_ok sampleRun_orders
    (C := sampleCalcs rs n) ⟨h, rfl⟩
  exact ⟨rs, heat, elec, h, h1, h2, h3.trans (add_zero _)⟩

/-- C83: the cost of electricity is what was paid less what was earned, in thousand pounds; with an electric
auxiliary it is the operating cost, otherwise less than that by the cost of the fuel. -/
theorem C83_cost_of_electricity {C : Calcs N} (h : AllHours C) :
    ∃ elec op, costElec C = .ok elec ∧ operatingCost C = .ok op ∧
      elec = (C.results.map fun r => -r.grid.cashflow).sum / 1000 ∧
      op - elec = if C.electric then 0 else (C.results.map (·.aux.cost)).sum / 1000000 := by
  refine ⟨_, _, total_ok h _, C46_operating_cost h, sum_map_div' .., ?_⟩
  rw [sum_map_div']
  unfold runningCost
  split_ifs <;> ring

example : ∃ elec op, costElec { sampleCalcs (N := Unit) [{ aux := { cost := 50 }, grid := { cashflow := -7 } }] 1 with electric := false } = .ok elec ∧
    operatingCost { sampleCalcs (N := Unit) [{ aux := { cost := 50 }, grid := { cashflow := -7 } }] 1 with electric := false } = .ok op ∧
    elec ≠ op := by
  obtain ⟨elec, op, h1, h2, -, h3⟩ := C83_cost_of_electricity
    (C := { sampleCalcs (N := Unit) [{ aux := { cost := 50 }, grid := { cashflow := -7 } }] 1 with electric := false }) rfl
  refine ⟨elec, op, h1, h2, ?_⟩
  rintro rfl
  rw [sub_self] at h3
  exact absurd h3 (by decide +kernel)

/-- C83 says nothing of what the import is for: electricity that charges the battery is charged to heat
although no heat is made. -/
theorem C83_battery_charged_to_heat : ∃ r, step samplePlant { sampleStep with surplus := 0, heatDemand := 0 } true [14] = .ok r ∧
    r.hp.heatTotalOutput = 0 ∧ r.aux.demand = 0 ∧ r.grid.importForEs = r.grid.totalImport ∧
    heatCost (sampleCalcs [complete ⟨0, 0, 0, 0⟩ 0 0 0 0 0 r] 1) = .ok (2 / 5) :=
  exists_of_checks (by decide +kernel)

end Verif
