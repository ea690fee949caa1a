import Verif.Props.Run
import Verif.Props.TankDispatch

/-!
# Costs and heat over a whole run (C20, C24, C26)
-/

set_option autoImplicit false

namespace Verif
open Spec FixedOrder
variable {N : Type}

/-- C24 over a run: the import of an hour is paid at the price of that hour, the export at the export price,
and the cashflow is the difference. -/
theorem C24_run_costs {S : RunIn N} (H : RunOk S) (hord : OrdersOk S) {first n : ℕ}
    {rs : List (Results N)} (h : runTimesteps S first n = .ok rs) {k : ℕ} (hk : k < n) :
    ∃ r price, rs[k]? = some r ∧ S.importPrice[first + k]? = some price ∧ r.grid.importPrice = price ∧
      r.grid.importCosts = r.grid.totalImport * price / 1000 ∧
      r.grid.exportIncome = r.grid.totalExport * S.exportPrice / 1000 ∧
      r.grid.cashflow = r.grid.exportIncome - r.grid.importCosts := by
  obtain ⟨rows, hall⟩ := run_hours H h
  obtain ⟨r, heat, price, row, perf, gen, wnd, pv, elec, r0, hr, ho, -, hst⟩ := hall k hk
  obtain ⟨h1, h2, h3, h4⟩ := C24_cashflow hst (hour_order hord price).1 ho.stepEq
  refine ⟨r, price, hr, ho.priceEq, ?_⟩
  rw [ho.resultEq]
  exact ⟨h4, h1, h2, h3⟩

example : ∃ rs, runTimesteps sampleRun 0 24 = .ok rs ∧ ∃ r, rs[5]? = some r ∧
    r.grid.importCosts = r.grid.totalImport * 100 / 1000 := by
  obtain ⟨rs, h⟩ := C27_accepts_span_inside_year (first := 0) (n := 24) sampleRun_fullYear
    ⟨by decide, by decide⟩ (fun _ _ _ => ⟨_, rfl⟩) (fun _ _ _ _ _ => ⟨_, rfl⟩) (by decide)
  obtain ⟨r, price, hr, hp, -, hc, -⟩ := C24_run_costs sampleRun_ok sampleRun_orders h
    (show 5 < 24 by decide)
  have := List.eq_of_mem_replicate (List.mem_of_getElem? hp)
  subst this
  exact ⟨rs, h, r, hr, hc⟩

/-- C20 over a run: in every hour the heat delivered is the demand, if the boiler is one of the processes
of both orders and the heat pump has no minimum output. -/
theorem C20_run_heat_delivered_partial {S : RunIn N} (H : RunOk S) (hord : OrdersOk S)
    (hmin : S.hp.minimumOutput = 0) (ha : 9 ∈ S.orderAbove) (hb : 9 ∈ S.orderBelow) {first n : ℕ}
    {rs : List (Results N)} (h : runTimesteps S first n = .ok rs) {k : ℕ} (hk : k < n) :
    ∃ r price, rs[k]? = some r ∧ S.importPrice[first + k]? = some price ∧
      heatDelivered (decide (price ≤ S.setpoint)) r = r.heatDemand.heatDemand := by
  obtain ⟨rows, hall⟩ := run_hours H h
  obtain ⟨r, heat, price, row, perf, gen, wnd, pv, elec, r0, hr, ho, -, hst⟩ := hall k hk
  obtain ⟨hnd, hsafe⟩ := hour_order hord price
  obtain ⟨c, hd⟩ := step_no_minimum hmin ho.stepEq
  have haux : (Spec.numbers (decide (price ≤ S.setpoint))).auxToDemand
      ∈ (if price > S.setpoint then S.orderAbove else S.orderBelow) := by
    by_cases hp : price > S.setpoint
    · rw [if_pos hp, decide_eq_false (not_le.mpr hp)]; exact ha
    · rw [if_neg hp, decide_eq_true (not_lt.mp hp)]; exact hb
  have := C20_demand_met_partial hst hnd hsafe haux hd
  refine ⟨r, price, hr, ho.priceEq, ?_⟩
  rw [ho.resultEq]
  exact this

/-- C26 over a run: with a minimum output, in every hour in which the heat pump gives heat. -/
theorem C26_run_heat_delivered_while_on {S : RunIn N} (H : RunOk S) (hord : OrdersOk S)
    (ha : 9 ∈ S.orderAbove) (hb : 9 ∈ S.orderBelow) {first n : ℕ}
    {rs : List (Results N)} (h : runTimesteps S first n = .ok rs) {k : ℕ} (hk : k < n) :
    ∃ r price, rs[k]? = some r ∧ S.importPrice[first + k]? = some price ∧
      (r.hp.heatTotalOutput ≠ 0 →
        heatDelivered (decide (price ≤ S.setpoint)) r = r.heatDemand.heatDemand) := by
  obtain ⟨rows, hall⟩ := run_hours H h
  obtain ⟨r, heat, price, row, perf, gen, wnd, pv, elec, r0, hr, ho, -, hst⟩ := hall k hk
  obtain ⟨hnd, hsafe⟩ := hour_order hord price
  have haux : (Spec.numbers (decide (price ≤ S.setpoint))).auxToDemand
      ∈ (if price > S.setpoint then S.orderAbove else S.orderBelow) := by
    by_cases hp : price > S.setpoint
    · rw [if_pos hp, decide_eq_false (not_le.mpr hp)]; exact ha
    · rw [if_neg hp, decide_eq_true (not_lt.mp hp)]; exact hb
  refine ⟨r, price, hr, ho.priceEq, fun hon => ?_⟩
  rw [ho.resultEq] at hon ⊢
  have := C26_heat_delivered_unless_off hst hnd hsafe haux ho.stepEq hon
  exact this

/-- The sample system with its minimum output, and without one. -/
example : ∃ rs, runTimesteps sampleRun 0 24 = .ok rs ∧ ∃ r, rs[5]? = some r ∧
    (r.hp.heatTotalOutput ≠ 0 → heatDelivered false r = r.heatDemand.heatDemand) := by
  obtain ⟨rs, h⟩ := C27_accepts_span_inside_year (first := 0) (n := 24) sampleRun_fullYear
    ⟨by decide, by decide⟩ (fun _ _ _ => ⟨_, rfl⟩) (fun _ _ _ _ _ => ⟨_, rfl⟩) (by decide)
  obtain ⟨r, price, hr, hp, hc⟩ := C26_run_heat_delivered_while_on sampleRun_ok sampleRun_orders
    (by decide) (by decide) h (show 5 < 24 by decide)
  have := List.eq_of_mem_replicate (List.mem_of_getElem? hp)
  subst this
  exact ⟨rs, h, r, hr, hc⟩

example : ∃ rs, runTimesteps { sampleRun with hp := { sampleRun.hp with minimumOutput := 0 } } 0 24
    = .ok rs ∧ ∃ r, rs[5]? = some r ∧ heatDelivered false r = r.heatDemand.heatDemand := by
  have hok : RunOk { sampleRun with hp := { sampleRun.hp with minimumOutput := 0 } } :=
    ⟨sampleRun_ok.1, sampleRun_ok.2, sampleRun_ok.3, sampleRun_ok.4, sampleRun_ok.5, sampleRun_ok.6⟩
  obtain ⟨rs, h⟩ := C27_accepts_span_inside_year (first := 0) (n := 24)
    (S := { sampleRun with hp := { sampleRun.hp with minimumOutput := 0 } })
    ⟨sampleRun_fullYear.1, sampleRun_fullYear.2, sampleRun_fullYear.3, sampleRun_fullYear.4,
      sampleRun_fullYear.5, sampleRun_fullYear.6, sampleRun_fullYear.7⟩
    ⟨by decide, by decide⟩ (fun _ _ _ => ⟨_, rfl⟩) (fun _ _ _ _ _ => ⟨_, rfl⟩) (by decide)
  obtain ⟨r, price, hr, hp, hc⟩ := C20_run_heat_delivered_partial hok
    ⟨sampleRun_orders.1, sampleRun_orders.2, sampleRun_orders.3, sampleRun_orders.4⟩ rfl
    (by decide) (by decide) h (show 5 < 24 by decide)
  have := List.eq_of_mem_replicate (List.mem_of_getElem? hp)
  subst this
  exact ⟨rs, h, r, hr, hc⟩

end Verif
