import Verif.Props.FixedOrder
import Verif.Lemmas.Grid

/-!
# The controller moves the heat it books (C73)
-/

set_option autoImplicit false

namespace Verif
open Spec FixedOrder
variable {N : Type}

/-- What a tank is asked to do in an hour whose books show `net` kWh stored (drawn, if negative),
ignoring amounts up to `tol`. -/
structure Spec.StateFor (tol net : ℚ) (s : TankState) : Prop where
  charge : tol < net → s = .charging
  draw : net < -tol → s = .discharging
  idle : |net| ≤ tol → s = .standby

theorem stateOf_exact (net : ℚ) : StateFor 0 net (stateOf net) := by
  unfold stateOf
  refine ⟨fun h => if_pos h, fun h => ?_, fun h => ?_⟩
  · rw [if_neg (by linarith), if_pos (by linarith)]
  · have : net = 0 := abs_eq_zero.mp (le_antisymm h (abs_nonneg _))
    rw [this]; rfl

theorem stateOf_rounded (net : ℚ) : StateFor (1 / 20) net (stateOf (pyRound net 1)) := by
  unfold stateOf
  have hb := pyRound_bounds net 1
  norm_num at hb
  refine ⟨fun h => if_pos (by linarith), fun h => ?_, fun h => ?_⟩
  · rw [if_neg (by linarith), if_pos (by linarith)]
  · rw [abs_le] at h
    have h1 := pyRound_mono h.1 1
    have h2 := pyRound_mono h.2 1
    have e1 : pyRound (-(1 / 20)) 1 = 0 := by decide +kernel
    have e2 : pyRound (1 / 20) 1 = 0 := by decide +kernel
    rw [e1] at h1
    rw [e2] at h2
    rw [if_neg (by linarith), if_neg (by linarith)]

/-- Without a minimum output the rule that enforces it does nothing. -/
theorem step_no_minimum {P : Plant N} {i : StepIn N} {b : Bool} {order : List ℤ}
    (hmin : P.hp.minimumOutput = 0) {r : Results N} (h : step P i b order = .ok r) :
    ∃ c, dispatch P i b order = .ok (c, r) := by
  obtain ⟨c, r1, hd, hm⟩ := step_ok h
  rw [show minOutputRule P i b c r1 = .ok r1 from ?_] at hm
  · cases hm; exact ⟨c, hd⟩
  · unfold minOutputRule
    dsimp only
    rw [if_neg]
    rintro ⟨h1, h2⟩
    have : minOut P i = 0 := by unfold minOut; rw [hmin]; ring
    have : minTrigger b ≥ 0 := by unfold minTrigger; split_ifs <;> norm_num
    linarith

/-- Unless the minimum output rule interferes, the tank receives exactly the heat the books say: the
heat produced less the heat delivered is the heat stored less the heat drawn, and the tank charges,
discharges or idles accordingly. Below the setpoint amounts up to 0.05 kWh count as idle. -/
theorem C73_tank_follows_books_partial {P : Plant N} {i : StepIn N} (H : StepOk P i) {b : Bool}
    {order : List ℤ} (hnd : order.Nodup) (hc : P.tank.capacity ≠ 0) (hmin : P.hp.minimumOutput = 0)
    {r : Results N} (h : step P i b order = .ok r) :
    ∃ nodes s produced, r.ts.finalNodesTemp = some nodes ∧
      P.tank.newNodes i.hour s i.nodes produced i.heatDemand = .ok nodes ∧
      produced = r.hp.heatTotalOutput + r.aux.demand ∧
      produced - heatDelivered b r = r.ts.chargingTotal - r.ts.dischargingTotal ∧
      StateFor (if b then 1 / 20 else 0) (r.ts.chargingTotal - r.ts.dischargingTotal) s := by
  obtain ⟨c, hd⟩ := step_no_minimum hmin h
  simp only [dispatch, except_bind_ok, except_pure_ok] at hd
  obtain ⟨⟨c', r0'⟩, h0, nodes, hn, hr⟩ := hd
  obtain ⟨rfl, rfl⟩ := Prod.mk.inj hr
  obtain ⟨ps, hf, hl, -, -⟩ := loop_ok_hp H hnd h0
  unfold tankUpdate at hn
  rw [if_neg hc] at hn
  have hb := hl.bal
  have hcp := hl.copies
  refine ⟨nodes, _, _, rfl, hn, rfl, ?_, ?_⟩
  · simp only [totals2, totals1, heatDelivered]
    have := hcp.c3
    have := hcp.c5
    have := hcp.c8
    have := hcp.c7
    have := hcp.c11
    have := hcp.c12
    have := hcp.c14
    split_ifs <;> linarith
  · have hnet : c'.tsCharge - c'.tsDischarge =
        (totals2 P i b nodes (totals1 P b r0')).ts.chargingTotal -
        (totals2 P i b nodes (totals1 P b r0')).ts.dischargingTotal := by
      have := hb.ch
      have := hb.dis
      simp only [totals2, totals1]
      linarith
    rw [← hnet]
    unfold tsMatchOf
    cases b
    · exact stateOf_exact _
    · exact stateOf_rounded _

/-- So with the boiler among the processes, what the tank is charged with is exactly what the books
show. -/
theorem C73_all_met {P : Plant N} {i : StepIn N} (H : StepOk P i) {b : Bool}
    {order : List ℤ} (hnd : order.Nodup) (hc : P.tank.capacity ≠ 0) (hmin : P.hp.minimumOutput = 0)
    (hs : SafeOrder b order) (h9 : 9 ∈ order) {r : Results N} (h : step P i b order = .ok r) :
    ∃ nodes s produced, r.ts.finalNodesTemp = some nodes ∧
      P.tank.newNodes i.hour s i.nodes produced i.heatDemand = .ok nodes ∧
      produced - i.heatDemand = r.ts.chargingTotal - r.ts.dischargingTotal := by
  obtain ⟨nodes, s, pr, h1, h2, -, h4, -⟩ := C73_tank_follows_books_partial H hnd hc hmin h
  obtain ⟨c, hd⟩ := step_no_minimum hmin h
  rw [C20_demand_met_partial H hnd hs (by cases b <;> exact h9) hd] at h4
  exact ⟨nodes, s, pr, h1, h2, h4⟩

/-- A tank whose "temperatures" are the last thing it was asked to do: for witnesses. -/
def Spec.recorder : TankI (List (TankState × ℚ × ℚ)) :=
  { capacity := 1000, initTemps := [],
    maxInOut := fun _ s _ => .ok (match s with | .charging => 20 | _ => 15),
    newNodes := fun _ s _ th de => .ok [(s, th, de)] }

/-- The sample plant with that tank. -/
def Spec.recorded (minimumOutput : ℚ) : Plant (List (TankState × ℚ × ℚ)) :=
  { hp := { samplePlant.hp with minimumOutput := minimumOutput }, es := sampleBattery,
    aux := samplePlant.aux, tank := recorder, exportPrice := 40, peakHeatDemand := 50 }

/-- The sample hour for that tank. -/
def Spec.recordedStep (heat : ℚ) : StepIn (List (TankState × ℚ × ℚ)) :=
  { hour := 7, surplus := 5, deficit := 0, heatDemand := heat, importPrice := 100, nodes := [],
    soc := 5, perf := { cop := 3, duty := 12 } }

/-- The last thing the tank was asked to do, the heat booked into it and the heat booked out of it. -/
def Spec.asked (r : Results (List (TankState × ℚ × ℚ))) :
    Option (List (TankState × ℚ × ℚ)) × ℚ × ℚ :=
  (r.ts.finalNodesTemp, r.ts.hpToTs + r.ts.auxToTs, r.ts.dischargingTotal)

/-- Two hours of the recording tank: it charges 9 kWh, and it discharges 15 kWh. -/
example : (∃ r, step (recorded 0) (recordedStep 3) false [4, 10, 6, 9] = .ok r ∧
      asked r = (some [(.charging, 12, 3)], 9, 0)) ∧
    ∃ r, step (recorded 0) (recordedStep 30) false [4, 10, 6, 9] = .ok r ∧
      asked r = (some [(.discharging, 15, 30)], 0, 15) :=
  ⟨exists_of_checks (by decide +kernel), exists_of_checks (by decide +kernel)⟩

theorem Spec.recorded_ok (m heat : ℚ) (h : 0 ≤ heat) (h' : heat ≤ 50) :
    StepOk (recorded m) (recordedStep heat) := by
  constructor <;> try (norm_num [recorded, recordedStep, samplePlant, sampleBattery])
  · exact sampleBattery_ok
  · exact h
  · exact h'
  · intro s x hx
    simp only [recorder] at hx
    cases hx
    cases s <;> norm_num

example : ∃ r nodes s, step (recorded 0) (recordedStep 30) false [4, 10, 6, 9] = .ok r ∧
    r.ts.finalNodesTemp = some nodes ∧ StateFor 0 (r.ts.chargingTotal - r.ts.dischargingTotal) s ∧
    recorder.newNodes 7 s [] (r.hp.heatTotalOutput + r.aux.demand) 30 = .ok nodes := by
  obtain ⟨r, h, -⟩ : ∃ r, step (recorded 0) (recordedStep 30) false [4, 10, 6, 9] = .ok r ∧
      asked r = (some [(.discharging, 15, 30)], 0, 15) := exists_of_checks (by decide +kernel)
  obtain ⟨nodes, s, produced, h1, h2, rfl, -, h3⟩ := C73_tank_follows_books_partial
    (recorded_ok 0 30 (by norm_num) (by norm_num)) (by decide) (by norm_num [recorded, recorder]) rfl h
  exact ⟨r, nodes, s, h, h1, h3, h2⟩

/-- Below the setpoint the books show 0.04 kWh drawn, but the tank is left idle. -/
theorem C73_small_draw_ignored : ∃ r, step (recorded 0) (recordedStep (1 / 25)) true [7] = .ok r ∧
    asked r = (some [(.standby, 0, 1 / 25)], 0, 1 / 25) :=
  exists_of_checks (by decide +kernel)

/-- When the heat pump is raised to its minimum output, the heat the electric heater stored is
forgotten: 8 kWh are booked into the tank, which is charged with 6 - 3 = 3 kWh. -/
theorem C73_raise_forgets_heater :
    ∃ r, step (recorded 50) (recordedStep 3) false [11, 8, 9] = .ok r ∧
      asked r = (some [(.charging, 6, 3)], 8, 0) :=
  exists_of_checks (by decide +kernel)

/-- When the heat pump is switched off above the setpoint, the tank is asked for the whole demand,
25 kWh, while the books show nothing drawn from it and 25 kWh from the boiler. -/
theorem C73_off_draws_unbooked_heat :
    ∃ r, step { recorded 100 with tank := { recorder with maxInOut := fun _ _ _ => .ok 2 } }
        { recordedStep 25 with surplus := 3 } false [4, 9] = .ok r ∧
      asked r = (some [(.discharging, 0, 25)], 0, 0) ∧ r.aux.demand = 25 :=
  exists_of_checks (by decide +kernel)

/-- When it is switched off below the setpoint (the processes gave it some output, the report shows
none), the tank is asked for exactly what is booked. -/
theorem C73_off_below {P : Plant N} {i : StepIn N} (hc : P.tank.capacity ≠ 0) {order : List ℤ}
    {c : Checks} {r1 r : Results N} (hd : dispatch P i true order = .ok (c, r1))
    (hon : 0 < r1.hp.heatTotalOutput) (h : step P i true order = .ok r)
    (hoff : r.hp.heatTotalOutput = 0) : ∃ nodes, r.ts.finalNodesTemp = some nodes ∧
      P.tank.newNodes i.hour .discharging i.nodes 0 r.ts.dischargingTotal = .ok nodes ∧
      r.ts.chargingTotal = 0 := by
  obtain ⟨c', r1', hd', hm⟩ := step_ok h
  rw [hd] at hd'
  cases hd'
  unfold minOutputRule at hm
  dsimp only at hm
  by_cases h1 : r1.hp.heatTotalOutput < minOut P i ∧ r1.hp.heatTotalOutput > minTrigger true
  · rw [if_pos h1] at hm
    simp only [except_bind_ok, if_true] at hm
    obtain ⟨m, -, hm⟩ := hm
    split_ifs at hm with h2
    · simp only [hpOffBelow, except_bind_ok] at hm
      obtain ⟨m, -, hm⟩ := hm
      rw [if_neg hc] at hm
      simp only [except_bind_ok, except_pure_ok] at hm
      obtain ⟨n, hn, hm⟩ := hm
      subst hm
      exact ⟨n, rfl, hn, rfl⟩
    · simp only [hpRaise] at hm
      rw [if_neg hc] at hm
      simp only [except_bind_ok, except_pure_ok] at hm
      obtain ⟨n, -, hm⟩ := hm
      subst hm
      dsimp only at hoff
      linarith [h1.1]
  · rw [if_neg h1] at hm
    cases hm
    linarith

example : ∃ s, dispatch { recorded 100 with tank := { recorder with maxInOut := fun _ _ _ => .ok 2 } }
      { recordedStep 25 with surplus := 3 } true [4, 9] = .ok s ∧ s.2.hp.heatTotalOutput = 9 :=
  exists_of_checks (by decide +kernel)

example : ∃ r, step { recorded 100 with tank := { recorder with maxInOut := fun _ _ _ => .ok 2 } }
      { recordedStep 25 with surplus := 3 } true [4, 9] = .ok r ∧ r.hp.heatTotalOutput = 0 ∧
    asked r = (some [(.discharging, 0, 2)], 0, 2) :=
  exists_of_checks (by decide +kernel)

end Verif
