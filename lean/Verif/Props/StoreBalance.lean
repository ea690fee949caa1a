import Verif.Lemmas.StoreBalance
import Verif.Props.StoreServes
import Verif.Props.TankDispatch

/-!
# A store gives back no more than it got (C129)
-/

set_option autoImplicit false

namespace Verif
open Spec FixedOrder Tank

/-- **An hour of the store.** The heat in the layers after the hour and the heat booked out of the store are together
no more than the heat in the layers before and the heat booked into it; below the setpoint, where draws of up to 0.05
kWh are not passed on to the store, up to these 0.05 kWh. -/
theorem C129_hour {P : Plant (List ℚ)} {i : StepIn (List ℚ)} (H : StepOk P i) {b : Bool} {order : List ℤ}
    (hnd : order.Nodup) (hs : SafeOrder b order) (h9 : 9 ∈ order) (hmin : P.hp.minimumOutput = 0)
    {tk : Tank} {net : ℕ → NetTemps} {air ret cp : ℚ} (htank : P.tank = toTankI tk net ret) (hh : i.hour < 8760)
    (HS : SteadyStore tk (net i.hour) air) (hcp : specificHeat (net i.hour).source = .ok cp)
    (hb : Between tk air (net i.hour).source i.nodes) (hhold : LayersHold tk (net i.hour) i.heatDemand)
    {r : Results (List ℚ)} (h : step P i b order = .ok r) :
    ∃ nodes, r.ts.finalNodesTemp = some nodes ∧ Between tk air (net i.hour).source nodes ∧
      heatAbove tk cp air nodes + r.ts.dischargingTotal ≤
        heatAbove tk cp air i.nodes + r.ts.chargingTotal + (if b then 1 / 20 else 0) := by
  have hc : P.tank.capacity ≠ 0 := by rw [htank]; exact ne_of_gt HS.usable.1
  obtain ⟨nodes, s, th, h1, h2, h3, h4, h5⟩ := C73_tank_follows_books_partial H hnd hc hmin h
  obtain ⟨c, hd⟩ := step_no_minimum hmin h
  rw [C20_demand_met_partial H hnd hs (by cases b <;> exact h9) hd] at h4
  have hnn := C21_flows_nonneg H hnd hs h
  have hth : 0 ≤ th := by
    have := hnn.hpHeat.1
    have := hnn.aux.1
    linarith
  have htol : (0 : ℚ) ≤ if b then 1 / 20 else 0 := by split_ifs <;> norm_num
  generalize (if b then (1 / 20 : ℚ) else 0) = tol at h5 htol ⊢
  have hcharge : s = .charging → i.heatDemand ≤ th := by
    intro hst
    by_contra hlt
    by_cases h6 : r.ts.chargingTotal - r.ts.dischargingTotal < -tol
    · cases (h5.draw h6).symm.trans hst
    · cases (h5.idle (abs_le.mpr ⟨by linarith, by linarith⟩)).symm.trans hst
  have hstand : s = .standby → -tol ≤ th - i.heatDemand := by
    intro hst
    by_contra hlt
    cases (h5.draw (by linarith)).symm.trans hst
  have hdraw : s = .discharging → 0 ≤ th ∧ th ≤ i.heatDemand ∧
      ∃ m, maxEnergy tk i.hour .discharging (net i.hour) i.nodes = .ok m ∧ 0 < m := by
    intro hst
    have hneg : r.ts.chargingTotal - r.ts.dischargingTotal < 0 := by
      by_contra hge
      by_cases h6 : tol < r.ts.chargingTotal - r.ts.dischargingTotal
      · cases (h5.charge h6).symm.trans hst
      · cases (h5.idle (abs_le.mpr ⟨by linarith, by linarith⟩)).symm.trans hst
    obtain ⟨mi, hmi⟩ := between_offer HS hh .charging hb
    obtain ⟨mo, hmo⟩ := between_offer HS hh .discharging hb
    have := (C62_store_within_offer_partial H hnd hs.2 hd (mIn := mi) (mOut := mo)
      (by rw [htank]; exact hmi) (by rw [htank]; exact hmo)).2
    exact ⟨hth, by linarith, mo, hmo, by linarith⟩
  obtain ⟨out, p, q1, q2, q3⟩ := serves HS hh hb hcharge hdraw hhold
  have hpn : p = nodes := by
    rw [htank] at h2
    dsimp only [toTankI] at h2
    rw [q1] at h2
    exact Except.ok.inj (q2.symm.trans h2)
  rw [hpn] at q2 q3
  refine ⟨nodes, h1, q3, ?_⟩
  obtain ⟨cp', c1, -, c3⟩ := steady_cp HS
  cases Except.ok.inj (hcp.symm.trans c1)
  have hcpos : 0 < cp := by linarith
  have key : tk.nodeMass * (nodes.sum - i.nodes.sum) ≤ (th - i.heatDemand + tol) * 3600 / (cp / 1000) := by
    have hup : (th - i.heatDemand) * 3600 / (cp / 1000) ≤ (th - i.heatDemand + tol) * 3600 / (cp / 1000) :=
      div_le_div_of_nonneg_right (by linarith) (by linarith)
    cases s with
    | charging => exact le_trans (charge_call HS hh hb hcp (hcharge rfl) q1 q2) hup
    | standby =>
      refine le_trans (stand_call HS hh hb q1 q2) (div_nonneg ?_ (by linarith))
      linarith [hstand rfl]
    | discharging =>
      obtain ⟨-, d2, m, hm, hpos⟩ := hdraw rfl
      refine le_trans (draw_call HS hh hb hcp (offer_top HS hh hb hm hpos) d2 ?_ q1 q2) hup
      unfold LayersHold at hhold
      linarith
  have hdiff := heatAbove_diff (tk := tk) (air := air) (cp := cp) (hb.1.trans q3.1.symm)
  have : tk.nodeMass * (nodes.sum - i.nodes.sum) * cp / 3600000 ≤ th - i.heatDemand + tol := by
    have := mul_le_mul_of_nonneg_right key hcpos.le
    rw [div_le_iff₀ (by norm_num)]
    have e : (th - i.heatDemand + tol) * 3600 / (cp / 1000) * cp = (th - i.heatDemand + tol) * 3600000 := by
      field_simp
      ring
    linarith
  linarith

theorem cheapHours_succ {prices : List ℚ} {setpoint price : ℚ} {first k : ℕ} (h : prices[first + k]? = some price) :
    (cheapHours prices setpoint first (k + 1) : ℚ) / 20 = cheapHours prices setpoint first k / 20 +
      (if decide (price ≤ setpoint) then 1 / 20 else 0) := by
  unfold cheapHours
  rw [List.take_add_one, List.getElem?_drop, h, List.countP_append]
  by_cases hp : price ≤ setpoint
  · simp [hp]; ring
  · simp [hp]

/-- **A store gives back no more than it got.** For the stores and runs of C126, after any number of hours the heat in
the layers and all the heat booked out of the store are together at most the heat it started with, all the heat
booked into it, and 0.05 kWh for each hour below the setpoint. -/
theorem C129_store_balance {S : RunIn (List ℚ)} (H : RunOk S) (hord : OrdersOk S)
    (h9 : 9 ∈ S.orderAbove ∧ 9 ∈ S.orderBelow) (hmin : S.hp.minimumOutput = 0)
    {tk : Tank} {net : ℕ → NetTemps} {air source ret cp : ℚ} (htank : S.tank = toTankI tk net ret)
    (hst : ∀ hour < 8760, SteadyStore tk (net hour) air ∧ (net hour).source = source ∧ (net hour).ret = ret)
    (hcp : specificHeat source = .ok cp)
    (hhold : ∀ hour de, S.heatDemand[hour]? = some de → LayersHold tk (net hour) de)
    {first n : ℕ} {rs : List (Results (List ℚ))} (h : runTimesteps S first n = .ok rs) :
    ∀ k ≤ n, Between tk air source (nodesBefore S rs k) ∧
      heatAbove tk cp air (nodesBefore S rs k) + ((rs.take k).map (·.ts.dischargingTotal)).sum ≤
        heatAbove tk cp air S.tank.initTemps + ((rs.take k).map (·.ts.chargingTotal)).sum +
          (cheapHours S.importPrice S.setpoint first k : ℚ) / 20 := by
  have hend : first + n ≤ 8760 := (runTimesteps_ok.mp h).choose_spec.2.1
  obtain ⟨rows, hours⟩ := run_hours H h
  intro k
  induction k with
  | zero =>
    intro _
    refine ⟨?_, by simp [nodesBefore, cheapHours]⟩
    show Between tk air source S.tank.initTemps
    rw [htank]
    obtain ⟨HS, hsrc, hret⟩ := hst 0 (by norm_num)
    refine ⟨List.length_replicate, List.pairwise_replicate_of_refl, fun t ht => ?_⟩
    rw [List.eq_of_mem_replicate ht, ← hsrc, ← hret]
    exact ⟨HS.ret, HS.source.1⟩
  | succ k ih =>
    intro hk
    obtain ⟨hb, hle⟩ := ih (by omega)
    obtain ⟨r, heat, price, row, perf, gen, wnd, pv, elec, r0, hr, ho, -, hstep⟩ := hours k (by omega)
    have ht : first + k < 8760 := by omega
    obtain ⟨HS, hsrc, -⟩ := hst (first + k) ht
    obtain ⟨o1, o2⟩ := hour_order hord price
    obtain ⟨nodes, f1, f2, f3⟩ := C129_hour hstep o1 o2
      (by by_cases hp : price > S.setpoint
          · rw [if_pos hp]; exact h9.1
          · rw [if_neg hp]; exact h9.2)
      hmin htank ht HS (by rw [← hcp, ← hsrc]) (by rw [← hsrc] at hb; exact hb) (hhold _ _ ho.heatEq) ho.stepEq
    have e1 : nodesBefore S rs (k + 1) = nodes := by
      have : r.ts.finalNodesTemp = some nodes := by rw [ho.resultEq]; exact f1
      show ((rs[k]?).bind (·.ts.finalNodesTemp)).getD S.tank.initTemps = nodes
      rw [hr, Option.bind_some, this]
      rfl
    have e2 : r.ts.dischargingTotal = r0.ts.dischargingTotal := by rw [ho.resultEq]; rfl
    have e3 : r.ts.chargingTotal = r0.ts.chargingTotal := by rw [ho.resultEq]; rfl
    rw [e1]
    refine ⟨by rw [← hsrc]; exact f2, ?_⟩
    rw [cheapHours_succ ho.priceEq, List.take_add_one, hr]
    simp only [Option.toList_some, List.map_append, List.map_cons, List.map_nil, List.sum_append, List.sum_cons,
      List.sum_nil, add_zero]
    have f4 : heatAbove tk cp air nodes + r0.ts.dischargingTotal ≤ heatAbove tk cp air (nodesBefore S rs k) +
      r0.ts.chargingTotal + (if decide (price ≤ S.setpoint) then 1 / 20 else 0) := f3
    linarith

/-- So the heat drawn from the store in any number of hours is less than the heat booked into it, the heat of a store
at the return temperature above the air, and 0.05 kWh for each hour below the setpoint. -/
theorem C129_gives_back {S : RunIn (List ℚ)} (H : RunOk S) (hord : OrdersOk S)
    (h9 : 9 ∈ S.orderAbove ∧ 9 ∈ S.orderBelow) (hmin : S.hp.minimumOutput = 0)
    {tk : Tank} {net : ℕ → NetTemps} {air source ret cp : ℚ} (htank : S.tank = toTankI tk net ret)
    (hst : ∀ hour < 8760, SteadyStore tk (net hour) air ∧ (net hour).source = source ∧ (net hour).ret = ret)
    (hcp : specificHeat source = .ok cp)
    (hhold : ∀ hour de, S.heatDemand[hour]? = some de → LayersHold tk (net hour) de)
    {first n : ℕ} {rs : List (Results (List ℚ))} (h : runTimesteps S first n = .ok rs) {k : ℕ} (hk : k ≤ n) :
    ((rs.take k).map (·.ts.dischargingTotal)).sum < ((rs.take k).map (·.ts.chargingTotal)).sum +
      tk.capacity * cp * (ret - air) / 3600000 + (cheapHours S.importPrice S.setpoint first k : ℚ) / 20 := by
  obtain ⟨hb, hle⟩ := C129_store_balance H hord h9 hmin htank hst hcp hhold h k hk
  obtain ⟨HS, hsrc, -⟩ := hst 0 (by norm_num)
  have hM := nodeMass_pos HS.usable
  have h2 := HS.usable.2
  have hcpos : 0 < cp := by
    obtain ⟨cp', c1, -, c3⟩ := steady_cp HS
    rw [hsrc] at c1
    cases Except.ok.inj (hcp.symm.trans c1)
    linarith
  have hpos : 0 < heatAbove tk cp air (nodesBefore S rs k) := by
    unfold heatAbove
    refine div_pos (mul_pos (mul_pos hM hcpos) (List.sum_pos _ (fun x hx => ?_) ?_)) (by norm_num)
    · obtain ⟨t, ht, rfl⟩ := List.mem_map.mp hx
      linarith [(hb.2.2 t ht).1]
    · intro hn
      have := hb.1
      rw [List.map_eq_nil_iff.mp hn] at this
      simp at this
      omega
  have hinit : heatAbove tk cp air S.tank.initTemps = tk.capacity * cp * (ret - air) / 3600000 := by
    rw [htank]
    unfold heatAbove
    have : (toTankI tk net ret).initTemps = List.replicate tk.number ret := rfl
    rw [this, List.map_replicate, List.sum_replicate, nsmul_eq_mul]
    unfold nodeMass
    have : (tk.number : ℚ) ≠ 0 := by
      have : 0 < tk.number := by omega
      positivity
    field_simp
  rw [hinit] at hle
  linarith

/-- The year of C126, always above the setpoint: its store, 30 cubic metres at 40 degrees in air of 15, starts with
less than 872 kWh above the air, and never gives back more than these and what it got. -/
example : ∃ rs, runTimesteps servedRun 0 8760 = .ok rs ∧ ∀ k ≤ 8760,
    ((rs.take k).map (·.ts.dischargingTotal)).sum < ((rs.take k).map (·.ts.chargingTotal)).sum + 872 := by
  obtain ⟨rs, h, -⟩ := servedRun_ends
  refine ⟨rs, h, fun k hk => ?_⟩
  have hc : cheapHours servedRun.importPrice servedRun.setpoint 0 k = 0 := by
    unfold cheapHours
    refine List.countP_eq_zero.mpr fun x hx => ?_
    rw [List.eq_of_mem_replicate (List.mem_of_mem_drop (List.mem_of_mem_take hx))]
    norm_num [servedRun]
  have := C129_gives_back servedRun_ok
    ⟨sampleRun_orders.1, sampleRun_orders.2, sampleRun_orders.3, sampleRun_orders.4⟩
    ⟨by decide, by decide⟩ rfl (tk := bigStore) (net := fun _ => labNet) (air := 15) (source := 60) (ret := 40)
    (cp := 4185) rfl
    (fun _ _ => ⟨bigStore_steady, rfl, rfl⟩) (by decide +kernel)
    (fun hour de h => by
      rw [List.eq_of_mem_replicate (List.mem_of_getElem? h)]
      norm_num [LayersHold, labNet, bigStore, wallTank, labTank, nodeMass]) h hk
  rw [hc] at this
  have e : bigStore.capacity = 30000 := rfl
  have e2 : (30000 : ℚ) * 4185 * (40 - 15) / 3600000 < 872 := by norm_num
  rw [e, Nat.cast_zero] at this
  linarith

/-- The 0.05 kWh are needed: below the setpoint 0.04 kWh are booked out of this store, which loses less. -/
theorem C129_small_draws_free : ∃ r, step
    { hp := servedRun.hp, es := servedRun.es, aux := servedRun.aux, tank := servedRun.tank,
      exportPrice := servedRun.exportPrice, peakHeatDemand := 5 }
    (hourIn 0 (1 / 25) 50 ⟨7, 0, 7, 8⟩ ⟨3, 12⟩ [59, 58, 57] 0) true [7, 9] = .ok r ∧
    r.ts.chargingTotal = 0 ∧ r.ts.dischargingTotal = 1 / 25 ∧
    heatAbove bigStore 4185 15 [59, 58, 57] <
      heatAbove bigStore 4185 15 (r.ts.finalNodesTemp.getD []) + r.ts.dischargingTotal :=
  exists_of_checks (by decide +kernel)

/-- An hour with a draw: 5 kWh leave the books and the store. -/
example : ∃ r, step
    { hp := servedRun.hp, es := servedRun.es, aux := servedRun.aux, tank := servedRun.tank,
      exportPrice := servedRun.exportPrice, peakHeatDemand := 5 }
    (hourIn 0 5 100 ⟨0, 0, 0, 8⟩ ⟨3, 12⟩ [59, 58, 57] 0) false [6, 9] = .ok r ∧
    r.ts.chargingTotal = 0 ∧ r.ts.dischargingTotal = 5 ∧
    heatAbove bigStore 4185 15 (r.ts.finalNodesTemp.getD []) + r.ts.dischargingTotal ≤
      heatAbove bigStore 4185 15 [59, 58, 57] :=
  exists_of_checks (by decide +kernel)

end Verif
