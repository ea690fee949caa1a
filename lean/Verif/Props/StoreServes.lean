import Verif.Lemmas.TankServes
import Verif.Props.TankIdle

/-!
# Stores that serve a run to its end (C126)
-/

set_option autoImplicit false

namespace Verif
open Spec FixedOrder Tank
variable {N : Type}

/-- An hour with a store that accepts whatever the books can ask of it: it may be charged with what is made beyond the
demand, and drawn for less than the demand if it offers anything. -/
theorem serve_step {P : Plant N} {i : StepIn N} (H : StepOk P i) {b : Bool} {order : List ℤ} (hnd : order.Nodup)
    (hs : SafeOrder b order) (h9 : 9 ∈ order) (hok : ∀ n ∈ order, 1 ≤ n ∧ n ≤ (if b then 15 else 13))
    (hmin : P.hp.minimumOutput = 0) (hc : P.tank.capacity ≠ 0) (I : N → Prop)
    (htank : ∀ s, ∃ m, P.tank.maxInOut i.hour s i.nodes = .ok m)
    (hnew : ∀ s th, (s = .charging → i.heatDemand ≤ th) →
      (s = .discharging → 0 ≤ th ∧ th ≤ i.heatDemand ∧
        ∃ m, P.tank.maxInOut i.hour .discharging i.nodes = .ok m ∧ 0 < m) →
      ∃ n, P.tank.newNodes i.hour s i.nodes th i.heatDemand = .ok n ∧ I n) :
    ∃ r nodes, step P i b order = .ok r ∧ r.ts.finalNodesTemp = some nodes ∧ I nodes := by
  have hkey : ∀ m ∈ order, ∃ p, keyOf b m = .ok p := by
    intro m hm
    have h := hok m hm
    cases b
    · simp only [Bool.false_eq_true, if_false] at h
      obtain ⟨h1, h2⟩ := h
      interval_cases m <;> exact ⟨_, rfl⟩
    · simp only [if_true] at h
      obtain ⟨h1, h2⟩ := h
      interval_cases m <;> exact ⟨_, rfl⟩
  have hamt : ∀ c p, ∃ a, amount P i c p = .ok a := by
    intro c p
    obtain ⟨m1, h1⟩ := htank .charging
    obtain ⟨m2, h2⟩ := htank .discharging
    cases p <;> simp only [amount, h1, h2] <;> try exact ⟨_, rfl⟩
    split_ifs <;> exact ⟨_, rfl⟩
  have hrun : ∀ (l : List ℤ) s, (∀ m ∈ l, ∃ p, keyOf b m = .ok p) →
      ∃ s', runOrder P i (keyOf b) l s = .ok s' := by
    intro l
    induction l with
    | nil => intro s _; exact ⟨s, rfl⟩
    | cons m l ih =>
      intro s hk
      obtain ⟨p, hp⟩ := hk m (List.mem_cons_self ..)
      obtain ⟨a, ha⟩ := hamt s.1 p
      simp only [runOrder, hp, runProcess, ha, bind, Except.bind, pure, Except.pure]
      exact ih _ (fun m' hm' => hk m' (List.mem_cons_of_mem _ hm'))
  obtain ⟨⟨c, r0⟩, hrunok⟩ := hrun order (initChecks P i, initResults P i b) hkey
  obtain ⟨ps, hf, hl, -, -⟩ := loop_ok_hp H hnd hrunok
  have s1 := safe1_done hf hs.1
  have s2 := safe2_done hf hs.2
  have hk9 : keyOf b 9 = .ok .auxToDemand := by cases b <;> rfl
  have hmet : c.heatUnmet = 0 := hl.auxD s2 s1 ((mem_done hf hk9).mpr h9)
  have hnn := hl.nonneg s2 s1
  have hcap := hl.caps s2
  have hth : (totals1 P b r0).hp.heatTotalOutput + (totals1 P b r0).aux.demand - i.heatDemand
      = c.tsCharge - c.tsDischarge := by
    have := hl.bal.heat
    have := hl.bal.ch
    have := hl.bal.dis
    have := hl.copies.c3
    have := hl.copies.c5
    have := hl.copies.c8
    have := hl.copies.c7
    have := hl.copies.c11
    have := hl.copies.c12
    have := hl.copies.c14
    simp only [totals1]
    linarith
  have hth0 : 0 ≤ (totals1 P b r0).hp.heatTotalOutput + (totals1 P b r0).aux.demand := by
    obtain ⟨n1, n2, n3, n4, n5, n6, n7, n8, n9, n10, n11, n12, n13, n14, n15, n16, n17, n18, n19⟩ := hnn
    simp only [totals1]
    linarith
  have hstate : StateFor (if b then 1 / 20 else 0) (c.tsCharge - c.tsDischarge) (stateOf (tsMatchOf b c)) := by
    unfold tsMatchOf
    cases b
    · exact stateOf_exact _
    · exact stateOf_rounded _
  have htol : (0 : ℚ) ≤ if b then 1 / 20 else 0 := by split_ifs <;> norm_num
  obtain ⟨nodes, hn, hI⟩ : ∃ nodes, tankUpdate P i b c (totals1 P b r0) = .ok nodes ∧ I nodes := by
    unfold tankUpdate
    rw [if_neg hc]
    refine hnew _ _ (fun hst => ?_) (fun hst => ?_)
    · by_contra hlt
      by_cases h1 : c.tsCharge - c.tsDischarge < -(if b then 1 / 20 else 0)
      · cases (hstate.draw h1).symm.trans hst
      · cases (hstate.idle (abs_le.mpr ⟨by linarith, by linarith⟩)).symm.trans hst
    · have hneg : c.tsCharge - c.tsDischarge < 0 := by
        by_contra hge
        by_cases h1 : (if b then 1 / 20 else 0) < c.tsCharge - c.tsDischarge
        · cases (hstate.charge h1).symm.trans hst
        · cases (hstate.idle (abs_le.mpr ⟨by linarith, by linarith⟩)).symm.trans hst
      obtain ⟨m, hm⟩ := htank .discharging
      have := hcap.avail m hm
      exact ⟨hth0, by linarith, m, hm, by linarith⟩
  refine ⟨totals2 P i b nodes (totals1 P b r0), nodes, ?_, rfl, hI⟩
  have hd : dispatch P i b order = .ok (c, totals2 P i b nodes (totals1 P b r0)) := by
    have := hrunok
    unfold keyOf at this
    unfold dispatch
    simp only [this, hn, bind, Except.bind, pure, Except.pure]
  unfold step
  simp only [hd, bind, Except.bind]
  unfold minOutputRule
  dsimp only
  rw [if_neg]
  rintro ⟨h1, h2⟩
  have : minOut P i = 0 := by unfold minOut; rw [hmin]; ring
  have : minTrigger b ≥ 0 := by unfold minTrigger; split_ifs <;> norm_num
  linarith

/-- The store accepts what the books ask of it. -/
theorem serves {tk : Tank} {net : NetTemps} {air : ℚ} (H : SteadyStore tk net air) {hour : ℕ} (hh : hour < 8760)
    {nodes : List ℚ} (h : Between tk air net.source nodes) {s : TankState} {th de : ℚ}
    (hcharge : s = .charging → de ≤ th)
    (hdraw : s = .discharging → 0 ≤ th ∧ th ≤ de ∧
      ∃ m, maxEnergy tk hour .discharging net nodes = .ok m ∧ 0 < m)
    (hhold : LayersHold tk net de) :
    ∃ out p, newNodesTemp tk hour s net nodes th de = .ok out ∧ lastProfile out = .ok p ∧
      Between tk air net.source p := by
  cases s with
  | charging => exact between_charge H hh h (hcharge rfl)
  | standby => exact between_stand H hh h th de
  | discharging =>
    obtain ⟨h0, h1, m, hm, hpos⟩ := hdraw rfl
    refine between_draw H hh h ?_ h1 ?_
    · by_contra hcool
      have hM := nodeMass_pos H.usable
      have := C33_cool_top_wall_partial H.usable H.sealed H.wall.le
        (fun k hk => by
          obtain ⟨k', hk', hin⟩ := H.insulation
          cases Except.ok.inj (hk.symm.trans hk')
          have := mul_nonneg H.wall.le (kValue_pos hk).le
          linarith)
        (hour := hour) (net := net)
        (fun a ha => by
          cases Except.ok.inj (ha.symm.trans (H.surroundings hour hh))
          linarith [H.ret, H.flow.1]) h.2.1 h.1 (not_le.mp hcool) hm
      linarith
    · unfold LayersHold at hhold
      linarith

/-- **A run with a store that is used gets to its end.** The store has two or three layers, no openings, walls that
lose little, and half a layer holds the heat of any hour's demand; the temperature of the source is always the same.
The heat pump has no minimum output and the boiler is in both orders. Then any span inside the year runs to its
end, and after every hour the layers are ordered, warmer than the air and colder than the source. -/
theorem C126_run_ends {S : RunIn (List ℚ)} (H : RunOk S) (hord : OrdersOk S)
    (hknown : (∀ n ∈ S.orderAbove, 1 ≤ n ∧ n ≤ 13) ∧ (∀ n ∈ S.orderBelow, 1 ≤ n ∧ n ≤ 15))
    (h9 : 9 ∈ S.orderAbove ∧ 9 ∈ S.orderBelow) (hy : FullYear S) (hmin : S.hp.minimumOutput = 0)
    {tk : Tank} {net : ℕ → NetTemps} {air source ret : ℚ} (htank : S.tank = toTankI tk net ret)
    (hst : ∀ hour < 8760, SteadyStore tk (net hour) air ∧ (net hour).source = source ∧ (net hour).ret = ret)
    (hhold : ∀ hour de, S.heatDemand[hour]? = some de → LayersHold tk (net hour) de)
    {first n : ℕ} (hspan : first + n ≤ 8760) :
    ∃ rs, runTimesteps S first n = .ok rs ∧ rs.length = n ∧
      ∀ r ∈ rs, ∃ nodes, r.ts.finalNodesTemp = some nodes ∧ Between tk air source nodes := by
  obtain ⟨rows, h1, hl⟩ := rows_accepts hy
  have hw : (wind S).length = 8760 := by simp [wind, hy.windUser, hy.windData]
  have hg : (generation S).length = 8760 := by simp [generation, hw, hy.pv]
  have hsplit := h1
  rw [C08_versions_agree] at hsplit
  have hfrom : ∀ k t nodes soc, t + k ≤ 8760 → Between tk air source nodes → 0 ≤ soc ∧ soc ≤ S.es.capacity →
      ∃ rs, runFrom S rows t k nodes soc = .ok rs ∧
        ∀ r ∈ rs, ∃ nodes, r.ts.finalNodesTemp = some nodes ∧ Between tk air source nodes := by
    intro k
    induction k with
    | zero => intro t nodes soc _ _ _; exact ⟨[], rfl, by simp⟩
    | succ k ih =>
      intro t nodes soc hk hb hsoc
      have := hy.heatDemand
      have := hy.importPrice
      have := hy.perf
      have := hy.pv
      have := hy.elecDemand
      have htt : t < 8760 := by omega
      obtain ⟨HS, hsrc, -⟩ := hst t htt
      obtain ⟨g, d, w, hg', hd', hw', hsp⟩ := C08_split_exact hsplit t htt
      have hheat : S.heatDemand[t]? = some (S.heatDemand[t]'(by omega)) := List.getElem?_eq_getElem _
      have hperf : S.perf[t]? = some (S.perf[t]'(by omega)) := List.getElem?_eq_getElem _
      have hprice : S.importPrice[t]? = some (S.importPrice[t]'(by omega)) := List.getElem?_eq_getElem _
      generalize S.heatDemand[t]'(by omega) = heat at hheat
      generalize S.perf[t]'(by omega) = perf at hperf
      generalize S.importPrice[t]'(by omega) = price at hprice
      have hstep : StepOk (plant S) (hourIn t heat price w perf nodes soc) :=
        { es := H.es, soc_nonneg := hsoc.1, soc_le := hsoc.2, surplus_nonneg := hsp.surplus_nonneg,
          deficit_nonneg := hsp.deficit_nonneg, heat_nonneg := H.heat_nonneg _ (List.mem_of_getElem? hheat),
          heat_le_peak := le_listMax (List.mem_of_getElem? hheat),
          cop_pos := H.cop_pos _ (List.mem_of_getElem? hperf),
          duty_nonneg := H.duty_nonneg _ (List.mem_of_getElem? hperf),
          zero_cap := fun hc => H.zero_cap hc _ (List.mem_of_getElem? hperf),
          tank_nonneg := fun s m hm => H.tank_nonneg _ s _ m (List.getElem?_eq_some_iff.mp hheat).1 hm }
      rw [← hsrc] at hb
      have hcap : S.tank.capacity ≠ 0 := by rw [htank]; exact ne_of_gt HS.usable.1
      have hoff : ∀ s, ∃ m, S.tank.maxInOut t s nodes = .ok m := fun s => by
        rw [htank]; exact between_offer HS htt s hb
      obtain ⟨r0, nodes', hr0, hfin, hI⟩ : ∃ r0 nodes', step (plant S) (hourIn t heat price w perf nodes soc)
          (decide (price ≤ S.setpoint)) (if price > S.setpoint then S.orderAbove else S.orderBelow) = .ok r0 ∧
          r0.ts.finalNodesTemp = some nodes' ∧ Between tk air (net t).source nodes' := by
        obtain ⟨o1, o2⟩ := hour_order hord price
        refine serve_step hstep o1 o2 ?_ ?_ hmin hcap _ hoff fun s th hc hd => ?_
        · by_cases hp : price > S.setpoint
          · rw [if_pos hp]; exact h9.1
          · rw [if_neg hp]; exact h9.2
        · by_cases hp : price > S.setpoint
          · rw [if_pos hp, decide_eq_false (not_le.mpr hp)]; exact hknown.1
          · rw [if_neg hp, decide_eq_true (not_lt.mp hp)]; exact hknown.2
        · have hd' : s = .discharging → 0 ≤ th ∧ th ≤ heat ∧
              ∃ m, maxEnergy tk t .discharging (net t) nodes = .ok m ∧ 0 < m := by
            intro hsd
            obtain ⟨d1, d2, m, hm, d3⟩ := hd hsd
            have hm' : S.tank.maxInOut t .discharging nodes = .ok m := hm
            rw [htank] at hm'
            exact ⟨d1, d2, m, hm', d3⟩
          obtain ⟨out, p, q1, q2, q3⟩ := serves HS htt hb hc hd' (hhold t heat hheat)
          refine ⟨p, ?_, q3⟩
          show S.tank.newNodes t s nodes th heat = .ok p
          rw [htank]
          dsimp only [toTankI]
          rw [q1]
          exact q2
      obtain ⟨e1, e2⟩ := C23_final_soc_within_capacity hstep hr0
      rw [hsrc] at hI
      have hhour : hourStep S rows t nodes soc = .ok (complete w g ((wind S)[t]'(by omega)) (S.pv[t]'(by omega)) d heat r0) :=
        hourStep_ok.mpr ⟨heat, price, w, perf, g, (wind S)[t]'(by omega), S.pv[t]'(by omega), d, r0,
          hheat, hprice, hw', hperf, hg', List.getElem?_eq_getElem _, List.getElem?_eq_getElem _, hd', hr0, rfl⟩
      obtain ⟨rest, hrest, hall⟩ := ih (t + 1) nodes' r0.es.finalSoc (by omega) hI ⟨e1, e2⟩
      refine ⟨complete w g ((wind S)[t]'(by omega)) (S.pv[t]'(by omega)) d heat r0 :: rest, ?_, ?_⟩
      · simp only [runFrom, hhour, bind, Except.bind]
        have e : (complete w g ((wind S)[t]'(by omega)) (S.pv[t]'(by omega)) d heat r0).ts.finalNodesTemp
            = some nodes' := hfin
        rw [e, Option.getD_some]
        have e' : (complete w g ((wind S)[t]'(by omega)) (S.pv[t]'(by omega)) d heat r0).es.finalSoc
            = r0.es.finalSoc := rfl
        rw [e', hrest]
        rfl
      · intro r hr
        rcases List.mem_cons.mp hr with rfl | hr
        · exact ⟨nodes', hfin, hI⟩
        · exact hall r hr
  obtain ⟨rs, hrs, hall⟩ := hfrom n first S.tank.initTemps S.es.initState hspan (by
      rw [htank]
      obtain ⟨HS, hsrc, hret⟩ := hst 0 (by norm_num)
      refine ⟨List.length_replicate, List.pairwise_replicate_of_refl, fun t ht => ?_⟩
      rw [List.eq_of_mem_replicate ht, ← hsrc, ← hret]
      exact ⟨HS.ret, HS.source.1⟩)
    (C01_soc_within_capacity _ H.es.capacity_nonneg H.es.init_nonneg H.es.init_le_one [])
  have hrun := runTimesteps_ok.mpr ⟨rows, h1, hspan, hrs⟩
  exact ⟨rs, hrun, C27_one_result_per_hour hrun, hall⟩

/-- A year on a store of 30 cubic metres that all processes may use. -/
def Spec.servedRun : RunIn (List ℚ) :=
  { hp := ⟨12, 60, 0⟩, es := sampleBattery, aux := samplePlant.aux,
    tank := toTankI bigStore (fun _ => labNet) 40, exportPrice := 40,
    windUser := List.replicate 8760 14, windData := List.replicate 8760 0, pv := List.replicate 8760 1,
    elecDemand := List.replicate 8760 8, heatDemand := List.replicate 8760 5,
    importPrice := List.replicate 8760 100, perf := List.replicate 8760 ⟨3, 12⟩, setpoint := 80,
    orderAbove := sampleRun.orderAbove, orderBelow := sampleRun.orderBelow }

theorem bigStore_steady : SteadyStore bigStore labNet 15 where
  usable := ⟨by norm_num [bigStore, wallTank, labTank], by norm_num [bigStore, wallTank, labTank]⟩
  layers := by norm_num [bigStore, wallTank, labTank]
  sealed := rfl
  wall := by norm_num [bigStore, wallTank, labTank]
  insulation := ⟨_, rfl, by norm_num [bigStore, wallTank, labTank, nodeMass]⟩
  surroundings := fun _ _ => rfl
  warmAir := by norm_num [labNet]
  ret := by norm_num [labNet]
  flow := by norm_num [labNet]
  source := by norm_num [labNet]
  spread := by norm_num [labNet]
  heats := by decide +kernel

theorem servedRun_ok : RunOk servedRun where
  es := sampleBattery_ok
  heat_nonneg := fun x hx => by rw [List.eq_of_mem_replicate hx]; norm_num
  cop_pos := fun p hp => by rw [List.eq_of_mem_replicate hp]; norm_num
  duty_nonneg := fun p hp => by rw [List.eq_of_mem_replicate hp]; norm_num
  zero_cap := fun h => by
    simp only [servedRun] at h
    norm_num at h
  tank_nonneg := fun hour s nodes m _ h =>
    C33_nonneg (tk := bigStore) (net := labNet) (by norm_num [bigStore, wallTank, labTank]) (by norm_num [labNet]) h

/-- C126: this year runs to its end. -/
theorem servedRun_ends : ∃ rs, runTimesteps servedRun 0 8760 = .ok rs ∧ rs.length = 8760 ∧
    ∀ r ∈ rs, ∃ nodes, r.ts.finalNodesTemp = some nodes ∧ Between bigStore 15 60 nodes :=
  C126_run_ends servedRun_ok ⟨sampleRun_orders.1, sampleRun_orders.2, sampleRun_orders.3, sampleRun_orders.4⟩
    ⟨fun n h => by
        have : n ∈ [1, 2, 3, 4, 5, 6, 7, 8, 9, 10, 11, 12, 13] := h
        simp only [List.mem_cons, List.not_mem_nil, or_false] at this
        omega,
      fun n h => by
        have : n ∈ [1, 2, 3, 4, 5, 6, 7, 8, 9, 10, 11, 12, 13, 14, 15] := h
        simp only [List.mem_cons, List.not_mem_nil, or_false] at this
        omega⟩
    ⟨by decide, by decide⟩
    ⟨List.length_replicate, List.length_replicate, List.length_replicate, List.length_replicate,
      List.length_replicate, List.length_replicate, List.length_replicate⟩ rfl
    (net := fun _ => labNet) rfl (fun _ _ => ⟨bigStore_steady, rfl, rfl⟩)
    (fun hour de h => by
      rw [List.eq_of_mem_replicate (List.mem_of_getElem? h)]
      norm_num [LayersHold, labNet, bigStore, wallTank, labTank, nodeMass]) (le_refl (0 + 8760))

/-- Its first hour: 10 kWh of heat go into the store, 7 of them from the heat pump. -/
example : ∃ r, step
    { hp := servedRun.hp, es := servedRun.es, aux := servedRun.aux, tank := servedRun.tank,
      exportPrice := servedRun.exportPrice, peakHeatDemand := 5 }
    (hourIn 0 5 100 ⟨7, 0, 7, 8⟩ ⟨3, 12⟩ [40, 40, 40] 0) false servedRun.orderAbove = .ok r ∧
    r.ts.hpToTs = 7 ∧ r.ts.chargingTotal = 10 := exists_of_checks (by decide +kernel)

end Verif
