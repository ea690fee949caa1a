import Verif.Props.Run
import Verif.Props.TankIdle
import Verif.Props.TankGeometry

/-!
# A store that stops a run (C125)
-/

set_option autoImplicit false

namespace Verif
open Spec Tank FixedOrder
variable {N : Type}

/-! ### The tank at the return temperature -/

/-- A tank whose top is at the return temperature cannot be told to discharge: the program divides by the difference of
the two. -/
theorem C125_cold_tank_refuses {tk : Tank} (hc : tk.capacity ≠ 0) (hour : ℕ) {net : NetTemps} {nodes : List ℚ}
    (hn : tk.number ≠ 0 → temp nodes 0 = net.ret) (thermal demand : ℚ) :
    ∃ e, newNodesTemp tk hour .discharging net nodes thermal demand = .error e := by
  unfold newNodesTemp
  by_cases h1 : nodes.length ≠ tk.number
  · exact ⟨_, if_pos h1⟩
  rw [if_neg h1, if_neg hc, if_neg (fun h => by cases h.2)]
  by_cases h2 : tk.number = 0
  · exact ⟨_, if_pos h2⟩
  rw [if_neg h2]
  have : ∃ e, massFlow .discharging net thermal demand (temp nodes (tk.number - 1)) (temp nodes 0) = .error e := by
    unfold massFlow
    dsimp only
    cases networkMass net demand with
    | error e => exact ⟨e, rfl⟩
    | ok d =>
      cases sourceMass net thermal with
      | error e => exact ⟨e, rfl⟩
      | ok s =>
        dsimp only
        rw [hn h2, safeDiv, if_pos (sub_self _)]
        exact ⟨_, rfl⟩
  obtain ⟨e, he⟩ := this
  rw [he]
  exact ⟨e, rfl⟩

example : ∃ e, newNodesTemp wallTank 0 .discharging labNet [40, 40, 40] 0 5 = .error e :=
  C125_cold_tank_refuses (by norm_num [wallTank, labTank]) 0 (fun _ => rfl) 0 5

/-- With temperatures of water and a network that cools, the error is a division by zero. -/
example : newNodesTemp wallTank 0 .discharging labNet [40, 40, 40] 0 5 = .error .zeroDivisionError := by
  decide +kernel

/-! ### The first hour of a run -/

/-- The same run without a minimum output of the heat pump. -/
def Spec.freely (S : RunIn N) : RunIn N := { S with hp := { S.hp with minimumOutput := 0 } }

/-- What the heat pump has to give in an hour in which it runs, from its minimum output in percent and its minimum
running time in minutes. -/
def Spec.leastOutput (S : RunIn N) (duty : ℚ) : ℚ :=
  S.hp.minimumOutput * S.hp.minimumRuntime / 60 / 100 * duty

theorem amount_freely (S : RunIn N) (i : StepIn N) (c : Checks) (p : Process) :
    amount (plant (freely S)) i c p = amount (plant S) i c p := by
  cases p <;> rfl

theorem runOrder_freely (S : RunIn N) (i : StepIn N) (key : ℤ → Except PyErr Process) (order : List ℤ) :
    ∀ s, runOrder (plant (freely S)) i key order s = runOrder (plant S) i key order s := by
  induction order with
  | nil => intro s; rfl
  | cons m order ih =>
    intro s
    unfold runOrder runProcess
    simp only [amount_freely, ih]

theorem dispatch_freely (S : RunIn N) (i : StepIn N) (b : Bool) (order : List ℤ) :
    dispatch (plant (freely S)) i b order = dispatch (plant S) i b order := by
  unfold dispatch
  rw [runOrder_freely]
  rfl

theorem freely_ok {S : RunIn N} (H : RunOk S) : RunOk (freely S) where
  es := H.es
  heat_nonneg := H.heat_nonneg
  cop_pos := H.cop_pos
  duty_nonneg := H.duty_nonneg
  zero_cap := H.zero_cap
  tank_nonneg := H.tank_nonneg

theorem temp_initTemps {tk : Tank} (h : tk.number ≠ 0) (x : ℚ) : temp (initTemps tk x) 0 = x := by
  unfold temp initTemps
  obtain ⟨n, hn⟩ := Nat.exists_eq_succ_of_ne_zero h
  rw [hn]
  rfl

/-- **A heat pump too large for its store stops the run in the first hour.** Tanks start at the return temperature. If
without a minimum output the heat pump would give something in the first hour, and its minimum output is more than that
and the room in the tank together, then the run raises an exception, whatever the other hours are. The program
then switches the heat pump off and discharges the tank, cold as it is. -/
theorem C125_large_pump_stops {S : RunIn (List ℚ)} (H : RunOk S) (hO : OrdersOk S) {tk : Tank} {net : ℕ → NetTemps}
    {ret : ℚ} (htank : S.tank = toTankI tk net ret) (hc : tk.capacity ≠ 0) {first n : ℕ}
    (h1 : 1 ≤ n) (hret : (net first).ret = ret) {r : Results (List ℚ)}
    (hr : runTimesteps (freely S) first 1 = .ok [r]) (hpump : 1 / 10 < r.hp.heatTotalOutput) {room : ℚ}
    (hroom : maxEnergy tk first .charging (net first) (initTemps tk ret) = .ok room)
    (hmin : r.hp.heatTotalOutput + room < leastOutput S r.hp.duty) :
    ∃ e, runTimesteps S first n = .error e := by
  cases hrun : runTimesteps S first n with
  | error e => exact ⟨e, rfl⟩
  | ok rs =>
    exfalso
    obtain ⟨rows, hrows, hk⟩ := C27_chained hrun
    obtain ⟨q, -, hq⟩ := hk 0 h1
    obtain ⟨rows', hrows', hk'⟩ := C27_chained hr
    obtain ⟨r', hr', hq'⟩ := hk' 0 Nat.one_pos
    cases Except.ok.inj (hrows.symm.trans hrows')
    cases Option.some.inj hr'
    obtain ⟨heat, price, row, perf, gen, wnd, pv, elec, q0, ho⟩ := hourStep_ok.mp hq
    obtain ⟨heat', price', row', perf', gen', wnd', pv', elec', r0, ho'⟩ := hourStep_ok.mp hq'
    cases Option.some.inj (ho.heatEq.symm.trans ho'.heatEq)
    cases Option.some.inj (ho.priceEq.symm.trans ho'.priceEq)
    cases Option.some.inj (ho.rowEq.symm.trans ho'.rowEq)
    cases Option.some.inj (ho.perfEq.symm.trans ho'.perfEq)
    obtain ⟨g, d, w, hg, hd, hw, hsp⟩ := C08_split_exact (C08_versions_agree _ _ ▸ hrows) (first + 0) (by
      obtain ⟨_, _, h, _⟩ := runTimesteps_ok.mp hrun
      omega)
    cases Option.some.inj (hg.symm.trans ho.genEq)
    cases Option.some.inj (hd.symm.trans ho.elecEq)
    cases Option.some.inj (hw.symm.trans ho.rowEq)
    have hst := ho.stepOk H hsp (C01_soc_within_capacity _ H.es.capacity_nonneg H.es.init_nonneg
      H.es.init_le_one [])
    obtain ⟨c, r1, hd1, hm1⟩ := step_ok ho.stepEq
    obtain ⟨c', r1', hd1', hm1'⟩ := step_ok ho'.stepEq
    have e1 : dispatch (plant S) _ _ _ = .ok (c', r1') := (dispatch_freely S _ _ _).symm.trans hd1'
    cases Except.ok.inj (hd1.symm.trans e1)
    set b := decide (price ≤ S.setpoint) with hb
    set i := hourIn (first + 0) heat price row perf (nodesBefore S rs 0) (socBefore S rs 0) with hi
    have trig : 0 ≤ minTrigger b := by unfold minTrigger; split_ifs <;> norm_num
    have trig' : minTrigger b ≤ 1 / 10 := by unfold minTrigger; split_ifs <;> norm_num
    have free : minOut (plant (freely S)) i = 0 := by
      unfold minOut
      show (0 : ℚ) * S.hp.minimumRuntime / 60 / 100 * perf.duty = 0
      ring
    have same : r0 = r1 := by
      rcases rule_outcome hm1' with ⟨h, -⟩ | ⟨_, hu, -⟩ | ⟨_, hu, -, -⟩ | ⟨_, _, hu, -, -, -⟩
      · exact h
      all_goals
        exfalso
        have h1 : r1.hp.heatTotalOutput < minOut (plant (freely S)) i := hu.1
        have h2 : r1.hp.heatTotalOutput > minTrigger b := hu.2
        rw [free] at h1
        linarith
    subst same
    have e2 : r.hp.heatTotalOutput = r0.hp.heatTotalOutput := by rw [ho'.resultEq]; rfl
    obtain ⟨hnd, hsafe⟩ := hour_order hO price
    obtain ⟨ps, s0, nodes', hf, hl, hs0, -, -⟩ := dispatch_facts hst hnd hd1
    have hcaps := hl.caps (safe2_done hf hsafe.2)
    have e3 : r.hp.duty = perf.duty := by
      rw [ho'.resultEq]
      show r0.hp.duty = _
      rw [hs0]
      exact hl.frame.duty
    have hnodes : nodesBefore S rs 0 = initTemps tk ret := by
      show S.tank.initTemps = _
      rw [htank]
      rfl
    have hdis : S.tank.maxInOut (first + 0) .discharging (nodesBefore S rs 0) = .ok 0 := by
      rw [htank, hnodes]
      show maxEnergy tk first .discharging (net first) (initTemps tk ret) = .ok 0
      unfold maxEnergy
      have hlen : (initTemps tk ret).length = tk.number := List.length_replicate
      rw [if_neg (not_not.mpr hlen), if_neg (fun h => by cases h.2), if_pos]
      refine ⟨?_, rfl⟩
      rw [hlen, hret, initTemps, List.sum_replicate, nsmul_eq_mul, mul_comm]
    have hav : c.tsDischarge ≤ 0 + c.tsCharge := hcaps.avail 0 hdis
    have hch : S.tank.maxInOut (first + 0) .charging (nodesBefore S rs 0) = .ok room := by
      rw [htank, hnodes]
      exact hroom
    have hu : r0.hp.heatTotalOutput < minOut (plant S) i ∧ r0.hp.heatTotalOutput > minTrigger b := by
      have h0 : (0 : ℚ) ≤ room := hst.tank_nonneg _ _ hch
      have h2 : leastOutput S r.hp.duty = minOut (plant S) i := by rw [e3]; rfl
      rw [h2, e2] at hmin
      rw [e2] at hpump
      exact ⟨by linarith, by linarith⟩
    have hinc : minOut (plant S) i - r0.hp.heatTotalOutput > room + c.tsDischarge - c.tsCharge := by
      have h2 : leastOutput S r.hp.duty = minOut (plant S) i := by rw [e3]; rfl
      rw [h2, e2] at hmin
      linarith
    have hcold : ∀ demand, ∃ e, S.tank.newNodes (first + 0) .discharging (nodesBefore S rs 0) 0 demand = .error e := by
      intro demand
      rw [htank, hnodes]
      obtain ⟨e, he⟩ := C125_cold_tank_refuses hc first (net := net first) (nodes := initTemps tk ret)
        (fun hn => (temp_initTemps hn ret).trans hret.symm) 0 demand
      refine ⟨e, ?_⟩
      show (match newNodesTemp tk first .discharging (net first) (initTemps tk ret) 0 demand with
        | .error e => Except.error e
        | .ok out => lastProfile out) = _
      rw [he]
    have hcap : ¬ (plant S).tank.capacity = 0 := by
      show ¬ S.tank.capacity = 0
      rw [htank]
      exact hc
    simp only [minOutputRule] at hm1
    rw [if_pos hu, except_bind_ok] at hm1
    obtain ⟨m, hm, hoff⟩ := hm1
    cases Except.ok.inj (hm.symm.trans hch)
    rw [if_pos hinc] at hoff
    cases hbb : b with
    | true =>
      rw [hbb] at hoff
      simp only [if_true, hpOffBelow, except_bind_ok] at hoff
      obtain ⟨m', -, hoff⟩ := hoff
      rw [if_neg hcap] at hoff
      simp only [except_bind_ok] at hoff
      obtain ⟨nn, hnn, -⟩ := hoff
      obtain ⟨e, he⟩ := hcold (min m' heat)
      cases he.symm.trans hnn
    | false =>
      rw [hbb] at hoff
      simp only [Bool.false_eq_true, if_false, hpOffAbove, if_neg hcap, except_bind_ok] at hoff
      obtain ⟨nn, hnn, -⟩ := hoff
      obtain ⟨e, he⟩ := hcold heat
      have he' : (plant S).tank.newNodes i.hour .discharging i.nodes 0 i.heatDemand = .error e := he
      rw [he'] at hnn
      cases hnn

/-- A tank of 300 litres in three layers, with the wall such a tank gets, without openings. -/
def Spec.threeLayers : Tank := { wallTank with wall := 526 }

/-- A year in which a heat pump of 100 kW, which runs at a fifth of that or not at all, meets a demand of 8 kWh in every
hour from a network of 40 to 55 degrees. -/
def Spec.largePump : RunIn (List ℚ) :=
  { sampleRun with
    hp := { capacity := 100, minimumRuntime := 60, minimumOutput := 20 }
    tank := toTankI threeLayers (fun _ => labNet) 40
    heatDemand := List.replicate 8760 8
    perf := List.replicate 8760 ⟨3, 100⟩ }

theorem largePump_ok : RunOk largePump where
  es := sampleBattery_ok
  heat_nonneg := fun x hx => by rw [List.eq_of_mem_replicate hx]; norm_num
  cop_pos := fun p hp => by rw [List.eq_of_mem_replicate hp]; norm_num
  duty_nonneg := fun p hp => by rw [List.eq_of_mem_replicate hp]; norm_num
  zero_cap := fun h => by
    simp only [largePump] at h
    norm_num at h
  tank_nonneg := fun hour s nodes m _ h =>
    C33_nonneg (by norm_num [threeLayers, wallTank, labTank]) (by norm_num [labNet]) h

theorem largePump_orders : OrdersOk largePump := ⟨sampleRun_orders.1, sampleRun_orders.2, sampleRun_orders.3, sampleRun_orders.4⟩

theorem listMax_replicate (n : ℕ) (x : ℚ) : listMax (List.replicate (n + 1) x) = x := by
  show (List.replicate n x).foldl max x = x
  induction n with
  | zero => rfl
  | succ n ih => rw [List.replicate_succ, List.foldl_cons, max_self, ih]

theorem largePump_peak : plant (freely largePump) =
    { hp := { capacity := 100, minimumRuntime := 60, minimumOutput := 0 }, es := sampleBattery, aux := samplePlant.aux,
      tank := toTankI threeLayers (fun _ => labNet) 40, exportPrice := 40, peakHeatDemand := 8 } := by
  have : listMax (List.replicate 8760 (8 : ℚ)) = 8 := listMax_replicate 8759 8
  unfold plant
  rw [show (freely largePump).heatDemand = List.replicate 8760 (8 : ℚ) from rfl, this]
  rfl

/-- The first hour of that year without the minimum output: the pump gives the 8 kWh of the demand. -/
theorem largePump_free : ∃ r, runTimesteps (freely largePump) 0 1 = .ok [r] ∧ r.hp.heatTotalOutput = 8 ∧
    r.hp.duty = 100 := by
  obtain ⟨r0, h0, e1, e2⟩ : ∃ r0, step
      { hp := { capacity := 100, minimumRuntime := 60, minimumOutput := 0 }, es := sampleBattery, aux := samplePlant.aux,
        tank := toTankI threeLayers (fun _ => labNet) 40, exportPrice := 40, peakHeatDemand := 8 }
      (hourIn 0 8 100 (Tools.splitHourFixed 5 8) ⟨3, 100⟩ [40, 40, 40] sampleBattery.initState) false
      [1, 2, 3, 4, 5, 6, 7, 8, 9, 10, 11, 12, 13] = .ok r0 ∧ r0.hp.heatTotalOutput = 8 ∧ r0.hp.duty = 100 :=
    exists_of_checks (by decide +kernel)
  have gen : generation (freely largePump) = List.replicate 8760 5 := by
    show List.zipWith (· + ·) (List.zipWith (· + ·) (List.replicate 8760 4) (List.replicate 8760 0))
      (List.replicate 8760 1) = _
    rw [List.zipWith_replicate, List.zipWith_replicate, Nat.min_self, Nat.min_self]
    norm_num
  have rows : Tools.surplusDeficitFixed (generation (freely largePump)) (freely largePump).elecDemand =
      .ok (List.replicate 8760 (Tools.splitHourFixed 5 8)) := by
    rw [gen, show (freely largePump).elecDemand = List.replicate 8760 8 from rfl]
    unfold Tools.surplusDeficitFixed
    rw [List.length_replicate, List.length_replicate, if_neg (by norm_num), if_neg (by norm_num), List.zipWith_replicate,
      Nat.min_self]
  have get : ∀ {α : Type} (x : α), (List.replicate 8760 x)[0]? = some x := fun x => by
    rw [List.getElem?_replicate, if_pos (by norm_num)]
  refine ⟨complete (Tools.splitHourFixed 5 8) 5 4 1 8 8 r0, runTimesteps_ok.mpr ⟨_, rows, by norm_num, ?_⟩, e1, e2⟩
  have hour : hourStep (freely largePump) (List.replicate 8760 (Tools.splitHourFixed 5 8)) 0
      (freely largePump).tank.initTemps (freely largePump).es.initState =
      .ok (complete (Tools.splitHourFixed 5 8) 5 4 1 8 8 r0) := by
    refine hourStep_ok.mpr ⟨8, 100, Tools.splitHourFixed 5 8, ⟨3, 100⟩, 5, 4, 1, 8, r0, ?_⟩
    exact
      { heatEq := get _, priceEq := get _, rowEq := get _, perfEq := get _
        genEq := by rw [gen]; exact get _
        wndEq := by
          show (List.zipWith (· + ·) (List.replicate 8760 (4 : ℚ)) (List.replicate 8760 0))[0]? = _
          rw [List.zipWith_replicate, Nat.min_self, get]
          norm_num
        pvEq := get _, elecEq := get _
        stepEq := by
          rw [largePump_peak]
          have e : ((100 : ℚ) ≤ (freely largePump).setpoint) = ((100 : ℚ) ≤ 80) := rfl
          have e' : ((100 : ℚ) > (freely largePump).setpoint) = ((100 : ℚ) > 80) := rfl
          simp only [e, e']
          rw [if_pos (by norm_num), decide_eq_false (by norm_num)]
          exact h0
        resultEq := rfl }
  unfold runFrom
  rw [hour]
  rfl

/-- The run of that year stops in its first hour, however many hours are asked for. -/
theorem C125_large_pump_case {n : ℕ} (hn : 1 ≤ n) : ∃ e, runTimesteps largePump 0 n = .error e := by
  obtain ⟨r, hr, e1, e2⟩ := largePump_free
  obtain ⟨room, hroom, hle⟩ : ∃ room, maxEnergy threeLayers 0 .charging labNet (initTemps threeLayers 40) = .ok room ∧
      room < 5 := exists_of_checks (by decide +kernel)
  refine C125_large_pump_stops largePump_ok largePump_orders (tk := threeLayers) (net := fun _ => labNet) (ret := 40) rfl
    (by norm_num [threeLayers, wallTank, labTank]) hn rfl hr ?_ hroom ?_
  · rw [e1]; norm_num
  · rw [e1, e2]
    unfold leastOutput
    show 8 + room < 20 * 60 / 60 / 100 * 100
    linarith

/-! ### Two more ways -/

/-- Against the claim that a tank can be asked how much heat it takes: a tank of 100 litres in eight layers, with the wall
and the insulation such a tank gets and at the return temperature throughout, makes the program raise. A layer then
loses more than half of its difference to the surroundings in one pass, while as much water passes as it holds, so
the temperatures of the passes swing and leave the range of water. -/
theorem C125_thin_layers_raise :
    maxEnergy { wallTank with capacity := 100, number := 8, wall := 365 } 0 .charging labNet (List.replicate 8 40) =
      .error .valueError := by decide +kernel

/-- The same tank in three layers answers. -/
example : ∃ m, maxEnergy { wallTank with capacity := 100, number := 3, wall := 365 } 0 .charging labNet
    (List.replicate 3 40) = .ok m ∧ 0 < m := exists_of_checks (by decide +kernel)

/-- A tank of 300 litres in five layers, well insulated, with connections that lose 100 kJ in an hour. -/
def Spec.connectedTank : Tank := { openTank with number := 5 }

/-- Against the claim that a tank between return and source temperature can be charged: the connections warm the water,
so after one hour of charging the upper layers are above the source. In the next hour the bottom gets there too and
the flow that is computed changes its sign. -/
theorem C125_connections_stop :
    ∃ out p, newNodesTemp connectedTank 0 .charging labNet (List.replicate 5 40) 11 5 = .ok out ∧ lastProfile out = .ok p ∧
      temp p 4 < labNet.source ∧ labNet.source < temp p 0 ∧
      newNodesTemp connectedTank 1 .charging labNet p 7 5 = .error .valueError := by
  have key : ∃ p, (newNodesTemp connectedTank 0 .charging labNet (List.replicate 5 40) 11 5 >>= fun out => lastProfile out) =
      .ok p ∧ (temp p 4 < labNet.source ∧ labNet.source < temp p 0 ∧
      newNodesTemp connectedTank 1 .charging labNet p 7 5 = .error .valueError) := exists_of_checks (by decide +kernel)
  obtain ⟨p, h, h1⟩ := key
  rw [except_bind_ok] at h
  obtain ⟨out, h2, h3⟩ := h
  exact ⟨out, p, h2, h3, h1⟩

end Verif
