import Verif.Props.TankRun
import Verif.Props.TankDispatch

/-!
# A store the orders never use (C30, C33)
-/

set_option autoImplicit false

namespace Verif
open Spec Tank FixedOrder
variable {N : Type}

/-! ### The tank on standby -/

/-- A tank without openings that in one hour loses at most its difference to the surroundings. -/
structure Spec.SlowTank (tk : Tank) (lo hi : ℚ) : Prop where
  usable : UsableTank tk
  sealed : tk.connection = 0
  wall : 0 ≤ tk.wall
  insulation : ∃ k, tk.kValue = .ok k ∧ tk.wall * k ≤ tk.nodeMass * 4178
  range : 0 ≤ lo ∧ hi ≤ 100
  air : ∀ hour < 8760, ∃ a, tk.ambTemp hour = .ok a ∧ lo ≤ a ∧ a ≤ hi

/-- On standby such a tank never raises, and its temperatures stay between those it had and those around it. -/
theorem C30_standby_returns {tk : Tank} {lo hi : ℚ} (H : SlowTank tk lo hi) {hour : ℕ} (hh : hour < 8760)
    (net : NetTemps) {nodes : List ℚ} (hl : nodes.length = tk.number) (hw : Within lo hi nodes)
    (thermal demand : ℚ) :
    ∃ p, newNodesTemp tk hour .standby net nodes thermal demand = .ok (.profiles [p]) ∧
      p.length = tk.number ∧ Within lo hi p := by
  have hu := H.usable
  have hM := nodeMass_pos hu
  have h2 := hu.2
  obtain ⟨k, hk, hslow⟩ := H.insulation
  obtain ⟨amb, ha, ha1, ha2⟩ := H.air hour hh
  obtain ⟨cs, hcs⟩ := cps_total fun t ht =>
    ⟨le_trans H.range.1 (hw t ht).1, le_trans (hw t ht).2 H.range.2⟩
  refine ⟨sortDown ((List.range tk.number).map fun i =>
    temp nodes i + slope tk ⟨min 0 tk.nodeMass, k, amb⟩ .standby nodes net i (cs.getD i 0)), ?_, ?_, ?_⟩
  · unfold newNodesTemp
    rw [if_neg (not_not.mpr hl), if_neg (ne_of_gt hu.1), if_neg (by rintro ⟨-, h⟩; cases h), if_neg (by omega)]
    simp only [massFlow, stepCount_standby, profiles, internalStep, env, hcs, hk, ha, euler]
    rw [if_neg (by omega)]
  · simp [sortDown_length]
  · intro t ht
    obtain ⟨i, hi, rfl⟩ := map_range_mem (mem_sortDown.1 ht)
    have hi' : i < nodes.length := by omega
    have hcp := cps_pos hcs hi'
    have hti := hw _ (temp_mem hi')
    rw [slope_eq hu _ _ _ _ _ hcp, flow_standby]
    unfold lossTerm
    rw [H.sealed]
    dsimp only
    have hkp := kValue_pos hk
    have hpos : 0 < tk.nodeMass * cs.getD i 0 := mul_pos hM (by linarith)
    have hle : tk.wall * k ≤ tk.nodeMass * cs.getD i 0 :=
      le_trans hslow (mul_le_mul_of_nonneg_left hcp hM.le)
    have h0 : 0 ≤ tk.wall * k / (tk.nodeMass * cs.getD i 0) :=
      div_nonneg (mul_nonneg H.wall hkp.le) hpos.le
    have h1 : tk.wall * k / (tk.nodeMass * cs.getD i 0) ≤ 1 := (div_le_one hpos).mpr hle
    have e : temp nodes i + (min 0 tk.nodeMass / tk.nodeMass * 0 +
        (tk.wall * k * (amb - temp nodes i) + 0) / (tk.nodeMass * cs.getD i 0)) =
        temp nodes i + tk.wall * k / (tk.nodeMass * cs.getD i 0) * (amb - temp nodes i) := by ring
    rw [e]
    simpa using convex_bounds h0 h1 hti ⟨ha1, ha2⟩

example : SlowTank wallTank 15 60 where
  usable := ⟨by norm_num [wallTank, labTank], by norm_num [wallTank, labTank]⟩
  sealed := rfl
  wall := by norm_num [wallTank, labTank]
  insulation := ⟨_, rfl, by norm_num [wallTank, labTank, nodeMass]⟩
  range := by norm_num
  air := fun _ _ => ⟨15, rfl, by norm_num, by norm_num⟩

/-- Against the claim that a usable tank can always be asked for its offer: an ordinary stratified tank of four
layers between return and source temperature makes `max_energy_in_out` raise. Its passes do not sort the
layers; once the second is above the flow temperature and the top is not, water leaves the bottom and none
comes in, so the bottom gets colder than water can be. -/
theorem C33_offer_raises :
    Stratified [60, 50, 50, 50] ∧ Within labNet.ret labNet.source [60, 50, 50, 50] ∧
    SlowTank { wallTank with number := 4, capacity := 400 } 15 60 ∧
    maxEnergy { wallTank with number := 4, capacity := 400 } 0 .discharging
      { labNet with flow := 4991 / 100 } [60, 50, 50, 50] = .error .valueError := by
  refine ⟨by unfold Stratified; decide +kernel, by unfold Within; decide +kernel, ?_, by decide +kernel⟩
  exact
    { usable := ⟨by norm_num, by norm_num⟩, sealed := rfl, wall := by norm_num [wallTank, labTank],
      insulation := ⟨_, rfl, by norm_num [wallTank, labTank, nodeMass]⟩, range := by norm_num,
      air := fun _ _ => ⟨15, rfl, by norm_num, by norm_num⟩ }

/-! ### A run whose orders list no process of the store -/

/-- The processes that use the store. -/
def Spec.usesStore : Process → Bool
  | .tsToDemand | .hpResToTs | .eauxResToTs | .hpImportToTs => true
  | _ => false

/-- The order lists known processes, none of which uses the store. -/
def Spec.LeavesStore (below : Bool) (order : List ℤ) : Prop :=
  ∀ m ∈ order, ∃ p, (if below then keyBelow else keyAbove) m = .ok p ∧ usesStore p = false

theorem leaves_order {P : Plant N} {i : StepIn N} {b : Bool} : ∀ {order : List ℤ} (s : Checks × Results N),
    LeavesStore b order → ∃ s', runOrder P i (if b then keyBelow else keyAbove) order s = .ok s' ∧
      s'.1.tsCharge = s.1.tsCharge ∧ s'.1.tsDischarge = s.1.tsDischarge := by
  intro order
  induction order with
  | nil => intro s _; exact ⟨s, rfl, rfl, rfl⟩
  | cons m l ih =>
    intro s h
    obtain ⟨p, hp, hn⟩ := h m List.mem_cons_self
    have hone : ∃ a, amount P i s.1 p = .ok a ∧ (update p a s.1).tsCharge = s.1.tsCharge ∧
        (update p a s.1).tsDischarge = s.1.tsDischarge := by
      cases p <;> first | exact ⟨_, rfl, rfl, rfl⟩ | cases hn
    obtain ⟨a, ha, e1, e2⟩ := hone
    obtain ⟨s', hs', f1, f2⟩ := ih (update p a s.1, record p a s.2)
      fun m' hm' => h m' (List.mem_cons_of_mem _ hm')
    refine ⟨s', ?_, f1.trans e1, f2.trans e2⟩
    simp only [runOrder, hp, runProcess, ha, bind, Except.bind, pure, Except.pure]
    exact hs'

/-- An hour whose order leaves the store alone ends, with the store on standby. -/
theorem leaves_step {P : Plant N} {i : StepIn N} {b : Bool} {order : List ℤ} (h : LeavesStore b order)
    (hmin : P.hp.minimumOutput = 0)
    (hnew : P.tank.capacity ≠ 0 → ∀ q d, ∃ n, P.tank.newNodes i.hour .standby i.nodes q d = .ok n) :
    ∃ r nodes, step P i b order = .ok r ∧ r.ts.finalNodesTemp = some nodes ∧
      (P.tank.capacity = 0 ∧ nodes = i.nodes ∨ P.tank.capacity ≠ 0 ∧
        ∃ q d, P.tank.newNodes i.hour .standby i.nodes q d = .ok nodes) := by
  obtain ⟨s, hs, e1, e2⟩ := leaves_order (P := P) (i := i) (initChecks P i, initResults P i b) h
  have hst : stateOf (tsMatchOf b s.1) = .standby := by
    unfold tsMatchOf
    rw [e1, e2]
    show stateOf (if b = true then pyRound ((0 : ℚ) - 0) 1 else (0 : ℚ) - 0) = .standby
    cases b <;> decide +kernel
  have htu : ∃ nodes, tankUpdate P i b s.1 (totals1 P b s.2) = .ok nodes ∧
      (P.tank.capacity = 0 ∧ nodes = i.nodes ∨ P.tank.capacity ≠ 0 ∧
        ∃ q d, P.tank.newNodes i.hour .standby i.nodes q d = .ok nodes) := by
    unfold tankUpdate
    rw [hst]
    by_cases hc : P.tank.capacity = 0
    · rw [if_pos hc]; exact ⟨_, rfl, .inl ⟨hc, rfl⟩⟩
    · rw [if_neg hc]
      obtain ⟨n, hn⟩ := hnew hc ((totals1 P b s.2).hp.heatTotalOutput + (totals1 P b s.2).aux.demand) i.heatDemand
      exact ⟨n, hn, .inr ⟨hc, _, _, hn⟩⟩
  obtain ⟨nodes, hn, hcase⟩ := htu
  refine ⟨totals2 P i b nodes (totals1 P b s.2), nodes, ?_, rfl, hcase⟩
  have hd : dispatch P i b order = .ok (s.1, totals2 P i b nodes (totals1 P b s.2)) := by
    unfold dispatch
    simp only [hs, hn, bind, Except.bind, pure, Except.pure]
  unfold step
  simp only [hd, bind, Except.bind]
  unfold minOutputRule
  dsimp only
  rw [if_neg]
  rintro ⟨h1, h2⟩
  have : minOut P i = 0 := by unfold minOut; rw [hmin]; ring
  have : minTrigger b ≥ 0 := by unfold minTrigger; split_ifs <;> norm_num
  linarith

/-- A full-year system whose orders leave the store alone runs any span inside the year, with any slow tank that
starts within the range of the temperatures around it. -/
theorem C27_accepts_unused_store {S : RunIn (List ℚ)} {tk : Tank} {net : ℕ → NetTemps} {initial lo hi : ℚ}
    (ht : S.tank = toTankI tk net initial) (H : SlowTank tk lo hi) (hinit : lo ≤ initial ∧ initial ≤ hi)
    (hy : FullYear S) (hmin : S.hp.minimumOutput = 0) (habove : LeavesStore false S.orderAbove)
    (hbelow : LeavesStore true S.orderBelow) {first n : ℕ} (h : first + n ≤ 8760) :
    ∃ rs, runTimesteps S first n = .ok rs := by
  obtain ⟨rows, h1, hl⟩ := rows_accepts hy
  have hstand : ∀ {t : ℕ} {nodes : List ℚ}, t < 8760 → nodes.length = tk.number → Within lo hi nodes →
      ∀ q d, ∃ p, S.tank.newNodes t .standby nodes q d = .ok p ∧ p.length = tk.number ∧ Within lo hi p := by
    intro t nodes ht' hn hw q d
    obtain ⟨p, hp, hpl, hpw⟩ := C30_standby_returns H ht' (net t) hn hw q d
    refine ⟨p, ?_, hpl, hpw⟩
    rw [ht]
    simp only [toTankI, hp]
    rfl
  have hfrom : ∀ k t nodes soc, t + k ≤ 8760 → nodes.length = tk.number → Within lo hi nodes →
      ∃ rs, runFrom S rows t k nodes soc = .ok rs := by
    intro k
    induction k with
    | zero => intro t nodes soc _ _ _; exact ⟨[], rfl⟩
    | succ k ih =>
      intro t nodes soc hk hn hw
      have hw' : (wind S).length = 8760 := by simp [wind, hy.windUser, hy.windData]
      have hg : (generation S).length = 8760 := by simp [generation, hw', hy.pv]
      have := hy.heatDemand
      have := hy.importPrice
      have := hy.perf
      have := hy.pv
      have := hy.elecDemand
      obtain ⟨r0, nodes', hr0, hfin, hcase⟩ : ∃ r0 nodes', step (plant S)
          (hourIn t (S.heatDemand[t]'(by omega)) (S.importPrice[t]'(by omega)) (rows[t]'(by omega))
            (S.perf[t]'(by omega)) nodes soc)
          (decide (S.importPrice[t]'(by omega) ≤ S.setpoint))
          (if S.importPrice[t]'(by omega) > S.setpoint then S.orderAbove else S.orderBelow) = .ok r0 ∧
          r0.ts.finalNodesTemp = some nodes' ∧ (S.tank.capacity = 0 ∧ nodes' = nodes ∨ S.tank.capacity ≠ 0 ∧
            ∃ q d, S.tank.newNodes t .standby nodes q d = .ok nodes') := by
        refine leaves_step ?_ hmin fun _ q d => (hstand (t := t) (by omega) hn hw q d).imp fun _ h => h.1
        by_cases hp : S.importPrice[t]'(by omega) > S.setpoint
        · rw [if_pos hp, decide_eq_false (not_le.mpr hp)]; exact habove
        · rw [if_neg hp, decide_eq_true (not_lt.mp hp)]; exact hbelow
      have hhour := hourStep_ok.mpr ⟨S.heatDemand[t]'(by omega), S.importPrice[t]'(by omega),
        rows[t]'(by omega), S.perf[t]'(by omega), (generation S)[t]'(by omega),
        (wind S)[t]'(by omega), S.pv[t]'(by omega), S.elecDemand[t]'(by omega), r0,
        List.getElem?_eq_getElem _, List.getElem?_eq_getElem _, List.getElem?_eq_getElem _,
        List.getElem?_eq_getElem _, List.getElem?_eq_getElem _, List.getElem?_eq_getElem _,
        List.getElem?_eq_getElem _, List.getElem?_eq_getElem _, hr0, rfl⟩
      have hnodes : nodes'.length = tk.number ∧ Within lo hi nodes' := by
        rcases hcase with ⟨-, rfl⟩ | ⟨-, q, d, hq⟩
        · exact ⟨hn, hw⟩
        · obtain ⟨p, hp, hpl, hpw⟩ := hstand (t := t) (by omega) hn hw q d
          cases Except.ok.inj (hp.symm.trans hq)
          exact ⟨hpl, hpw⟩
      obtain ⟨rest, hrest⟩ := ih (t + 1) nodes' r0.es.finalSoc (by omega) hnodes.1 hnodes.2
      refine ⟨complete (rows[t]'(by omega)) ((generation S)[t]'(by omega)) ((wind S)[t]'(by omega))
        (S.pv[t]'(by omega)) (S.elecDemand[t]'(by omega)) (S.heatDemand[t]'(by omega)) r0 :: rest, ?_⟩
      simp only [runFrom, hhour, bind, Except.bind]
      have e : (complete (rows[t]'(by omega)) ((generation S)[t]'(by omega)) ((wind S)[t]'(by omega))
        (S.pv[t]'(by omega)) (S.elecDemand[t]'(by omega)) (S.heatDemand[t]'(by omega)) r0).ts.finalNodesTemp
          = some nodes' := hfin
      rw [e, Option.getD_some]
      have e' : (complete (rows[t]'(by omega)) ((generation S)[t]'(by omega)) ((wind S)[t]'(by omega))
        (S.pv[t]'(by omega)) (S.elecDemand[t]'(by omega)) (S.heatDemand[t]'(by omega)) r0).es.finalSoc
          = r0.es.finalSoc := rfl
      rw [e', hrest]
      rfl
  obtain ⟨rs, hrs⟩ := hfrom n first S.tank.initTemps S.es.initState h
    (by rw [ht]; exact List.length_replicate)
    (by rw [ht]; intro t ht'; rw [List.eq_of_mem_replicate ht']; exact hinit)
  exact ⟨rs, runTimesteps_ok.mpr ⟨rows, h1, h, hrs⟩⟩

/-- A year on a tank that no listed process uses. -/
def Spec.idleTankRun : RunIn (List ℚ) :=
  { hp := ⟨12, 60, 0⟩, es := sampleBattery, aux := samplePlant.aux,
    tank := toTankI wallTank (fun _ => labNet) 50, exportPrice := 40,
    windUser := List.replicate 8760 14, windData := List.replicate 8760 0, pv := List.replicate 8760 1,
    elecDemand := List.replicate 8760 8, heatDemand := List.replicate 8760 20,
    importPrice := List.replicate 8760 100, perf := List.replicate 8760 ⟨3, 12⟩, setpoint := 80,
    orderAbove := [1, 4, 8, 9, 2, 3, 12, 13], orderBelow := [1, 4, 5, 9, 2, 3] }

example : ∃ rs, runTimesteps Spec.idleTankRun 0 8760 = .ok rs :=
  C27_accepts_unused_store (tk := wallTank) (net := fun _ => labNet) (initial := 50) (lo := 15) (hi := 60) rfl
    { usable := ⟨by norm_num [wallTank, labTank], by norm_num [wallTank, labTank]⟩
      sealed := rfl
      wall := by norm_num [wallTank, labTank]
      insulation := ⟨_, rfl, by norm_num [wallTank, labTank, nodeMass]⟩
      range := by norm_num
      air := fun _ _ => ⟨15, rfl, by norm_num, by norm_num⟩ } (by norm_num)
    ⟨List.length_replicate, List.length_replicate, List.length_replicate, List.length_replicate,
      List.length_replicate, List.length_replicate, List.length_replicate⟩ rfl
    (fun m hm => by
      have : m ∈ [1, 4, 8, 9, 2, 3, 12, 13] := hm
      simp only [List.mem_cons, List.not_mem_nil, or_false] at this
      rcases this with rfl | rfl | rfl | rfl | rfl | rfl | rfl | rfl <;> exact ⟨_, rfl, rfl⟩)
    (fun m hm => by
      have : m ∈ [1, 4, 5, 9, 2, 3] := hm
      simp only [List.mem_cons, List.not_mem_nil, or_false] at this
      rcases this with rfl | rfl | rfl | rfl | rfl | rfl <;> exact ⟨_, rfl, rfl⟩) (le_refl (0 + 8760))

end Verif
