import Verif.Props.Tank
import Verif.Props.Run

/-!
# The real tank inside a fixed order run (C30, C32, C33)
-/

set_option autoImplicit false

namespace Verif
open Spec Tank FixedOrder
variable {N : Type}

/-- Where the node temperatures at the end of an hour come from. -/
theorem step_nodes_from {P : Plant N} {i : StepIn N} {b : Bool} {order : List ℤ} {r : Results N}
    (h : step P i b order = .ok r) : ∃ nodes, r.ts.finalNodesTemp = some nodes ∧
      (P.tank.capacity = 0 ∧ nodes = i.nodes ∨ P.tank.capacity ≠ 0 ∧
        ∃ s th de, P.tank.newNodes i.hour s i.nodes th de = .ok nodes) := by
  simp only [step, except_bind_ok] at h
  obtain ⟨⟨c, r1⟩, hd, hm⟩ := h
  simp only [dispatch, except_bind_ok, except_pure_ok] at hd
  obtain ⟨s, -, nodes, hn, hr⟩ := hd
  obtain ⟨rfl, hr'⟩ := Prod.mk.inj hr
  have h1 : r1.ts.finalNodesTemp = some nodes := by rw [← hr']; rfl
  have h0 : P.tank.capacity = 0 ∧ nodes = i.nodes ∨ P.tank.capacity ≠ 0 ∧
        ∃ s th de, P.tank.newNodes i.hour s i.nodes th de = .ok nodes := by
    unfold tankUpdate at hn
    split_ifs at hn with hc
    · cases hn; exact .inl ⟨hc, rfl⟩
    · exact .inr ⟨hc, _, _, _, hn⟩
  unfold minOutputRule at hm
  dsimp only at hm
  by_cases h2 : r1.hp.heatTotalOutput < minOut P i ∧ r1.hp.heatTotalOutput > minTrigger b
  · simp only [if_pos h2, except_bind_ok] at hm
    obtain ⟨m, -, hm⟩ := hm
    by_cases h3 : minOut P i - r1.hp.heatTotalOutput > m + s.1.tsDischarge - s.1.tsCharge
    · rw [if_pos h3] at hm
      cases b with
      | true =>
        simp only [if_true, hpOffBelow, except_bind_ok] at hm
        obtain ⟨m', -, hm⟩ := hm
        by_cases hc : P.tank.capacity = 0
        · rw [if_pos hc] at hm
          simp only [except_pure_ok] at hm
          subst hm
          exact ⟨nodes, h1, h0⟩
        · rw [if_neg hc] at hm
          simp only [except_bind_ok, except_pure_ok] at hm
          obtain ⟨n', hn', hm⟩ := hm
          subst hm
          exact ⟨n', rfl, .inr ⟨hc, _, _, _, hn'⟩⟩
      | false =>
        simp only [Bool.false_eq_true, if_false, hpOffAbove] at hm
        by_cases hc : P.tank.capacity = 0
        · simp only [if_pos hc, except_bind_ok, except_pure_ok] at hm
          obtain ⟨n', hn, hm⟩ := hm
          cases hn
          subst hm
          exact ⟨nodes, h1, h0⟩
        · simp only [if_neg hc, except_bind_ok, except_pure_ok] at hm
          obtain ⟨n', hn, hm⟩ := hm
          subst hm
          cases hx : P.tank.newNodes i.hour .discharging i.nodes 0 i.heatDemand with
          | error e => rw [hx] at hn; cases hn
          | ok n'' => rw [hx] at hn; cases hn; exact ⟨n'', rfl, .inr ⟨hc, _, _, _, hx⟩⟩
    · rw [if_neg h3] at hm
      simp only [hpRaise] at hm
      by_cases hc : P.tank.capacity = 0
      · rw [if_pos hc] at hm
        simp only [except_pure_ok] at hm
        subst hm
        exact ⟨nodes, h1, h0⟩
      · rw [if_neg hc] at hm
        simp only [except_bind_ok, except_pure_ok] at hm
        obtain ⟨n', hn', hm⟩ := hm
        subst hm
        exact ⟨n', rfl, .inr ⟨hc, _, _, _, hn'⟩⟩
  · rw [if_neg h2] at hm
    cases hm
    exact ⟨nodes, h1, h0⟩

/-- What holds of the initial node temperatures and is kept by the tank holds after every hour. -/
theorem run_nodes_inv {S : RunIn N} {first n : ℕ} {rs : List (Results N)} (I : N → Prop)
    (h0 : I S.tank.initTemps)
    (hstep : S.tank.capacity ≠ 0 → ∀ hour s a th de b, I a → S.tank.newNodes hour s a th de = .ok b → I b)
    (h : runTimesteps S first n = .ok rs) {r : Results N} (hr : r ∈ rs) :
    ∃ nodes, r.ts.finalNodesTemp = some nodes ∧ I nodes := by
  obtain ⟨rows, -, -, h3⟩ := runTimesteps_ok.mp h
  suffices H : ∀ n t a soc rs, I a → runFrom S rows t n a soc = .ok rs → ∀ r ∈ rs,
      ∃ nodes, r.ts.finalNodesTemp = some nodes ∧ I nodes from H _ _ _ _ _ h0 h3 r hr
  intro n
  induction n with
  | zero => intro t a soc rs _ hrun r hr; cases hrun; cases hr
  | succ n ih =>
    intro t a soc rs ha hrun r hr
    simp only [runFrom, except_bind_ok, except_pure_ok] at hrun
    obtain ⟨q, h1, rest, h2, h3⟩ := hrun
    have hq : ∃ nodes, q.ts.finalNodesTemp = some nodes ∧ I nodes := by
      obtain ⟨heat, price, row, perf, gen, wnd, pv, elec, r0, hh⟩ := hourStep_ok.mp h1
      rw [hh.resultEq]
      obtain ⟨nodes, hn, hcase⟩ := step_nodes_from hh.stepEq
      refine ⟨nodes, hn, ?_⟩
      rcases hcase with ⟨-, rfl⟩ | ⟨hc, s, th, de, hnew⟩
      · exact ha
      · exact hstep hc _ _ _ _ _ _ ha hnew
    rw [← h3] at hr
    rcases List.mem_cons.mp hr with rfl | hr
    · exact hq
    · obtain ⟨nodes, hn, hI⟩ := hq
      rw [hn] at h2
      exact ih _ _ _ _ hI h2 r hr

/-- A full-year system with known processes can run any span inside the year if the tank does not raise
on the node temperatures it can get to. -/
theorem C27_accepts_while {S : RunIn N} (hy : FullYear S)
    (hord : (∀ n ∈ S.orderAbove, 1 ≤ n ∧ n ≤ 13) ∧ (∀ n ∈ S.orderBelow, 1 ≤ n ∧ n ≤ 15))
    (I : N → Prop) (h0 : I S.tank.initTemps)
    (htank : ∀ hour s nodes, hour < 8760 → I nodes → ∃ m, S.tank.maxInOut hour s nodes = .ok m)
    (hnew : S.tank.capacity ≠ 0 → ∀ hour s nodes q d, hour < 8760 → I nodes →
      ∃ n, S.tank.newNodes hour s nodes q d = .ok n ∧ I n)
    {first n : ℕ} (h : first + n ≤ 8760) : ∃ rs, runTimesteps S first n = .ok rs := by
  obtain ⟨rows, h1, hl⟩ := rows_accepts hy
  have hfrom : ∀ k t nodes soc, t + k ≤ 8760 → I nodes →
      ∃ rs, runFrom S rows t k nodes soc = .ok rs := by
    intro k
    induction k with
    | zero => intro t nodes soc _ _; exact ⟨[], rfl⟩
    | succ k ih =>
      intro t nodes soc hk hI
      obtain ⟨r, hr⟩ := hour_accepts (soc := soc) hy hord hl (fun s => htank t s nodes (by omega) hI)
        (fun hc s q d => (hnew hc t s nodes q d (by omega) hI).imp fun _ h => h.1) (by omega)
      have hI' : I (r.ts.finalNodesTemp.getD nodes) := by
        obtain ⟨heat, price, row, perf, gen, wnd, pv, elec, r0, hh⟩ := hourStep_ok.mp hr
        rw [hh.resultEq]
        obtain ⟨nodes', hn, hcase⟩ := step_nodes_from hh.stepEq
        have hn' : (complete row gen wnd pv elec heat r0).ts.finalNodesTemp = some nodes' := hn
        rw [hn', Option.getD_some]
        rcases hcase with ⟨-, rfl⟩ | ⟨hc, s, th, de, hnw⟩
        · exact hI
        · obtain ⟨n', hn1, hn2⟩ := hnew hc t s nodes th de (by omega) hI
          cases Except.ok.inj (hn1.symm.trans hnw)
          exact hn2
      obtain ⟨rest, hrest⟩ := ih (t + 1) (r.ts.finalNodesTemp.getD nodes) r.es.finalSoc (by omega) hI'
      refine ⟨r :: rest, ?_⟩
      simp only [runFrom, hr, hrest, bind, Except.bind, pure, Except.pure]
  obtain ⟨rs, hrs⟩ := hfrom n first S.tank.initTemps S.es.initState h h0
  exact ⟨rs, runTimesteps_ok.mpr ⟨rows, h1, h, hrs⟩⟩

example : ∃ rs, runTimesteps Spec.sampleRun 100 200 = .ok rs :=
  C27_accepts_while sampleRun_fullYear ⟨by decide, by decide⟩ (fun _ => True) trivial
    (fun _ _ _ _ _ => ⟨_, rfl⟩) (fun _ _ _ _ _ _ _ _ => ⟨_, rfl, trivial⟩) (by norm_num)

/-- Without a store (capacity 0) the real tank never stops a run. -/
theorem C27_accepts_no_store {S : RunIn (List ℚ)} {tk : Tank} {net : ℕ → NetTemps} {initial : ℚ}
    (ht : S.tank = toTankI tk net initial) (hc : tk.capacity = 0) (hy : FullYear S)
    (hord : (∀ n ∈ S.orderAbove, 1 ≤ n ∧ n ≤ 13) ∧ (∀ n ∈ S.orderBelow, 1 ≤ n ∧ n ≤ 15))
    {first n : ℕ} (h : first + n ≤ 8760) : ∃ rs, runTimesteps S first n = .ok rs := by
  refine C27_accepts_while hy hord (fun a => a.length = tk.number) ?_ ?_ ?_ h
  · rw [ht]
    exact List.length_replicate
  · intro hour s nodes _ hl
    rw [ht]
    dsimp only [toTankI]
    unfold maxEnergy
    rw [if_neg (not_not.mpr hl)]
    split_ifs <;> exact ⟨_, rfl⟩
  · intro h
    rw [ht] at h
    exact absurd hc h

/-- The sample system with the real tank, of capacity zero, runs the whole year. -/
example : ∃ rs, runTimesteps { Spec.sampleRun with
    tank := toTankI ⟨0, 3, "polyurethane", .inside, [], 0, 0⟩ (fun _ => ⟨60, 5, 55, 40⟩) 40 } 0 8760
      = .ok rs :=
  C27_accepts_no_store rfl rfl
    ⟨sampleRun_fullYear.1, sampleRun_fullYear.2, sampleRun_fullYear.3, sampleRun_fullYear.4,
      sampleRun_fullYear.5, sampleRun_fullYear.6, sampleRun_fullYear.7⟩ ⟨by decide, by decide⟩ le_rfl

/-- With the real tank, after every hour of every run the reported node temperatures are sorted from top
to bottom and there are `number_nodes` of them. -/
theorem C30_run_profiles {S : RunIn (List ℚ)} {tk : Tank} {net : ℕ → NetTemps} {initial : ℚ}
    (ht : S.tank = toTankI tk net initial) {first n : ℕ} {rs : List (Results (List ℚ))}
    (h : runTimesteps S first n = .ok rs) {r : Results (List ℚ)} (hr : r ∈ rs) :
    ∃ nodes, r.ts.finalNodesTemp = some nodes ∧ Stratified nodes ∧ nodes.length = tk.number := by
  refine run_nodes_inv (fun a => Stratified a ∧ a.length = tk.number) ?_ ?_ h hr
  · rw [ht]
    exact ⟨List.pairwise_replicate_of_refl, by simp [toTankI, initTemps]⟩
  · rw [ht]
    intro _ hour s a th de b ha hnew
    simp only [toTankI] at hnew
    split at hnew
    · cases hnew
    · rename_i out hout
      cases out with
      | flat xs => cases hnew
      | profiles ps =>
        obtain ⟨_, _, hall, p, hp, hlast⟩ := C30_profiles_sorted hout
        obtain ⟨h1, h2⟩ := hall p hp
        rw [hlast] at hnew
        cases hnew
        exact ⟨h1, by rw [h2]; exact ha.2⟩

/-- Three hours with the real tank: surplus wind is stored as heat and drawn later. -/
def Spec.realTankRun : RunIn (List ℚ) :=
  { hp := samplePlant.hp, es := sampleBattery, aux := samplePlant.aux,
    tank := toTankI wallTank (fun _ => labNet) 50, exportPrice := 40,
    windUser := [14, 4, 4], windData := [0, 0, 0], pv := [1, 1, 1],
    elecDemand := [1, 8, 8], heatDemand := [4, 14, 20], importPrice := [100, 100, 100],
    perf := [⟨3, 12⟩, ⟨3, 12⟩, ⟨3, 12⟩], setpoint := 80,
    orderAbove := [1, 4, 10, 2, 3, 6, 7, 8, 9, 12, 13],
    orderBelow := [1, 2, 3, 4, 5, 6, 7, 8, 9, 10, 11, 12, 13, 14, 15] }

/-- The loop of the run on these three hours: heat is stored in the first and drawn in the second. -/
example : ∃ rs, runFrom Spec.realTankRun
    [Tools.splitHourFixed 15 1, Tools.splitHourFixed 5 8, Tools.splitHourFixed 5 8]
    0 3 [50, 50, 50] 0 = .ok rs ∧ rs.map (fun r : Results (List ℚ) =>
      decide (0 < r.ts.chargingTotal)) = [true, false, false] ∧
    rs.map (fun r : Results (List ℚ) => decide (0 < r.ts.dischargingTotal)) = [false, true, false] :=
  exists_of_checks (by decide +kernel)

/-- With capacity 0, whatever the tank, the node temperatures never change during a run. -/
theorem C32_run_unchanged {S : RunIn N} (hc : S.tank.capacity = 0) {first n : ℕ}
    {rs : List (Results N)} (h : runTimesteps S first n = .ok rs) {r : Results N} (hr : r ∈ rs) :
    r.ts.finalNodesTemp = some S.tank.initTemps := by
  obtain ⟨nodes, hn, rfl⟩ := run_nodes_inv (fun a => a = S.tank.initTemps) rfl
    (fun hne => absurd hc hne) h hr
  exact hn

example : ∃ rs, runTimesteps { Spec.sampleRun with
      tank := toTankI ⟨0, 3, "polyurethane", .inside, [], 0, 0⟩ (fun _ => ⟨60, 5, 55, 40⟩) 40 } 0 8760 = .ok rs ∧
    ∀ r ∈ rs, r.ts.finalNodesTemp = some [40, 40, 40] := by
  obtain ⟨rs, h⟩ := C27_accepts_no_store (S := { Spec.sampleRun with
      tank := toTankI ⟨0, 3, "polyurethane", .inside, [], 0, 0⟩ (fun _ => ⟨60, 5, 55, 40⟩) 40 }) rfl rfl
    ⟨sampleRun_fullYear.1, sampleRun_fullYear.2, sampleRun_fullYear.3, sampleRun_fullYear.4,
      sampleRun_fullYear.5, sampleRun_fullYear.6, sampleRun_fullYear.7⟩ ⟨by decide, by decide⟩ (le_refl (0 + 8760))
  exact ⟨rs, h, fun r hr => C32_run_unchanged rfl h hr⟩

/-- The real tank meets the assumption the theorems about runs make: its offer is never negative, if at
every hour the return is not hotter than the flow. -/
theorem C33_real_tank_offers {tk : Tank} (hc : 0 ≤ tk.capacity) {net : ℕ → NetTemps}
    (hnet : ∀ hour, (net hour).ret ≤ (net hour).flow) (initial : ℚ) (hour : ℕ) (s : TankState)
    (nodes : List ℚ) (m : ℚ) (h : (toTankI tk net initial).maxInOut hour s nodes = .ok m) :
    0 ≤ m := C33_nonneg hc (hnet hour) h

example : ∃ m, (toTankI wallTank (fun _ => labNet) 50).maxInOut 0 .discharging [58, 50, 40] = .ok m ∧ 0 ≤ m := by
  obtain ⟨m, h, -⟩ : ∃ m, (toTankI wallTank (fun _ => labNet) 50).maxInOut 0 .discharging [58, 50, 40] = .ok m ∧ True :=
    exists_of_checks (by decide +kernel)
  exact ⟨m, h, C33_real_tank_offers (by norm_num [wallTank, labTank]) (fun _ => by norm_num [labNet]) _ _ _ _ _ h⟩

end Verif
