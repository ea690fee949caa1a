import Verif.Lemmas.TankSolver
import Verif.Props.Tank
import Verif.Props.TankRun
import Verif.Props.StoreServes

/-!
# The hot water tank with an integrator that is not exact (C128)
-/

set_option autoImplicit false

namespace Verif
open Spec Tank FixedOrder

/-- With an exact integrator this is the tank of the other properties, for the controllers as well. -/
theorem C128_exact (tk : Tank) (net : ℕ → NetTemps) (initial : ℚ) :
    toTankIWith exactSolver tk net initial = toTankI tk net initial := by
  have h1 : ∀ hour state (n : NetTemps) nodes th de,
      newNodesTempWith exactSolver tk hour state n nodes th de = newNodesTemp tk hour state n nodes th de := by
    intro hour state n nodes th de
    unfold newNodesTempWith newNodesTemp
    split_ifs with h1 <;> try rfl
    cases massFlow state n th de (temp nodes (tk.number - 1)) (temp nodes 0) with
    | error e => rfl
    | ok mf =>
      dsimp only
      rw [profilesWith_exact _ _ (by simpa using h1)]
      split <;> rename_i h <;> rw [h]
  have h2 : ∀ hour state (n : NetTemps) nodes,
      maxEnergyWith exactSolver tk hour state n nodes = maxEnergy tk hour state n nodes := by
    intro hour state n nodes
    unfold maxEnergyWith maxEnergy
    split_ifs with h1 <;> try rfl
    cases env tk hour nodes with
    | error e => rfl
    | ok x =>
      dsimp only
      cases specificHeat n.source with
      | error e => rfl
      | ok cp =>
        dsimp only
        rw [energyLoopWith_exact _ _ (by simpa using h1)]
        cases energyLoop tk hour state n cp (tk.number - 1) nodes <;> rfl
  unfold toTankIWith toTankI
  simp only [h1, h2]
  congr 1

/-- The exact integrator is one of those the rest is about. -/
theorem C128_exact_accurate : AccurateTo 0 exactSolver := by
  refine ⟨fun start rates h => by simp [exactSolver, h], fun start rates _ i h h' h'' => ?_⟩
  simp [exactSolver]

/-- So are integrators with an error. -/
theorem C128_low_accurate {ε : ℚ} (h : 0 ≤ ε) : AccurateTo ε (lowBy ε) := by
  refine ⟨fun start rates h => by simp [lowBy, exactSolver, h], fun start rates _ i _ _ _ => ?_⟩
  simp [lowBy, exactSolver, abs_of_nonneg h]

/-- However bad the integrator, as long as it returns as many temperatures as it is given: every profile is sorted from
top to bottom and has all its layers, and there are between one profile and one for each layer. -/
theorem C128_profiles_sorted {ode : Solver} (ho : KeepsNumber ode) {tk : Tank} {hour : ℕ} {state : TankState}
    {net : NetTemps} {nodes : List ℚ} {thermal demand : ℚ} {ps : List (List ℚ)}
    (h : newNodesTempWith ode tk hour state net nodes thermal demand = .ok (.profiles ps)) :
    1 ≤ ps.length ∧ ps.length ≤ tk.number ∧ ∀ p ∈ ps, Stratified p ∧ p.length = tk.number := by
  obtain ⟨hl, -, hn, mf, -, hp⟩ := newNodesTempWith_profiles h
  obtain ⟨h1, h2⟩ := stepCount_range hn (mf * 3600)
  obtain ⟨e, hI⟩ := profilesWith_all (fun k a => a.length = tk.number ∧ (0 < k → Stratified a))
    (fun k a b ha hab => by
      obtain ⟨q1, q2⟩ := internalStepWith_shape ho ha.1 hab
      exact ⟨q2, fun _ => q1⟩) _ 0 _ _ ⟨hl, fun h => absurd h (lt_irrefl 0)⟩ hp
  refine ⟨by omega, by omega, fun p hp' => ?_⟩
  obtain ⟨j, hj, rfl⟩ := List.getElem_of_mem hp'
  exact ⟨(hI j hj).2 (by omega), (hI j hj).1⟩

/-- So after every hour of every run the layers are ordered and none is lost. -/
theorem C128_run_sorted {ode : Solver} (ho : KeepsNumber ode) {S : RunIn (List ℚ)} {tk : Tank} {net : ℕ → NetTemps}
    {initial : ℚ} (ht : S.tank = toTankIWith ode tk net initial) {first n : ℕ} {rs : List (Results (List ℚ))}
    (h : runTimesteps S first n = .ok rs) {r : Results (List ℚ)} (hr : r ∈ rs) :
    ∃ nodes, r.ts.finalNodesTemp = some nodes ∧ Stratified nodes ∧ nodes.length = tk.number := by
  refine run_nodes_inv (fun a => Stratified a ∧ a.length = tk.number) ?_ ?_ h hr
  · rw [ht]
    exact ⟨List.pairwise_replicate_of_refl, by simp [toTankIWith, initTemps]⟩
  · rw [ht]
    intro _ hour s a th de b ha hnew
    simp only [toTankIWith] at hnew
    split at hnew
    · cases hnew
    · rename_i out hout
      cases out with
      | flat xs => cases hnew
      | profiles ps =>
        have := (C128_profiles_sorted ho hout).2.2
        simp only [lastProfile] at hnew
        split at hnew
        · rename_i p hp
          cases hnew
          exact this _ (List.mem_of_getLast? hp)
        · cases hnew

/-- A year with a store in use. -/
example : ∃ rs, runTimesteps servedRun 0 8760 = .ok rs ∧ ∀ r ∈ rs,
    ∃ nodes, r.ts.finalNodesTemp = some nodes ∧ Stratified nodes ∧ nodes.length = bigStore.number := by
  obtain ⟨rs, h, -⟩ := servedRun_ends
  exact ⟨rs, h, fun r hr => C128_run_sorted C128_exact_accurate.1 (C128_exact bigStore (fun _ => labNet) 40).symm h hr⟩

/-- One pass: from the same temperatures, the layers end within `ε` of where an exact integrator puts them. That they are
sorted in between adds nothing to the error. -/
theorem C128_pass_close {ε : ℚ} {ode : Solver} (ho : AccurateTo ε ode) {tk : Tank} {hour : ℕ} {state : TankState}
    {net : NetTemps} {thermal demand : ℚ} {nodes new : List ℚ} (hl : nodes.length = tk.number)
    (h : internalStepWith ode tk hour state net thermal demand nodes = .ok new) :
    ∃ new', internalStep tk hour state net thermal demand nodes = .ok new' ∧ Close ε new new' :=
  internalStepWith_close ho hl h

/-- Discharging without losses: after `j + 1` passes no layer is more than `(j + 1) ε` outside any bounds on the
temperatures at the start and of the return. -/
theorem C128_discharging_range {ε : ℚ} (hε : 0 ≤ ε) {ode : Solver} (ho : AccurateTo ε ode) {tk : Tank}
    (hu : UsableTank tk) (hll : Lossless tk) {hour : ℕ} {net : NetTemps} {nodes : List ℚ} {thermal demand lo hi : ℚ}
    {ps : List (List ℚ)} (hs : Stratified nodes) (hw : Within lo hi nodes) (hret : lo ≤ net.ret ∧ net.ret ≤ hi)
    (h : newNodesTempWith ode tk hour .discharging net nodes thermal demand = .ok (.profiles ps)) :
    ∀ j (hj : j < ps.length), Within (lo - (j + 1) * ε) (hi + (j + 1) * ε) ps[j] := by
  obtain ⟨hl, -, hn, mf, -, hp⟩ := newNodesTempWith_profiles h
  obtain ⟨-, hI⟩ := profilesWith_all
    (fun k a => (Stratified a ∧ a.length = tk.number) ∧ Within (lo - k * ε) (hi + k * ε) a)
    (fun k a b ha hab => by
      refine ⟨internalStepWith_shape ho.1 ha.1.2 hab, ?_⟩
      obtain ⟨b', hb', hc⟩ := internalStepWith_close ho ha.1.2 hab
      have hk : (0 : ℚ) ≤ k * ε := mul_nonneg (Nat.cast_nonneg _) hε
      have := close_within hc (C31_discharging_step hu hll ha.1.1 ha.1.2 ha.2
        ⟨by linarith [hret.1], by linarith [hret.2]⟩ hb')
      intro t ht
      obtain ⟨h1, h2⟩ := this t ht
      push_cast
      exact ⟨by linarith, by linarith⟩) _ 0 _ _ ⟨⟨hs, hl⟩, by simpa using hw⟩ hp
  intro j hj
  simpa using (hI j hj).2

/-- Discharging without losses: what leaves the tank in a pass is the heat drawn up to `ε` in each layer. -/
theorem C128_discharging_heat {ε : ℚ} {ode : Solver} (ho : AccurateTo ε ode) {tk : Tank} (hu : UsableTank tk)
    (hll : Lossless tk) {hour : ℕ} {net : NetTemps} {nodes new : List ℚ} {thermal demand cpS cpF : ℚ}
    (hs : Stratified nodes) (hl : nodes.length = tk.number) (hflow : net.flow ≤ temp nodes 0)
    (hret : net.ret < temp nodes 0) (hcs : specificHeat net.source = .ok cpS) (hcf : specificHeat net.flow = .ok cpF)
    (hneed : thermal / (cpS / 1000) ≤ demand / (cpF / 1000))
    (hfit : demand / (cpF / 1000) - thermal / (cpS / 1000) ≤ tk.nodeMass * (temp nodes 0 - net.ret))
    (h : internalStepWith ode tk hour .discharging net thermal demand nodes = .ok new) :
    |tk.nodeMass * (nodes.sum - new.sum) - (demand / (cpF / 1000) - thermal / (cpS / 1000))| ≤ tk.capacity * ε := by
  obtain ⟨new', h', hc⟩ := internalStepWith_close ho hl h
  have e := C66_discharging hu hll hs hl hflow hret hcs hcf hneed hfit h'
  have hd := close_sum hc
  have hM := nodeMass_pos hu
  rw [(internalStep_shape h').2] at hd
  have : tk.nodeMass * (nodes.sum - new.sum) - (demand / (cpF / 1000) - thermal / (cpS / 1000)) =
      tk.nodeMass * -(new.sum - new'.sum) := by rw [← e]; ring
  rw [this, abs_mul, abs_neg, abs_of_pos hM]
  refine (mul_le_mul_of_nonneg_left hd hM.le).trans (le_of_eq ?_)
  have hn : (tk.number : ℚ) ≠ 0 := by have := hu.2; positivity
  unfold nodeMass
  field_simp

/-- Charging likewise, without a layer exactly at the source temperature. -/
theorem C128_charging_heat_partial {ε : ℚ} {ode : Solver} (ho : AccurateTo ε ode) {tk : Tank} (hu : UsableTank tk)
    (hll : Lossless tk) {hour : ℕ} {net : NetTemps} {nodes new : List ℚ} {thermal demand cpS cpF : ℚ}
    (hs : Stratified nodes) (hl : nodes.length = tk.number) (htie : net.source ∉ nodes)
    (hbot : temp nodes (tk.number - 1) < net.source) (hcs : specificHeat net.source = .ok cpS)
    (hcf : specificHeat net.flow = .ok cpF)
    (hfit : thermal / (cpS / 1000) - demand / (cpF / 1000) ≤ tk.nodeMass * (net.source - temp nodes (tk.number - 1)))
    (h : internalStepWith ode tk hour .charging net thermal demand nodes = .ok new) :
    |tk.nodeMass * (new.sum - nodes.sum) - (thermal / (cpS / 1000) - demand / (cpF / 1000))| ≤ tk.capacity * ε := by
  obtain ⟨new', h', hc⟩ := internalStepWith_close ho hl h
  have e := C66_charging_partial hu hll hs hl htie hbot hcs hcf hfit h'
  have hd := close_sum hc
  have hM := nodeMass_pos hu
  rw [(internalStep_shape h').2] at hd
  have : tk.nodeMass * (new.sum - nodes.sum) - (thermal / (cpS / 1000) - demand / (cpF / 1000)) =
      tk.nodeMass * (new.sum - new'.sum) := by rw [← e]; ring
  rw [this, abs_mul, abs_of_pos hM]
  refine (mul_le_mul_of_nonneg_left hd hM.le).trans (le_of_eq ?_)
  have hn : (tk.number : ℚ) ≠ 0 := by have := hu.2; positivity
  unfold nodeMass
  field_simp

/-! ### Cases -/

/-- A tank drawn from with an integrator that is a thousandth of a degree low. -/
example : ∃ ps, newNodesTempWith (lowBy (1 / 1000)) labTank 0 .discharging labNet [58, 50, 40] 0 2 = .ok (.profiles ps) ∧
    (∀ p ∈ ps, Stratified p ∧ p.length = 3) ∧
    ∀ j (hj : j < ps.length), Within (40 - (j + 1) * (1 / 1000)) (58 + (j + 1) * (1 / 1000)) ps[j] := by
  obtain ⟨out, h, e⟩ : ∃ out, newNodesTempWith (lowBy (1 / 1000)) labTank 0 .discharging labNet [58, 50, 40] 0 2 = .ok out ∧
    out = .profiles [[42146 / 837 - 1 / 1000, 33850 / 837 - 1 / 1000, 40 - 1 / 1000]] := exists_of_checks (by decide +kernel)
  rw [e] at h
  exact ⟨_, h, (C128_profiles_sorted (C128_low_accurate (by norm_num)).1 h).2.2,
    C128_discharging_range (by norm_num) (C128_low_accurate (by norm_num)) ⟨by norm_num [labTank], by norm_num [labTank]⟩
      ⟨rfl, rfl⟩ (by unfold Stratified; decide +kernel) (by unfold Within; decide +kernel) (by norm_num [labNet]) h⟩

example : ∃ new, internalStepWith (lowBy (1 / 1000)) labTank 0 .discharging labNet 0 4185 [58, 50, 40] = .ok new ∧
    |labTank.nodeMass * (148 - new.sum) - 1000| ≤ 3 / 10 := by
  obtain ⟨new, h, -⟩ : ∃ new, internalStepWith (lowBy (1 / 1000)) labTank 0 .discharging labNet 0 4185 [58, 50, 40] = .ok new ∧
    True := exists_of_checks (by decide +kernel)
  have := C128_discharging_heat (C128_low_accurate (by norm_num)) ⟨by norm_num [labTank], by norm_num [labTank]⟩ ⟨rfl, rfl⟩
    (by unfold Stratified; decide +kernel) rfl (by decide +kernel) (by decide +kernel)
    (show specificHeat labNet.source = .ok 4185 by decide +kernel) (show specificHeat labNet.flow = .ok 4185 by decide +kernel)
    (by norm_num) (by decide +kernel) h
  refine ⟨new, h, ?_⟩
  norm_num [labTank] at this ⊢
  linarith

example : ∃ new, internalStepWith (lowBy (1 / 1000)) labTank 0 .charging labNet 4185 0 [50, 45, 40] = .ok new ∧
    |labTank.nodeMass * (new.sum - 135) - 1000| ≤ 3 / 10 := by
  obtain ⟨new, h, -⟩ : ∃ new, internalStepWith (lowBy (1 / 1000)) labTank 0 .charging labNet 4185 0 [50, 45, 40] = .ok new ∧
    True := exists_of_checks (by decide +kernel)
  have := C128_charging_heat_partial (C128_low_accurate (by norm_num)) ⟨by norm_num [labTank], by norm_num [labTank]⟩
    ⟨rfl, rfl⟩ (by unfold Stratified; decide +kernel) rfl (by decide +kernel) (by decide +kernel)
    (show specificHeat labNet.source = .ok 4185 by decide +kernel) (show specificHeat labNet.flow = .ok 4185 by decide +kernel)
    (by decide +kernel) h
  refine ⟨new, h, ?_⟩
  norm_num [labTank] at this ⊢
  linarith

/-! ### Ties -/

theorem lowBy_step {ε : ℚ} {tk : Tank} {hour : ℕ} {state : TankState} {net : NetTemps} {th de : ℚ} {nodes b : List ℚ}
    (hl : nodes.length = tk.number) (h : internalStep tk hour state net th de nodes = .ok b) :
    internalStepWith (lowBy ε) tk hour state net th de nodes = .ok (b.map (· - ε)) := by
  rw [← internalStepWith_exact hl] at h
  obtain ⟨m1, cs, k, amb, hm, he, h1, rfl⟩ := internalStepWith_ok h
  unfold internalStepWith eulerWith lowBy
  rw [hm]
  dsimp only
  rw [he]
  dsimp only
  rw [if_neg h1]
  simp only [sub_eq_add_neg]
  rw [sortDown_shift]

theorem tie_second {ε : ℚ} (h0 : 0 < ε) (h1 : ε ≤ 1) :
    ∃ b, internalStep labTank 0 .charging labNet 8370 0 [60 - ε, 40 - ε, 40 - ε] = .ok b ∧ Within (40 - ε) 60 b := by
  have hne : labNet.source - temp [60 - ε, 40 - ε, 40 - ε] (labTank.number - 1) ≠ 0 := by
    have : labNet.source - temp [60 - ε, 40 - ε, 40 - ε] (labTank.number - 1) = 20 + ε := by
      simp [labNet, labTank, temp]; ring
    rw [this]; linarith
  have hs : sourceMass labNet 8370 = .ok 200 := by decide +kernel
  have hd : networkMass labNet 0 = .ok 0 := by decide +kernel
  have hm : massFlow .charging labNet 8370 0 (temp [60 - ε, 40 - ε, 40 - ε] (labTank.number - 1))
      (temp [60 - ε, 40 - ε, 40 - ε] 0) = .ok (2000 / (20 + ε)) := by
    unfold massFlow
    dsimp only
    rw [hs]
    dsimp only
    rw [hd]
    dsimp only
    unfold safeDiv
    rw [if_neg hne]
    simp [labNet, labTank, temp]
    norm_num
    congr 1
    ring
  obtain ⟨c1, e1⟩ := specificHeat_ok (t := 60 - ε) (by linarith) (by linarith)
  obtain ⟨c2, e2⟩ := specificHeat_ok (t := 40 - ε) (by linarith) (by linarith)
  have he : env labTank 0 [60 - ε, 40 - ε, 40 - ε] = .ok ([c1, c2, c2], 25 / 1000 * 3600, 15) := by
    simp only [env, cps, e1, e2]
    rfl
  have hb : ∃ b, internalStep labTank 0 .charging labNet 8370 0 [60 - ε, 40 - ε, 40 - ε] = .ok b := by
    unfold internalStep
    rw [hm]
    dsimp only
    rw [he]
    exact ⟨_, rfl⟩
  obtain ⟨b, hb⟩ := hb
  refine ⟨b, hb, C31_charging_step_partial ⟨by norm_num [labTank], by norm_num [labTank]⟩ ⟨rfl, rfl⟩ ?_ rfl ?_ ?_ ?_ ?_ hm
    (by positivity) hb⟩
  · norm_num [Stratified]
  · intro t ht
    simp only [List.mem_cons, List.not_mem_nil, or_false] at ht
    rcases ht with rfl | rfl | rfl <;> constructor <;> linarith
  · norm_num [labNet]; linarith
  · simp only [List.mem_cons, List.not_mem_nil, or_false, labNet, not_or]
    refine ⟨?_, ?_, ?_⟩ <;> intro h <;> linarith
  · simp [labNet, labTank, temp]; linarith

/-- **At a tie the smallest error decides.** A cold tank that takes all the heat it offers to take ends at 120 degrees,
twice the temperature of the source, if the integrator is exact: the first pass brings the top exactly to the source
temperature. If the integrator errs by any amount on the low side, however small, no layer gets warmer than the source. -/
theorem C128_tie {ε : ℚ} (h0 : 0 < ε) (h1 : ε ≤ 1) :
    AccurateTo ε (lowBy ε) ∧
    (∃ p q, newNodesTempWith exactSolver labTank 0 .charging labNet [40, 40, 40] (465 / 100) 0 = .ok (.profiles [p, q]) ∧
      temp q 0 = 120) ∧
    ∃ p q, newNodesTempWith (lowBy ε) labTank 0 .charging labNet [40, 40, 40] (465 / 100) 0 = .ok (.profiles [p, q]) ∧
      Within (40 - 2 * ε) 60 q := by
  refine ⟨C128_low_accurate h0.le, ?_, ?_⟩
  · obtain ⟨out, h, e⟩ : ∃ out, newNodesTempWith exactSolver labTank 0 .charging labNet [40, 40, 40] (465 / 100) 0 = .ok out ∧
      out = .profiles [[60, 40, 40], [120, 60, 40]] := exists_of_checks (by decide +kernel)
    exact ⟨_, _, e ▸ h, rfl⟩
  · obtain ⟨b, hb, hw⟩ := tie_second h0 h1
    have hm : massFlow .charging labNet (465 / 100) 0 (temp [40, 40, 40] (labTank.number - 1)) (temp [40, 40, 40] 0) =
        .ok (1 / 18) := by decide +kernel
    have ht : stepCount labTank (1 / 18 * 3600) = 2 := by decide +kernel
    have hf : internalStep labTank 0 .charging labNet 8370 0 [40, 40, 40] = .ok [60, 40, 40] := by decide +kernel
    refine ⟨[60 - ε, 40 - ε, 40 - ε], b.map (· - ε), ?_, ?_⟩
    · unfold newNodesTempWith
      rw [if_neg (by decide), if_neg (by norm_num [labTank]), if_neg (by decide +kernel), if_neg (by decide), hm]
      dsimp only
      rw [ht]
      norm_num only
      unfold profilesWith
      rw [lowBy_step rfl hf]
      dsimp only [List.map]
      unfold profilesWith
      rw [lowBy_step rfl hb]
      rfl
    · intro t ht
      obtain ⟨u, hu, rfl⟩ := List.mem_map.mp ht
      obtain ⟨q1, q2⟩ := hw u hu
      exact ⟨by linarith, by linarith⟩

/-- A billionth of a degree. -/
example : ∃ p q, newNodesTempWith (lowBy (1 / 10 ^ 9)) labTank 0 .charging labNet [40, 40, 40] (465 / 100) 0 =
    .ok (.profiles [p, q]) ∧ Within (40 - 2 * (1 / 10 ^ 9)) 60 q := (C128_tie (by norm_num) (by norm_num)).2.2

end Verif
