import Mathlib.Data.List.GetD
import Verif.Lemmas.Tank

/-!
# Properties of the hot water tank (C30-C35, C66)
-/

set_option autoImplicit false

namespace Verif
open Spec Tank

/-! ### C30: sorted, same length, number of internal steps -/

/-- Every profile returned by `new_nodes_temp` is sorted from top to bottom and has `number_nodes`
temperatures; there are between 1 and `number_nodes` of them; and the last one is what the controllers use. -/
theorem C30_profiles_sorted {tk : Tank} {hour : ℕ} {state : TankState} {net : NetTemps}
    {nodes : List ℚ} {thermal demand : ℚ} {ps : List (List ℚ)}
    (h : newNodesTemp tk hour state net nodes thermal demand = .ok (.profiles ps)) :
    1 ≤ ps.length ∧ ps.length ≤ tk.number ∧
      (∀ p ∈ ps, Stratified p ∧ p.length = nodes.length) ∧
      ∃ p ∈ ps, lastProfile (.profiles ps) = .ok p := by
  obtain ⟨hl, _, hn, _, mf, _, hp⟩ := newNodesTemp_profiles h
  obtain ⟨h1, h2⟩ := stepCount_range hn (mf * 3600)
  generalize stepCount tk (mf * 3600) = t at h1 h2 hp
  cases t with
  | zero => omega
  | succ t =>
    unfold profiles at hp
    split at hp
    · cases hp
    · rename_i new hnew
      split at hp
      · cases hp
      · rename_i rest hr
        cases hp
        obtain ⟨h3, h4⟩ := profiles_all (fun p => Stratified p ∧ p.length = tk.number)
          (fun a b _ hab => internalStep_shape hab) t new rest (internalStep_shape hnew) hr
        have hall : ∀ p ∈ new :: rest, Stratified p ∧ p.length = nodes.length := by
          intro p hp
          rw [hl]
          rcases List.mem_cons.1 hp with h5 | h5
          · rw [h5]; exact internalStep_shape hnew
          · exact h4 p h5
        refine ⟨by simp, by simp; omega, hall, ?_⟩
        refine ⟨(new :: rest).getLast (by simp), List.getLast_mem _, ?_⟩
        have hlast : (new :: rest).getLast? = some ((new :: rest).getLast (by simp)) :=
          List.getLast?_eq_getLast_of_ne_nil _
        simp only [lastProfile, hlast]

example : ∃ ps, newNodesTemp labTank 0 .discharging labNet [58, 50, 40] 0 2 = .ok (.profiles ps) ∧
    ∀ p ∈ ps, Stratified p ∧ p.length = 3 := by
  obtain ⟨out, h, rfl⟩ : ∃ out, newNodesTemp labTank 0 .discharging labNet [58, 50, 40] 0 2 = .ok out ∧
    out = .profiles [[42146 / 837, 33850 / 837, 40]] := exists_of_checks (by decide +kernel)
  exact ⟨_, h, (C30_profiles_sorted h).2.2.1⟩

/-- With a usable tank, unless a tank whose mean is exactly the source temperature is being charged,
every successful call returns such profiles. -/
theorem C30_returns_profiles {tk : Tank} (hu : UsableTank tk) {hour : ℕ} {state : TankState}
    {net : NetTemps} {nodes : List ℚ} {thermal demand : ℚ} {out : NodesOut}
    (hmean : ¬ (nodes.sum = net.source * nodes.length ∧ state = .charging))
    (h : newNodesTemp tk hour state net nodes thermal demand = .ok out) :
    ∃ ps, out = .profiles ps := by
  unfold newNodesTemp at h
  have hc : tk.capacity ≠ 0 := ne_of_gt hu.1
  split_ifs at h
  split at h
  · cases h
  · dsimp only at h
    split at h
    · cases h
    · cases h; exact ⟨_, rfl⟩

example {out : NodesOut} (h : newNodesTemp labTank 0 .discharging labNet [58, 50, 40] 0 2 = .ok out) :
    ∃ ps, out = .profiles ps :=
  C30_returns_profiles ⟨by norm_num [labTank], by norm_num [labTank]⟩ (by rintro ⟨-, h⟩; cases h) h

/-- The exception, against the claim: charging a tank whose mean is exactly the source temperature
returns a flat list of `n * n` numbers, and what the controllers take from it is not a profile. -/
theorem C30_full_tank_flat {tk : Tank} (hu : UsableTank tk) {hour : ℕ} {net : NetTemps}
    {nodes : List ℚ} {thermal demand : ℚ} (hl : nodes.length = tk.number)
    (hmean : nodes.sum = net.source * nodes.length) :
    ∃ xs, newNodesTemp tk hour .charging net nodes thermal demand = .ok (.flat xs) ∧
      xs.length = nodes.length * nodes.length ∧ lastProfile (.flat xs) = .error .typeError := by
  refine ⟨(List.replicate nodes.length nodes).flatten, ?_, by simp, rfl⟩
  unfold newNodesTemp
  rw [if_neg (by simpa using hl), if_neg (ne_of_gt hu.1), if_pos ⟨hmean, rfl⟩]

example : ∃ xs, newNodesTemp labTank 0 .charging labNet [60, 60, 60] 5 0 = .ok (.flat xs) ∧ xs.length = 3 * 3 := by
  obtain ⟨xs, h1, h2, -⟩ := C30_full_tank_flat (tk := labTank) (hour := 0) (net := labNet) (nodes := [60, 60, 60])
    (thermal := 5) (demand := 0) ⟨by norm_num [labTank], by norm_num [labTank]⟩ rfl (by norm_num [labNet])
  exact ⟨xs, h1, h2⟩

/-- A single node never works: each call that gets as far as the integration raises. -/
theorem C30_single_node_fails {tk : Tank} (hn : tk.number = 1) {hour : ℕ}
    {state : TankState} {net : NetTemps} {nodes : List ℚ} {thermal demand : ℚ} {ps : List (List ℚ)} :
    newNodesTemp tk hour state net nodes thermal demand ≠ .ok (.profiles ps) := by
  intro h
  obtain ⟨_, _, hn1, _, mf, _, hp⟩ := newNodesTemp_profiles h
  obtain ⟨h1, h2⟩ := stepCount_range hn1 (mf * 3600)
  generalize stepCount tk (mf * 3600) = t at h1 h2 hp
  cases t with
  | zero => omega
  | succ t =>
    unfold profiles at hp
    split at hp
    · cases hp
    · rename_i new hnew
      exact internalStep_number hnew hn

example : ∃ out, newNodesTemp labTank 0 .discharging labNet [58, 50, 40] 0 2 = .ok out ∧
    out = .profiles [[42146 / 837, 33850 / 837, 40]] := exists_of_checks (by decide +kernel)

example : UsableTank labTank ∧ ([60, 60, 60] : List ℚ).length = labTank.number ∧
    ([60, 60, 60] : List ℚ).sum = labNet.source * (([60, 60, 60] : List ℚ).length : ℕ) :=
  ⟨⟨by norm_num [labTank], by norm_num [labTank]⟩, rfl, by norm_num [labNet]⟩

/-! ### C31: no node leaves the range of what is mixed -/

/-- Discharging, in full: one internal step from a stratified profile keeps every node between any
bounds on the previous temperatures and the return temperature. -/
theorem C31_discharging_step {tk : Tank} (hu : UsableTank tk) (hll : Lossless tk) {hour : ℕ}
    {net : NetTemps} {nodes new : List ℚ} {thermal demand lo hi : ℚ} (hs : Stratified nodes)
    (hl : nodes.length = tk.number) (hw : Within lo hi nodes) (hret : lo ≤ net.ret ∧ net.ret ≤ hi)
    (h : internalStep tk hour .discharging net thermal demand nodes = .ok new) :
    Within lo hi new := by
  obtain ⟨m1, cs, k, amb, hm, hcs, _, _, rfl⟩ := internalStep_ok h
  have hr := ratio_range (nodeMass_pos hu) (massFlow_discharging_nonneg hm)
  intro t ht
  obtain ⟨i, hi, rfl⟩ := map_range_mem (mem_sortDown.1 ht)
  rw [slope_eq hu _ _ _ _ _ (cps_pos hcs (by omega)), lossTerm_lossless hll,
    flow_discharging hu net (fun j hj => dischargeFlag_strat hs (by omega)) hi]
  have hti := hw _ (temp_mem (show i < nodes.length by omega))
  dsimp only
  split_ifs with h1 h2
  · exact convex_bounds hr.1 hr.2 hti hret
  · exact convex_bounds hr.1 hr.2 hti (hw _ (temp_mem (by omega)))
  · simpa using hti

example : ∃ new, internalStep labTank 0 .discharging labNet 0 2 [58, 50, 40] = .ok new ∧ Within 40 60 new := by
  obtain ⟨new, h, -⟩ : ∃ new, internalStep labTank 0 .discharging labNet 0 2 [58, 50, 40] = .ok new ∧ True :=
    exists_of_checks (by decide +kernel)
  exact ⟨new, h, C31_discharging_step ⟨by norm_num [labTank], by norm_num [labTank]⟩ ⟨rfl, rfl⟩
    (by unfold Stratified; decide +kernel) rfl (by unfold Within; decide +kernel) (by norm_num [labNet]) h⟩

/-- Discharging, the whole call: every returned profile stays within the bounds. -/
theorem C31_discharging_call {tk : Tank} (hu : UsableTank tk) (hll : Lossless tk) {hour : ℕ}
    {net : NetTemps} {nodes : List ℚ} {thermal demand lo hi : ℚ} {ps : List (List ℚ)}
    (hs : Stratified nodes) (hw : Within lo hi nodes) (hret : lo ≤ net.ret ∧ net.ret ≤ hi)
    (h : newNodesTemp tk hour .discharging net nodes thermal demand = .ok (.profiles ps)) :
    ∀ p ∈ ps, Within lo hi p := by
  obtain ⟨hl, _, _, _, mf, _, hp⟩ := newNodesTemp_profiles h
  intro p hp'
  exact ((profiles_all (fun p => (Stratified p ∧ p.length = tk.number) ∧ Within lo hi p)
    (fun a b ha hab => ⟨internalStep_shape hab,
      C31_discharging_step hu hll ha.1.1 ha.1.2 ha.2 hret hab⟩) _ _ _ ⟨⟨hs, hl⟩, hw⟩ hp).2 p hp').2

example : ∃ ps, newNodesTemp labTank 0 .discharging labNet [58, 50, 40] 0 2 = .ok (.profiles ps) ∧
    ∀ p ∈ ps, Within 40 60 p := by
  obtain ⟨out, h, rfl⟩ : ∃ out, newNodesTemp labTank 0 .discharging labNet [58, 50, 40] 0 2 = .ok out ∧
    out = .profiles [[42146 / 837, 33850 / 837, 40]] := exists_of_checks (by decide +kernel)
  exact ⟨_, h, C31_discharging_call ⟨by norm_num [labTank], by norm_num [labTank]⟩ ⟨rfl, rfl⟩
    (by unfold Stratified; decide +kernel) (by unfold Within; decide +kernel) (by norm_num [labNet]) h⟩

/-- Charging. Full claim: as above, with the source temperature in place of the return temperature.
Proved under two more hypotheses: no node is exactly at the source temperature, and the bottom node is
colder than the source. `C31_tie_overheats` and `C31_source_colder_cools` show that both are needed. -/
theorem C31_charging_step_partial {tk : Tank} (hu : UsableTank tk) (hll : Lossless tk) {hour : ℕ}
    {net : NetTemps} {nodes new : List ℚ} {thermal demand lo hi m1 : ℚ} (hs : Stratified nodes)
    (hl : nodes.length = tk.number) (hw : Within lo hi nodes)
    (hsrc : lo ≤ net.source ∧ net.source ≤ hi) (htie : net.source ∉ nodes)
    (hbot : temp nodes (tk.number - 1) < net.source)
    (hm1 : massFlow .charging net thermal demand (temp nodes (tk.number - 1)) (temp nodes 0) = .ok m1)
    (hm0 : 0 ≤ m1)
    (h : internalStep tk hour .charging net thermal demand nodes = .ok new) :
    Within lo hi new := by
  obtain ⟨m, cs, k, amb, hm, hcs, _, _, rfl⟩ := internalStep_ok h
  rw [hm1] at hm
  cases hm
  have hr := ratio_range (nodeMass_pos hu) hm0
  have hn := hu.2
  obtain ⟨c, hc, hcf⟩ := charge_unique hs htie (by intro h0; rw [h0] at hl; simp at hl; omega)
    (by rw [hl]; exact hbot)
  intro t ht
  obtain ⟨i, hi, rfl⟩ := map_range_mem (mem_sortDown.1 ht)
  rw [slope_eq hu _ _ _ _ _ (cps_pos hcs (by omega)), lossTerm_lossless hll,
    flow_charging net (by omega) hi (fun j hj => (hcf j (by omega)).1)]
  have hti := hw _ (temp_mem (show i < nodes.length by omega))
  dsimp only
  split_ifs with h1 h2
  · simpa using hti
  · exact convex_bounds hr.1 hr.2 hti hsrc
  · exact convex_bounds hr.1 hr.2 hti (hw _ (temp_mem (by omega)))

example : ∃ new, internalStep labTank 0 .charging labNet 1000 0 [50, 45, 40] = .ok new ∧ Within 40 60 new := by
  obtain ⟨new, h, -⟩ : ∃ new, internalStep labTank 0 .charging labNet 1000 0 [50, 45, 40] = .ok new ∧ True :=
    exists_of_checks (by decide +kernel)
  obtain ⟨m1, h1, h0⟩ : ∃ m1, massFlow .charging labNet 1000 0 (temp [50, 45, 40] (labTank.number - 1))
    (temp [50, 45, 40] 0) = .ok m1 ∧ 0 ≤ m1 := exists_of_checks (by decide +kernel)
  exact ⟨new, h, C31_charging_step_partial ⟨by norm_num [labTank], by norm_num [labTank]⟩ ⟨rfl, rfl⟩
    (by unfold Stratified; decide +kernel) rfl (by unfold Within; decide +kernel) (by norm_num [labNet])
    (by decide +kernel) (by decide +kernel) h1 h0 h⟩

/-- Against the claim: when the top node is exactly at the source temperature and more heat is stored,
some node ends up hotter than every node was and hotter than the source. -/
theorem C31_tie_overheats {tk : Tank} (hu : UsableTank tk) (hll : Lossless tk) {hour : ℕ}
    {net : NetTemps} {nodes new : List ℚ} {thermal demand m1 : ℚ} (hs : Stratified nodes)
    (hl : nodes.length = tk.number) (htop : temp nodes 0 = net.source) (hpos : 0 < net.source)
    (hm1 : massFlow .charging net thermal demand (temp nodes (tk.number - 1)) (temp nodes 0) = .ok m1)
    (hm0 : 0 < m1)
    (h : internalStep tk hour .charging net thermal demand nodes = .ok new) :
    ∃ t ∈ new, net.source < t ∧ ∀ u ∈ nodes, u < t := by
  obtain ⟨m, cs, k, amb, hm, hcs, _, _, rfl⟩ := internalStep_ok h
  rw [hm1] at hm
  cases hm
  have hM := nodeMass_pos hu
  have hr : 0 < min m1 tk.nodeMass / tk.nodeMass := div_pos (lt_min hm0 hM) hM
  have hn := hu.2
  have hf0 : chargeFlag .charging nodes net.source 0 = 1 := by
    rw [chargeFlag_eq, if_pos ⟨le_of_eq htop, .inl rfl⟩]
  have hf1 : chargeFlag .charging nodes net.source 1 = 1 := by
    rw [chargeFlag_eq, if_pos]
    refine ⟨?_, .inr (by rw [← htop])⟩
    rw [← htop]
    exact temp_anti hs (by omega) (by omega)
  have hlast : 1 ≤ lastFlag tk.number (chargeFlag .charging nodes net.source) := by
    rcases lastFlag_cases tk.number (chargeFlag .charging nodes net.source) with ⟨h1, _⟩ | ⟨_, _, h3⟩
    · omega
    · by_contra hlt
      exact h3 1 (by omega) (by omega) hf1
  have hflow : flowTerm tk .charging nodes net 0 = net.source := by
    unfold flowTerm dischargeBottom
    dsimp only
    rw [hf0]
    unfold mixing
    dsimp only
    have h1 : ¬ (0 = tk.number - 1) := by omega
    have h2 : 0 < lastFlag tk.number (chargeFlag .charging nodes net.source) := by omega
    simp [dischargeFlag, chargeOut, h1, h2]
  refine ⟨temp nodes 0 + slope tk ⟨min m1 tk.nodeMass, k, amb⟩ .charging nodes net 0 (cs.getD 0 0),
    mem_sortDown.2 (List.mem_map.2 ⟨0, by simp; omega, rfl⟩), ?_⟩
  rw [slope_eq hu _ _ _ _ _ (cps_pos hcs (by omega)), lossTerm_lossless hll, hflow, htop]
  have hp := mul_pos hr hpos
  refine ⟨by dsimp only; linarith, fun u hu' => ?_⟩
  obtain ⟨j, hj, rfl⟩ := List.getElem_of_mem hu'
  have := temp_anti hs (Nat.zero_le j) hj
  rw [temp_eq hj, htop] at this
  dsimp only
  linarith

/-- A tank whose top is as warm as the source. -/
example : ∃ new, internalStep labTank 0 .charging labNet 1000 0 [60, 45, 40] = .ok new ∧
    ∃ t ∈ new, 60 < t := by
  obtain ⟨new, h, -⟩ : ∃ new, internalStep labTank 0 .charging labNet 1000 0 [60, 45, 40] = .ok new ∧ True :=
    exists_of_checks (by decide +kernel)
  obtain ⟨m1, h1, h0⟩ : ∃ m1, massFlow .charging labNet 1000 0 (temp [60, 45, 40] (labTank.number - 1))
    (temp [60, 45, 40] 0) = .ok m1 ∧ 0 < m1 := exists_of_checks (by decide +kernel)
  obtain ⟨t, ht, hs, -⟩ := C31_tie_overheats ⟨by norm_num [labTank], by norm_num [labTank]⟩ ⟨rfl, rfl⟩
    (by unfold Stratified; decide +kernel) rfl (by decide +kernel) (by norm_num [labNet]) h1 h0 h
  exact ⟨new, h, t, ht, hs⟩

/-- Against the claim: charging with water colder than every node (a positive flow out of the bottom,
no node takes it in) leaves the bottom node colder than every node was and than the source. -/
theorem C31_source_colder_cools :
    ∃ new, internalStep labTank 0 .charging ⟨50, 10, 55, 40⟩ 0 1000 [70, 65, 60] = .ok new ∧
      ∃ t ∈ new, t < 50 ∧ t < 60 := exists_of_checks (by decide +kernel)

/-- Against the claim, on whole calls: a cold tank offers to take 4.65 kWh; taking exactly that puts the
top node at the source temperature in the first internal step, so the second one heats it to 120 degrees.
With four nodes even asking for the offer fails. -/
theorem C31_charging_call_overheats :
    (∃ e, maxEnergy labTank 0 .charging labNet [40, 40, 40] = .ok e ∧ e = 465 / 100) ∧
    (∃ out, newNodesTemp labTank 0 .charging labNet [40, 40, 40] (465 / 100) 0 = .ok out ∧
      out = .profiles [[60, 40, 40], [120, 60, 40]]) ∧
    maxEnergy { labTank with number := 4, capacity := 400 } 0 .charging labNet [40, 40, 40, 40]
      = .error .valueError :=
  ⟨exists_of_checks (by decide +kernel), exists_of_checks (by decide +kernel), by decide +kernel⟩

example : UsableTank labTank ∧ Lossless labTank ∧ Stratified [50, 45, 40] ∧
    (labNet.source ∉ ([50, 45, 40] : List ℚ)) ∧
    temp [50, 45, 40] (labTank.number - 1) < labNet.source ∧ Within 40 60 [50, 45, 40] :=
  ⟨⟨by norm_num [labTank], by norm_num [labTank]⟩, ⟨rfl, rfl⟩,
    by unfold Stratified; decide +kernel, by decide +kernel, by decide +kernel, by unfold Within; decide +kernel⟩

example : ∃ new, internalStep labTank 0 .charging labNet 1000 0 [50, 45, 40] = .ok new ∧
    (∀ t ∈ new, 40 ≤ t ∧ t ≤ 60) ∧ new ≠ [50, 45, 40] := exists_of_checks (by decide +kernel)

/-! ### C32: a tank of capacity zero -/

/-- With capacity 0 nothing can be stored or drawn, at any hour and in any state. -/
theorem C32_no_energy {tk : Tank} (hc : tk.capacity = 0) (hour : ℕ) (state : TankState)
    (net : NetTemps) {nodes : List ℚ} (hl : nodes.length = tk.number) :
    maxEnergy tk hour state net nodes = .ok 0 := by
  unfold maxEnergy
  rw [if_neg (by simpa using hl)]
  split_ifs <;> rfl

example : maxEnergy { labTank with capacity := 0 } 0 .charging labNet [55, 50, 45] = .ok 0 :=
  C32_no_energy rfl _ _ _ rfl

/-- With capacity 0 the temperatures handed back are the ones handed in. -/
theorem C32_unchanged {tk : Tank} (hc : tk.capacity = 0) (hour : ℕ) (state : TankState)
    (net : NetTemps) {nodes : List ℚ} (hl : nodes.length = tk.number) (thermal demand : ℚ) :
    newNodesTemp tk hour state net nodes thermal demand = .ok (.flat nodes) := by
  unfold newNodesTemp
  rw [if_neg (by simpa using hl), if_pos hc]

example : ({ labTank with capacity := 0 } : Tank).capacity = 0 ∧
    ([55, 50, 45] : List ℚ).length = ({ labTank with capacity := 0 } : Tank).number := ⟨rfl, rfl⟩

/-! ### C33: the offer -/

/-- The offer is never negative when the return is not hotter than the flow. -/
theorem C33_nonneg {tk : Tank} (hc : 0 ≤ tk.capacity) {hour : ℕ} {state : TankState} {net : NetTemps}
    (hr : net.ret ≤ net.flow) {nodes : List ℚ} {e : ℚ}
    (h : maxEnergy tk hour state net nodes = .ok e) : 0 ≤ e := by
  rcases maxEnergy_loop h with rfl | ⟨cp, total, hcp, ht, rfl⟩
  · exact le_refl _
  · have := (specificHeat_bounds hcp).2.2.1
    exact div_nonneg (energyLoop_nonneg hc hr (by linarith) _ _ _ ht) (by norm_num)

example : ∃ e, maxEnergy labTank 0 .discharging labNet [58, 50, 45] = .ok e ∧ 0 ≤ e := by
  obtain ⟨e, h, -⟩ : ∃ e, maxEnergy labTank 0 .discharging labNet [58, 50, 45] = .ok e ∧ True :=
    exists_of_checks (by decide +kernel)
  exact ⟨e, h, C33_nonneg (by norm_num [labTank]) (by norm_num [labNet]) h⟩

/-- Without that, it can be: a return hotter than the flow gives a negative offer. -/
theorem C33_negative_offer :
    ∃ e, maxEnergy labTank 0 .discharging ⟨80, 10, 50, 70⟩ [60, 70, 90] = .ok e ∧ e < 0 :=
  exists_of_checks (by decide +kernel)

/-- A tank whose mean temperature is at or above the source takes nothing. -/
theorem C33_full_takes_nothing {tk : Tank} {hour : ℕ} {net : NetTemps} {nodes : List ℚ}
    (hl : nodes.length = tk.number) (hne : nodes ≠ [])
    (hmean : net.source ≤ nodes.sum / nodes.length) :
    maxEnergy tk hour .charging net nodes = .ok 0 := by
  have hpos : (0 : ℚ) < nodes.length := by exact_mod_cast List.length_pos_iff.2 hne
  unfold maxEnergy
  rw [if_neg (by simpa using hl), if_pos ⟨(le_div_iff₀ hpos).1 hmean, rfl⟩]

example : maxEnergy labTank 0 .charging labNet [60, 65, 61] = .ok 0 :=
  C33_full_takes_nothing rfl (by simp) (by norm_num [labNet])

/-- A tank whose mean temperature is at or below the return gives nothing. -/
theorem C33_cold_gives_nothing {tk : Tank} {hour : ℕ} {net : NetTemps} {nodes : List ℚ}
    (hl : nodes.length = tk.number) (hne : nodes ≠ [])
    (hmean : nodes.sum / nodes.length ≤ net.ret) :
    maxEnergy tk hour .discharging net nodes = .ok 0 := by
  have hpos : (0 : ℚ) < nodes.length := by exact_mod_cast List.length_pos_iff.2 hne
  unfold maxEnergy
  rw [if_neg (by simpa using hl), if_neg (by simp),
    if_pos ⟨(div_le_iff₀ hpos).1 hmean, rfl⟩]

example : maxEnergy labTank 0 .discharging labNet [50, 40, 30] = .ok 0 :=
  C33_cold_gives_nothing rfl (by simp) (by norm_num [labNet])

/-- On standby nothing is offered. -/
theorem C33_standby_nothing {tk : Tank} {hour : ℕ} {net : NetTemps} {nodes : List ℚ} {e : ℚ}
    (h : maxEnergy tk hour .standby net nodes = .ok e) : e = 0 := by
  rcases maxEnergy_loop h with rfl | ⟨cp, total, _, ht, rfl⟩
  · rfl
  · have := energyLoop_zero (fun _ => True) (fun a _ => by simp [stepEnergy])
      (fun _ _ _ _ _ _ _ _ _ _ => trivial) _ _ _ trivial ht
    rw [this]; norm_num

example : ∃ e, maxEnergy labTank 0 .standby labNet [58, 50, 45] = .ok e ∧ e = 0 := by
  obtain ⟨e, h, -⟩ : ∃ e, maxEnergy labTank 0 .standby labNet [58, 50, 45] = .ok e ∧ True :=
    exists_of_checks (by decide +kernel)
  exact ⟨e, h, C33_standby_nothing h⟩

/-- A stratified tank whose top is not above the flow temperature gives nothing. Full claim: for every
tank. Proved for tanks without losses. -/
theorem C33_cool_top_gives_nothing_partial {tk : Tank} (hu : UsableTank tk) (hll : Lossless tk)
    {hour : ℕ} {net : NetTemps} (hr : net.ret ≤ net.flow) {nodes : List ℚ} {e : ℚ}
    (hs : Stratified nodes) (hl : nodes.length = tk.number) (htop : temp nodes 0 ≤ net.flow)
    (h : maxEnergy tk hour .discharging net nodes = .ok e) : e = 0 := by
  rcases maxEnergy_loop h with rfl | ⟨cp, total, _, ht, rfl⟩
  · rfl
  · have hn := hu.2
    have := energyLoop_zero (fun a => a.length = tk.number ∧ ∀ t ∈ a, t ≤ net.flow)
      (fun a ha => by
        have h0 : temp a 0 ≤ net.flow := ha.2 _ (temp_mem (by omega))
        unfold stepEnergy
        rw [if_neg (by simp), if_neg (by simpa using h0)])
      (fun a b cs k amb ha hcs _ _ hab => by
        rw [euler_ok hab]
        refine ⟨by simp, fun t ht => ?_⟩
        obtain ⟨i, hi, rfl⟩ := map_range_mem ht
        rw [slope_eq hu _ _ _ _ _ (cps_pos hcs (by omega)), lossTerm_lossless hll,
          flow_discharging hu net (fun j hj => dischargeFlag_cool ha.2 (by omega)) hi]
        have hti := ha.2 _ (temp_mem (show i < a.length by omega))
        have hM : tk.nodeMass / tk.nodeMass = 1 := div_self (ne_of_gt (nodeMass_pos hu))
        dsimp only
        rw [hM]
        split_ifs with h1 h2
        · linarith
        · have := ha.2 _ (temp_mem (show i + 1 < a.length by omega))
          linarith
        · linarith) _ _ _
      ⟨hl, fun t ht => by
        obtain ⟨j, hj, rfl⟩ := List.getElem_of_mem ht
        have := temp_anti hs (Nat.zero_le j) hj
        rw [temp_eq hj] at this
        linarith⟩ ht
    rw [this]; norm_num

example : ∃ e, maxEnergy labTank 0 .discharging labNet [54, 50, 45] = .ok e ∧ e = 0 := by
  obtain ⟨e, h, -⟩ : ∃ e, maxEnergy labTank 0 .discharging labNet [54, 50, 45] = .ok e ∧ True :=
    exists_of_checks (by decide +kernel)
  exact ⟨e, h, C33_cool_top_gives_nothing_partial ⟨by norm_num [labTank], by norm_num [labTank]⟩ ⟨rfl, rfl⟩
    (by norm_num [labNet]) (by unfold Stratified; decide +kernel) rfl (by decide +kernel) h⟩

/-- The same with a wall but no openings: the top and the surroundings are below the flow temperature
and the wall conducts at most one node's heat capacity per step. -/
theorem C33_cool_top_wall_partial {tk : Tank} (hu : UsableTank tk) (hcon : tk.connection = 0)
    (hwall : 0 ≤ tk.wall) (hcond : ∀ k, tk.kValue = .ok k → tk.wall * k ≤ tk.nodeMass * 4178)
    {hour : ℕ} {net : NetTemps} (hamb : ∀ a, tk.ambTemp hour = .ok a → a < net.flow)
    {nodes : List ℚ} {e : ℚ} (hs : Stratified nodes) (hl : nodes.length = tk.number)
    (htop : temp nodes 0 < net.flow)
    (h : maxEnergy tk hour .discharging net nodes = .ok e) : e = 0 := by
  rcases maxEnergy_loop h with rfl | ⟨cp, total, _, ht, rfl⟩
  · rfl
  · have hn := hu.2
    have hM := nodeMass_pos hu
    have := energyLoop_zero (fun a => a.length = tk.number ∧ ∀ t ∈ a, t < net.flow)
      (fun a ha => by
        have h0 : temp a 0 < net.flow := ha.2 _ (temp_mem (by omega))
        unfold stepEnergy
        rw [if_neg (by simp), if_neg (by simpa using h0.le)])
      (fun a b cs k amb ha hcs hk ham hab => by
        rw [euler_ok hab]
        refine ⟨by simp, fun t ht => ?_⟩
        obtain ⟨i, hi, rfl⟩ := map_range_mem ht
        have h0 : temp a 0 < net.flow := ha.2 _ (temp_mem (by omega))
        rw [slope_eq hu _ _ _ _ _ (cps_pos hcs (by omega)),
          flow_discharging hu net
            (fun j hj => dischargeFlag_cool (fun t ht => (ha.2 t ht).le) (by omega)) hi,
          if_neg (by simpa using h0)]
        have hti := ha.2 _ (temp_mem (show i < a.length by omega))
        have hcp := cps_pos hcs (show i < a.length by omega)
        have hk' := hcond k hk
        have hkp := kValue_pos hk
        have hap := hamb amb ham
        unfold lossTerm
        rw [hcon]
        dsimp only
        generalize cs.getD i 0 = cp at hcp
        generalize temp a i = T at hti
        have hMcp : 0 < tk.nodeMass * cp := mul_pos hM (by linarith)
        have hw0 : 0 ≤ tk.wall * k / (tk.nodeMass * cp) :=
          div_nonneg (mul_nonneg hwall hkp.le) hMcp.le
        have hw1 : tk.wall * k / (tk.nodeMass * cp) ≤ 1 := by
          rw [div_le_one hMcp]
          nlinarith
        have e : T + (tk.nodeMass / tk.nodeMass * 0 +
            (tk.wall * k * (amb - T) + 0) / (tk.nodeMass * cp))
            = (1 - tk.wall * k / (tk.nodeMass * cp)) * T + tk.wall * k / (tk.nodeMass * cp) * amb := by
          field_simp
          ring
        rw [e]
        generalize tk.wall * k / (tk.nodeMass * cp) = w at hw0 hw1
        rcases eq_or_lt_of_le hw0 with hw | hw
        · rw [← hw]; linarith
        · nlinarith) _ _ _
      ⟨hl, fun t ht => by
        obtain ⟨j, hj, rfl⟩ := List.getElem_of_mem ht
        have := temp_anti hs (Nat.zero_le j) hj
        rw [temp_eq hj] at this
        linarith⟩ ht
    rw [this]; norm_num

example : ∃ e, maxEnergy wallTank 0 .discharging labNet [54, 50, 45] = .ok e ∧ e = 0 := by
  obtain ⟨e, h, -⟩ : ∃ e, maxEnergy wallTank 0 .discharging labNet [54, 50, 45] = .ok e ∧ True :=
    exists_of_checks (by decide +kernel)
  exact ⟨e, h, C33_cool_top_wall_partial ⟨by norm_num [wallTank, labTank], by norm_num [wallTank, labTank]⟩ rfl
    (by norm_num [wallTank]) (fun k hk => by cases hk; norm_num [wallTank, labTank, nodeMass])
    (fun a ha => by cases ha; norm_num [labNet]) (by unfold Stratified; decide +kernel) rfl (by decide +kernel) h⟩

/-- Against the full claim: with openings, a tank whose top is below the flow temperature offers heat,
because the opening losses are added to the node temperatures instead of subtracted. -/
theorem C33_opening_offers_heat :
    ∃ e, maxEnergy openTank 0 .discharging labNet [549 / 10, 50, 45] = .ok e ∧ 0 < e :=
  exists_of_checks (by decide +kernel)

example : ∃ e, maxEnergy labTank 0 .discharging labNet [58, 50, 45] = .ok e ∧ 0 < e :=
  exists_of_checks (by decide +kernel)

example : ∃ e, maxEnergy labTank 0 .discharging labNet [54, 50, 45] = .ok e ∧ e = 0 :=
  exists_of_checks (by decide +kernel)

example : UsableTank wallTank ∧ wallTank.connection = 0 ∧ 0 ≤ wallTank.wall ∧
    (∀ k, wallTank.kValue = .ok k → wallTank.wall * k ≤ wallTank.nodeMass * 4178) ∧
    (∀ a, wallTank.ambTemp 0 = .ok a → a < labNet.flow) := by
  refine ⟨⟨by norm_num [wallTank, labTank], by norm_num [wallTank, labTank]⟩, rfl,
    by norm_num [wallTank], fun k hk => ?_, fun a ha => ?_⟩
  · cases hk; norm_num [wallTank, labTank, nodeMass]
  · cases ha; norm_num [labNet]

example : Stratified [58, 50, 40] ∧ ([60, 65, 61] : List ℚ).sum / (3 : ℕ) ≥ labNet.source :=
  ⟨by unfold Stratified; decide +kernel, by norm_num [labNet]⟩

/-! ### C34: an idle tank cools -/

/-- On standby with surroundings no warmer than any node, no node gets warmer (node by node, after the
sorting). Full claim: for every tank. Proved for tanks without openings;
`C34_openings_heat` shows that openings heat the tank. -/
theorem C34_idle_cools_partial {tk : Tank} (hu : UsableTank tk) (hcon : tk.connection = 0)
    (hwall : 0 ≤ tk.wall) {hour : ℕ} {net : NetTemps} {nodes : List ℚ} {thermal demand : ℚ}
    {out : NodesOut} (hs : Stratified nodes)
    (hamb : ∀ a, tk.ambTemp hour = .ok a → ∀ t ∈ nodes, a ≤ t)
    (h : newNodesTemp tk hour .standby net nodes thermal demand = .ok out) :
    ∃ p, out = .profiles [p] ∧ NowhereWarmer p nodes := by
  obtain ⟨ps, rfl⟩ := C30_returns_profiles hu (by simp) h
  obtain ⟨hl, _, hn, _, mf, hm, hp⟩ := newNodesTemp_profiles h
  cases hm
  have ht : stepCount tk (0 * 3600) = 1 := by
    unfold stepCount
    have : (min (tk.number : ℤ) ⌈0 * 3600 / tk.nodeMass⌉) ≤ 1 := by
      refine le_trans (min_le_right _ _) ?_
      simp
    rw [max_eq_right this]
    rfl
  rw [ht] at hp
  unfold profiles at hp
  split at hp
  · cases hp
  · rename_i new hnew
    cases hp
    refine ⟨new, rfl, ?_⟩
    obtain ⟨m1, cs, k, amb, _, hcs, hk, ham, rfl⟩ := internalStep_ok hnew
    apply sortDown_le hs
    rw [List.forall₂_iff_get]
    refine ⟨by simp [hl], fun i h1 h2 => ?_⟩
    have hi : i < tk.number := by simpa using h1
    simp only [List.get_eq_getElem, List.getElem_map, List.getElem_range]
    rw [slope_eq hu _ _ _ _ _ (cps_pos hcs (by omega)), flow_standby, ← temp_eq h2]
    unfold lossTerm
    have hcp := cps_pos hcs (show i < nodes.length from h2)
    have ha := hamb amb ham _ (temp_mem h2)
    have hkp := kValue_pos hk
    have hMcp : 0 < tk.nodeMass * cs.getD i 0 := mul_pos (nodeMass_pos hu) (by linarith)
    rw [hcon]
    dsimp only
    have : (tk.wall * k * (amb - temp nodes i) + 0) / (tk.nodeMass * cs.getD i 0) ≤ 0 := by
      apply div_nonpos_of_nonpos_of_nonneg _ hMcp.le
      have := mul_nonneg hwall hkp.le
      nlinarith
    linarith

example : ∃ p, newNodesTemp wallTank 0 .standby labNet [58, 50, 40] 0 0 = .ok (.profiles [p]) ∧
    NowhereWarmer p [58, 50, 40] := by
  obtain ⟨out, h, -⟩ : ∃ out, newNodesTemp wallTank 0 .standby labNet [58, 50, 40] 0 0 = .ok out ∧ True :=
    exists_of_checks (by decide +kernel)
  obtain ⟨p, rfl, hp⟩ := C34_idle_cools_partial ⟨by norm_num [wallTank, labTank], by norm_num [wallTank, labTank]⟩ rfl
    (by norm_num [wallTank]) (by unfold Stratified; decide +kernel) (fun a ha => by cases ha; decide +kernel) h
  exact ⟨p, h, hp⟩

theorem cps_forall {nodes cs : List ℚ} (h : cps nodes = .ok cs) :
    List.Forall₂ (fun t c => specificHeat t = .ok c) nodes cs := by
  obtain ⟨h1, h2⟩ := cps_ok h
  rw [List.forall₂_iff_get]
  refine ⟨h1.symm, fun i hi hi' => ?_⟩
  have := h2 i hi
  rwa [temp_eq hi, List.getD_eq_getElem _ _ hi'] at this

theorem cps_total {nodes : List ℚ} (h : ∀ t ∈ nodes, 0 ≤ t ∧ t ≤ 100) : ∃ cs, cps nodes = .ok cs := by
  induction nodes with
  | nil => exact ⟨[], rfl⟩
  | cons t ts ih =>
    obtain ⟨cs, hcs⟩ := ih fun t ht => h t (List.mem_cons_of_mem _ ht)
    obtain ⟨c, hc, -⟩ := specificHeat_ok (h t List.mem_cons_self).1 (h t List.mem_cons_self).2
    exact ⟨c :: cs, by unfold cps; rw [hc, hcs]⟩

theorem stepCount_standby (tk : Tank) : stepCount tk (0 * 3600) = 1 := by
  unfold stepCount
  have : (min (tk.number : ℤ) ⌈0 * 3600 / tk.nodeMass⌉) ≤ 1 := by
    refine le_trans (min_le_right _ _) ?_
    simp
  rw [max_eq_right this]
  rfl

/-- Conductivities of the known insulations, in W/(m K). -/
def Spec.conductivity : List (String × ℚ) :=
  [("polyurethane", 25 / 1000), ("fibreglass", 4 / 100), ("polystyrene", 35 / 1000)]

/-- Newton's law of cooling: in an idle hour (3600 s) without openings each node loses the heat the
wall conducts, given the conductivity of the insulation. The result is in sorted order. -/
theorem C34_cooling_law {tk : Tank} (hu : UsableTank tk) (hcon : tk.connection = 0)
    {hour : ℕ} {net : NetTemps} {nodes : List ℚ} {thermal demand : ℚ} {out : NodesOut}
    (h : newNodesTemp tk hour .standby net nodes thermal demand = .ok out) :
    ∃ p cond amb, out = .profiles [p] ∧ (tk.insulation, cond) ∈ conductivity ∧
      tk.ambTemp hour = .ok amb ∧ ∃ heats, List.Forall₂ (fun t c => specificHeat t = .ok c) nodes heats ∧
      p.Perm (List.zipWith (fun t c =>
        t - tk.wall * (cond * 3600) * (t - amb) / (tk.capacity / tk.number * c)) nodes heats) := by
  obtain ⟨ps, rfl⟩ := C30_returns_profiles hu (by simp) h
  obtain ⟨hl, _, hn, _, mf, hm, hp⟩ := newNodesTemp_profiles h
  cases hm
  rw [stepCount_standby] at hp
  unfold profiles at hp
  split at hp
  · cases hp
  · rename_i new hnew
    cases hp
    obtain ⟨m1, cs, k, amb, _, hcs, hk, ham, rfl⟩ := internalStep_ok hnew
    obtain ⟨cond, hcond, rfl⟩ : ∃ cond, (tk.insulation, cond) ∈ conductivity ∧ k = cond * 3600 := by
      unfold kValue at hk
      split_ifs at hk with h1 h2 h3 <;> cases hk
      · exact ⟨25 / 1000, by rw [h1]; simp [conductivity], rfl⟩
      · exact ⟨4 / 100, by rw [h2]; simp [conductivity], rfl⟩
      · exact ⟨35 / 1000, by rw [h3]; simp [conductivity], rfl⟩
    have hall := cps_forall hcs
    refine ⟨_, cond, amb, rfl, hcond, ham, cs, hall, ?_⟩
    refine (List.perm_insertionSort _ _).trans (List.Perm.of_eq ?_)
    have hlen := hall.length_eq
    apply List.ext_getElem (by simp [← hlen, hl])
    intro i h1 h2
    have hi : i < tk.number := by simpa using h1
    simp only [List.getElem_map, List.getElem_range, List.getElem_zipWith]
    rw [slope_eq hu _ _ _ _ _ (cps_pos hcs (by omega)), flow_standby,
      ← temp_eq (show i < nodes.length by omega), List.getD_eq_getElem _ _ (show i < cs.length by omega)]
    unfold lossTerm nodeMass
    rw [hcon]
    dsimp only
    ring

example : ∃ p cond, newNodesTemp wallTank 0 .standby labNet [58, 50, 40] 0 0 = .ok (.profiles [p]) ∧
    (wallTank.insulation, cond) ∈ conductivity := by
  obtain ⟨out, h, -⟩ : ∃ out, newNodesTemp wallTank 0 .standby labNet [58, 50, 40] 0 0 = .ok out ∧ True :=
    exists_of_checks (by decide +kernel)
  obtain ⟨p, cond, amb, rfl, hc, -⟩ := C34_cooling_law
    ⟨by norm_num [wallTank, labTank], by norm_num [wallTank, labTank]⟩ rfl h
  exact ⟨p, cond, h, hc⟩

/-- An insulation that is not in the table is rejected, whatever the hour brings. -/
theorem C34_unknown_insulation {tk : Tank} (hu : UsableTank tk)
    (hins : tk.insulation ∉ conductivity.map Prod.fst) {hour : ℕ} {net : NetTemps} {nodes : List ℚ}
    (hl : nodes.length = tk.number) (hw : ∀ t ∈ nodes, 0 ≤ t ∧ t ≤ 100) (thermal demand : ℚ) :
    newNodesTemp tk hour .standby net nodes thermal demand = .error .valueError := by
  have hk : tk.kValue = .error .valueError := by
    simp only [conductivity, List.map_cons, List.map_nil, List.mem_cons, List.not_mem_nil, or_false,
      not_or] at hins
    unfold kValue
    rw [if_neg hins.1, if_neg hins.2.1, if_neg hins.2.2]
  obtain ⟨cs, hcs⟩ := cps_total hw
  have hc : tk.capacity ≠ 0 := hu.1.ne'
  have hn : tk.number ≠ 0 := by have := hu.2; omega
  unfold newNodesTemp
  rw [if_neg (not_not.mpr hl), if_neg hc, if_neg (by simp), if_neg hn]
  simp only [massFlow, stepCount_standby, profiles, internalStep, env, hcs, hk]

example : { wallTank with insulation := "straw" }.insulation ∉ conductivity.map Prod.fst := by
  decide +kernel

/-- Against the full claim: the losses of openings are added, so an idle tank with openings in a room
at 15 degrees gets warmer. -/
theorem C34_openings_heat :
    ∃ out, newNodesTemp openTank 0 .standby labNet [58, 50, 40] 0 0 = .ok out ∧
      out = .profiles [[243343 / 4185, 209735 / 4181, 167935 / 4179]] ∧
      (58 : ℚ) < 243343 / 4185 ∧ (50 : ℚ) < 209735 / 4181 ∧ (40 : ℚ) < 167935 / 4179 :=
  exists_of_checks (by decide +kernel)

example : ∃ out, newNodesTemp wallTank 0 .standby labNet [58, 50, 40] 0 0 = .ok out ∧
    out = .profiles [[26927 / 465, 208735 / 4181, 55645 / 1393]] :=
  exists_of_checks (by decide +kernel)

example : UsableTank wallTank ∧ wallTank.connection = 0 ∧ 0 ≤ wallTank.wall ∧
    Stratified [58, 50, 40] ∧
    (∀ a, wallTank.ambTemp 0 = .ok a → ∀ t ∈ ([58, 50, 40] : List ℚ), a ≤ t) := by
  refine ⟨⟨by norm_num [wallTank, labTank], by norm_num [wallTank, labTank]⟩, rfl,
    by norm_num [wallTank], by unfold Stratified; decide +kernel, fun a ha => ?_⟩
  cases ha; decide +kernel

/-! ### C35: specific heat -/

/-- For every temperature from 0 to 100 the specific heat is between 4178 and 4217 J/(kg K). -/
theorem C35_in_range {t : ℚ} (h0 : 0 ≤ t) (h1 : t ≤ 100) :
    ∃ c, specificHeat t = .ok c ∧ 4178 ≤ c ∧ c ≤ 4217 := specificHeat_ok h0 h1

example : ∃ c, specificHeat (1234 / 100) = .ok c ∧ 4178 ≤ c ∧ c ≤ 4217 := C35_in_range (by norm_num) (by norm_num)

/-- For every other temperature it raises `ValueError`. -/
theorem C35_out_of_range {t : ℚ} (h : t < 0 ∨ 100 < t) : specificHeat t = .error .valueError := by
  unfold specificHeat
  rw [if_neg]
  rintro ⟨h1, h2⟩
  rcases h with h | h <;> linarith

example : specificHeat (1001 / 10) = .error .valueError := C35_out_of_range (.inr (by norm_num))

/-- The table entry used is the one of a multiple of ten at most 5 degrees away. -/
theorem C35_nearest_entry {t : ℚ} (h0 : 0 ≤ t) (h1 : t ≤ 100) :
    ∃ (k : ℤ) (c : ℚ), specificHeat t = .ok c ∧ (10 * k, c) ∈ cpTable ∧ |t - 10 * k| ≤ 5 := by
  obtain ⟨ha, hb⟩ := roundHalfEven_range (q := t / 10) (a := 0) (b := 10)
    (by push_cast; linarith) (by push_cast; linarith)
  have hd := roundHalfEven_dist (t / 10)
  refine ⟨roundHalfEven (t / 10), ?_⟩
  have hdist : |t - 10 * (roundHalfEven (t / 10) : ℚ)| ≤ 5 := by
    rw [abs_le] at hd ⊢
    constructor <;> linarith [hd.1, hd.2]
  unfold specificHeat
  rw [if_pos ⟨h1, h0⟩]
  unfold pyRoundTens
  generalize roundHalfEven (t / 10) = z at ha hb hdist
  interval_cases z <;> exact ⟨_, rfl, by decide +kernel, hdist⟩

example : specificHeat 45 = .ok 4179 ∧ specificHeat 55 = .ok 4185 ∧ specificHeat (-1 / 2) = .error .valueError := by
  decide +kernel

/-! ### C66: the heat content changes by the heat that flows -/

/-- Discharging: when what is drawn fits in one node, the node temperatures (times the node mass) fall by
exactly the heat drawn: network demand less source output, each over its specific heat. -/
theorem C66_discharging {tk : Tank} (hu : UsableTank tk) (hll : Lossless tk) {hour : ℕ}
    {net : NetTemps} {nodes new : List ℚ} {thermal demand cpS cpF : ℚ} (hs : Stratified nodes)
    (hl : nodes.length = tk.number) (hflow : net.flow ≤ temp nodes 0) (hret : net.ret < temp nodes 0)
    (hcs : specificHeat net.source = .ok cpS) (hcf : specificHeat net.flow = .ok cpF)
    (hneed : thermal / (cpS / 1000) ≤ demand / (cpF / 1000))
    (hfit : demand / (cpF / 1000) - thermal / (cpS / 1000) ≤ tk.nodeMass * (temp nodes 0 - net.ret))
    (h : internalStep tk hour .discharging net thermal demand nodes = .ok new) :
    tk.nodeMass * (nodes.sum - new.sum) = demand / (cpF / 1000) - thermal / (cpS / 1000) := by
  obtain ⟨m1, cs, k, amb, hm, hcs', _, _, rfl⟩ := internalStep_ok h
  obtain ⟨hne, rfl⟩ := massFlow_discharging_ok hcs hcf hm
  have hM := nodeMass_pos hu
  have hpos : 0 < temp nodes 0 - net.ret := by linarith
  set E := demand / (cpF / 1000) - thermal / (cpS / 1000) with hE
  have hE0 : 0 ≤ E := by linarith
  have habs : |E / (temp nodes 0 - net.ret)| = E / (temp nodes 0 - net.ret) :=
    abs_of_nonneg (div_nonneg hE0 hpos.le)
  have hmin : min |E / (temp nodes 0 - net.ret)| tk.nodeMass = E / (temp nodes 0 - net.ret) := by
    rw [habs]
    exact min_eq_left ((div_le_iff₀ hpos).2 hfit)
  rw [(sortDown_perm _).sum_eq, hmin]
  obtain ⟨n, hn⟩ : ∃ n, tk.number = n + 1 := ⟨tk.number - 1, by have := hu.2; omega⟩
  have hsum := sum_new (nodes := nodes) (n := tk.number) hl (E / (temp nodes 0 - net.ret) / tk.nodeMass)
    (fun i => temp nodes i + slope tk ⟨E / (temp nodes 0 - net.ret), k, amb⟩ .discharging nodes net i
      (cs.getD i 0))
    (fun i => (if i = n then net.ret else temp nodes (i + 1)) - temp nodes i)
    (fun i hi => by
      rw [slope_eq hu _ _ _ _ _ (cps_pos hcs' (by omega)), lossTerm_lossless hll,
        flow_discharging hu net (fun j hj => dischargeFlag_strat hs (by omega)) hi, if_pos hflow,
        show tk.number - 1 = n by omega]
      ring)
  rw [hsum, hn, sum_telescope_down]
  field_simp
  ring

example : ∃ new, internalStep labTank 0 .discharging labNet 0 4185 [58, 50, 40] = .ok new ∧
    labTank.nodeMass * (([58, 50, 40] : List ℚ).sum - new.sum) = 4185 / (4185 / 1000) - 0 / (4185 / 1000) := by
  obtain ⟨new, h, -⟩ : ∃ new, internalStep labTank 0 .discharging labNet 0 4185 [58, 50, 40] = .ok new ∧ True :=
    exists_of_checks (by decide +kernel)
  exact ⟨new, h, C66_discharging ⟨by norm_num [labTank], by norm_num [labTank]⟩ ⟨rfl, rfl⟩
    (by unfold Stratified; decide +kernel) rfl (by decide +kernel) (by decide +kernel) (by decide +kernel)
    (by decide +kernel) (by norm_num) (by decide +kernel) h⟩

/-- Charging, without a node exactly at the source temperature: when what is stored fits in one node, the
node temperatures (times the node mass) rise by exactly the heat stored. -/
theorem C66_charging_partial {tk : Tank} (hu : UsableTank tk) (hll : Lossless tk) {hour : ℕ}
    {net : NetTemps} {nodes new : List ℚ} {thermal demand cpS cpF : ℚ} (hs : Stratified nodes)
    (hl : nodes.length = tk.number) (htie : net.source ∉ nodes)
    (hbot : temp nodes (tk.number - 1) < net.source)
    (hcs : specificHeat net.source = .ok cpS) (hcf : specificHeat net.flow = .ok cpF)
    (hfit : thermal / (cpS / 1000) - demand / (cpF / 1000)
      ≤ tk.nodeMass * (net.source - temp nodes (tk.number - 1)))
    (h : internalStep tk hour .charging net thermal demand nodes = .ok new) :
    tk.nodeMass * (new.sum - nodes.sum) = thermal / (cpS / 1000) - demand / (cpF / 1000) := by
  obtain ⟨m1, cs, k, amb, hm, hcs', _, _, rfl⟩ := internalStep_ok h
  obtain ⟨hne, rfl⟩ := massFlow_charging_ok hcs hcf hm
  have hM := nodeMass_pos hu
  have hn := hu.2
  have hpos : 0 < net.source - temp nodes (tk.number - 1) := by linarith
  set E := thermal / (cpS / 1000) - demand / (cpF / 1000) with hE
  have hmin : min (E / (net.source - temp nodes (tk.number - 1))) tk.nodeMass
      = E / (net.source - temp nodes (tk.number - 1)) :=
    min_eq_left ((div_le_iff₀ hpos).2 hfit)
  rw [(sortDown_perm _).sum_eq, hmin]
  obtain ⟨c, hc, hcf'⟩ := charge_unique hs htie (by intro h0; rw [h0] at hl; simp at hl; omega)
    (by rw [hl]; exact hbot)
  have hsum := sum_new (nodes := nodes) (n := tk.number) hl
    (E / (net.source - temp nodes (tk.number - 1)) / tk.nodeMass)
    (fun i => temp nodes i + slope tk ⟨E / (net.source - temp nodes (tk.number - 1)), k, amb⟩
      .charging nodes net i (cs.getD i 0))
    (fun i => if i < c then 0 else if i = c then net.source - temp nodes i
      else temp nodes (i - 1) - temp nodes i)
    (fun i hi => by
      rw [slope_eq hu _ _ _ _ _ (cps_pos hcs' (by omega)), lossTerm_lossless hll,
        flow_charging net (by omega) hi (fun j hj => (hcf' j (by omega)).1)]
      ring)
  rw [hsum, sum_telescope_up _ _ c _ (by omega)]
  field_simp
  ring

example : ∃ new, internalStep labTank 0 .charging labNet 4185 0 [50, 45, 40] = .ok new ∧
    labTank.nodeMass * (new.sum - ([50, 45, 40] : List ℚ).sum) = 4185 / (4185 / 1000) - 0 / (4185 / 1000) := by
  obtain ⟨new, h, -⟩ : ∃ new, internalStep labTank 0 .charging labNet 4185 0 [50, 45, 40] = .ok new ∧ True :=
    exists_of_checks (by decide +kernel)
  exact ⟨new, h, C66_charging_partial ⟨by norm_num [labTank], by norm_num [labTank]⟩ ⟨rfl, rfl⟩
    (by unfold Stratified; decide +kernel) rfl (by decide +kernel) (by decide +kernel) (by decide +kernel)
    (by decide +kernel) (by decide +kernel) h⟩

/-- Against the full claim: with a tie the tank gains more heat than was put in (100 kg, from 40+40+60 to
120+60+40 degrees, for 2000 kg K put in). -/
theorem C66_tie_creates_heat :
    ∃ new, internalStep labTank 0 .charging labNet 8370 0 [60, 40, 40] = .ok new ∧
      labTank.nodeMass * (new.sum - 140) > 8370 / (4185 / 1000) :=
  exists_of_checks (by decide +kernel)

example : ∃ new, internalStep labTank 0 .charging labNet 4185 0 [50, 45, 40] = .ok new ∧
    labTank.nodeMass * (new.sum - 135) = 1000 := exists_of_checks (by decide +kernel)

example : ∃ new, internalStep labTank 0 .discharging labNet 0 4185 [58, 50, 40] = .ok new ∧
    labTank.nodeMass * (148 - new.sum) = 1000 := exists_of_checks (by decide +kernel)

example : specificHeat labNet.source = .ok 4185 ∧ specificHeat labNet.flow = .ok 4185 := by
  decide +kernel

end Verif
