import Verif.Spec.Serves
import Verif.Props.Tank

/-!
# A store of two or three layers never raises (for C126)
-/

set_option autoImplicit false

namespace Verif.Tank
open Spec

variable {tk : Tank} {net : NetTemps} {air : ℚ} {nodes : List ℚ}

theorem steady_pos (H : SteadyStore tk net air) : 0 < air := by
  have := H.source.1
  have := H.ret
  have := H.warmAir
  linarith

/-- What a pass does to a layer: a share of the flow, and a tenth at most of its excess over the air. -/
theorem steady_slope (H : SteadyStore tk net air) {k : ℚ} (hk : tk.kValue = .ok k) {cp : ℚ} (hcp : 4178 ≤ cp) :
    ∃ w, 0 < w ∧ w ≤ 1 / 10 ∧ ∀ m state nodes i, slope tk ⟨m, k, air⟩ state nodes net i cp =
      m / tk.nodeMass * flowTerm tk state nodes net i + w * (air - temp nodes i) := by
  have hM := nodeMass_pos H.usable
  have hkp := kValue_pos hk
  obtain ⟨k', hk', hin⟩ := H.insulation
  cases Except.ok.inj (hk.symm.trans hk')
  have hpos : 0 < tk.nodeMass * cp := mul_pos hM (by linarith)
  refine ⟨tk.wall * k / (tk.nodeMass * cp), div_pos (mul_pos H.wall hkp) hpos, ?_, fun m state nodes i => ?_⟩
  · rw [div_le_iff₀ hpos]
    have := mul_le_mul_of_nonneg_left hcp hM.le
    linarith
  · rw [slope_eq H.usable _ _ _ _ _ hcp]
    unfold lossTerm
    rw [H.sealed]
    ring

theorem between_temp (h : Between tk air net.source nodes) {i : ℕ} (hi : i < tk.number) :
    air < temp nodes i ∧ temp nodes i < net.source :=
  h.2.2 _ (temp_mem (by rw [h.1]; exact hi))

/-- While charging, every layer is moved towards something at least as warm and at most as warm as the source. -/
theorem between_charging (H : SteadyStore tk net air) (h : Between tk air net.source nodes) {i : ℕ} (hi : i < tk.number) :
    ∃ c, temp nodes i ≤ c ∧ c ≤ net.source ∧ flowTerm tk .charging nodes net i = c - temp nodes i := by
  have h2 := H.usable.2
  have hf : ∀ j < tk.number, chargeFlag .charging nodes net.source j = if j = 0 then 1 else 0 := by
    intro j hj
    rw [chargeFlag_eq]
    by_cases h0 : j = 0
    · rw [if_pos h0, if_pos ⟨(between_temp h hj).2.le, .inl h0⟩]
    · rw [if_neg h0, if_neg]
      rintro ⟨-, h1 | h1⟩
      · exact h0 h1
      · have := (between_temp h (show j - 1 < tk.number by omega)).2
        linarith
  rw [flow_charging net (c := 0) (by omega) hi hf, if_neg (by omega)]
  by_cases h0 : i = 0
  · rw [if_pos h0]
    exact ⟨_, (between_temp h hi).2.le, le_rfl, rfl⟩
  · rw [if_neg h0]
    exact ⟨_, temp_anti h.2.1 (show i - 1 ≤ i by omega) (by rw [h.1]; exact hi),
      (between_temp h (show i - 1 < tk.number by omega)).2.le, rfl⟩

/-- While discharging, every layer is moved towards something between the air and the source. -/
theorem between_discharging (H : SteadyStore tk net air) (h : Between tk air net.source nodes) {i : ℕ} (hi : i < tk.number) :
    ∃ c, air < c ∧ c < net.source ∧ flowTerm tk .discharging nodes net i = c - temp nodes i := by
  rw [flow_discharging H.usable net (fun j hj => dischargeFlag_strat h.2.1 (by rw [h.1]; exact hj)) hi]
  have hr := H.ret
  have hs := H.source.1
  by_cases hf : net.flow ≤ temp nodes 0
  · rw [if_pos hf]
    by_cases hb : i = tk.number - 1
    · rw [if_pos hb]; exact ⟨_, hr, hs, rfl⟩
    · rw [if_neg hb]
      have := between_temp h (show i + 1 < tk.number by omega)
      exact ⟨_, this.1, this.2, rfl⟩
  · rw [if_neg hf]
    exact ⟨_, (between_temp h hi).1, (between_temp h hi).2, (sub_self _).symm⟩

theorem between_standby (nodes : List ℚ) (i : ℕ) :
    flowTerm tk .standby nodes net i = temp nodes i - temp nodes i := by
  rw [flow_standby, sub_self]

/-- In every state, a layer is moved towards something between the air and the source. -/
theorem between_any (H : SteadyStore tk net air) (h : Between tk air net.source nodes) (state : TankState) {i : ℕ}
    (hi : i < tk.number) :
    ∃ c, air < c ∧ c ≤ net.source ∧ flowTerm tk state nodes net i = c - temp nodes i := by
  have ht := between_temp h hi
  cases state with
  | charging =>
    obtain ⟨c, h1, h2, h3⟩ := between_charging H h hi
    exact ⟨c, lt_of_lt_of_le ht.1 h1, h2, h3⟩
  | discharging =>
    obtain ⟨c, h1, h2, h3⟩ := between_discharging H h hi
    exact ⟨c, h1, h2.le, h3⟩
  | standby => exact ⟨_, ht.1, ht.2.le, between_standby _ _⟩

theorem between_env (H : SteadyStore tk net air) {hour : ℕ} (hh : hour < 8760)
    (hw : ∀ t ∈ nodes, 0 ≤ t ∧ t ≤ 100) :
    ∃ cs k, cps nodes = .ok cs ∧ tk.kValue = .ok k ∧ env tk hour nodes = .ok (cs, k, air) := by
  obtain ⟨cs, hcs⟩ := cps_total hw
  obtain ⟨k, hk, -⟩ := H.insulation
  refine ⟨cs, k, hcs, hk, ?_⟩
  simp only [env, hcs, hk, H.surroundings hour hh]

theorem between_water (H : SteadyStore tk net air) (h : Between tk air net.source nodes) :
    ∀ t ∈ nodes, 0 ≤ t ∧ t ≤ 100 := by
  intro t ht
  have := h.2.2 t ht
  have := steady_pos H
  have := H.source.2
  constructor <;> linarith

/-- The offer of such a store never raises. -/
theorem between_offer (H : SteadyStore tk net air) {hour : ℕ} (hh : hour < 8760) (state : TankState)
    (h : Between tk air net.source nodes) : ∃ m, maxEnergy tk hour state net nodes = .ok m := by
  have h2 := H.usable.2
  have h3 := H.layers
  have hM := nodeMass_pos H.usable
  obtain ⟨cs, k, hcs, hk, he⟩ := between_env H hh (between_water H h)
  obtain ⟨cp, hcp, -⟩ := specificHeat_ok (t := net.source) (by linarith [H.source.1, H.ret, steady_pos H]) H.source.2
  unfold maxEnergy
  rw [if_neg (not_not.mpr h.1)]
  split_ifs
  · exact ⟨_, rfl⟩
  · exact ⟨_, rfl⟩
  · exact ⟨_, rfl⟩
  · rw [he, hcp]
    dsimp only
    have hloop : ∃ e, energyLoop tk hour state net cp (tk.number - 1) nodes = .ok e := by
      have hnew : ∀ t ∈ (List.range tk.number).map (fun i =>
          temp nodes i + slope tk ⟨tk.nodeMass, k, air⟩ state nodes net i (cs.getD i 0)), 0 ≤ t ∧ t ≤ 100 := by
        intro t ht
        obtain ⟨i, hi, rfl⟩ := map_range_mem ht
        obtain ⟨w, w0, w1, hw⟩ := steady_slope H hk (cps_pos hcs (by rw [h.1]; exact hi))
        obtain ⟨c, c1, c2, hc⟩ := between_any H h state hi
        obtain ⟨t1, t2⟩ := between_temp h hi
        rw [hw, hc, div_self hM.ne']
        have hs := H.source.2
        have hwa := H.warmAir
        have e1 : w * (temp nodes i - air) ≤ 1 / 10 * (net.source - air) :=
          mul_le_mul w1 (by linarith) (by linarith) (by norm_num)
        have e2 : 0 ≤ w * (temp nodes i - air) := mul_nonneg w0.le (by linarith)
        constructor <;> nlinarith
      obtain ⟨cs', k', -, -, he'⟩ := between_env H hh hnew
      rcases (show tk.number = 2 ∨ tk.number = 3 by omega) with hn | hn
      · rw [hn]
        simp only [energyLoop, he, euler]
        rw [if_neg (by omega)]
        exact ⟨_, rfl⟩
      · rw [show tk.number - 1 = 0 + 1 + 1 by omega]
        unfold energyLoop
        rw [he]
        dsimp only
        rw [show euler tk ⟨tk.nodeMass, k, air⟩ cs state nodes net = .ok _ from if_neg (by omega)]
        dsimp only
        unfold energyLoop
        rw [he']
        dsimp only
        rw [show euler tk ⟨tk.nodeMass, k', air⟩ cs' state _ net = .ok _ from if_neg (by omega)]
        exact ⟨_, rfl⟩
    obtain ⟨e, he2⟩ := hloop
    rw [he2]
    exact ⟨_, rfl⟩

/-- One pass of such a store, at a flow `m` of at most a layer. -/
theorem between_pass (H : SteadyStore tk net air) {hour : ℕ} (hh : hour < 8760) {state : TankState}
    (h : Between tk air net.source nodes) {th de m : ℚ}
    (hm : massFlow state net th de (temp nodes (tk.number - 1)) (temp nodes 0) = .ok m) (h0 : 0 ≤ m)
    (hd : state = .discharging → m ≤ tk.nodeMass / 2) :
    ∃ new, internalStep tk hour state net th de nodes = .ok new ∧ Between tk air net.source new := by
  have h2 := H.usable.2
  have hM := nodeMass_pos H.usable
  obtain ⟨cs, k, hcs, hk, he⟩ := between_env H hh (between_water H h)
  refine ⟨sortDown ((List.range tk.number).map fun i =>
    temp nodes i + slope tk ⟨min m tk.nodeMass, k, air⟩ state nodes net i (cs.getD i 0)), ?_, ?_, ?_, ?_⟩
  · unfold internalStep
    rw [hm]
    dsimp only
    rw [he]
    dsimp only
    rw [show euler tk ⟨min m tk.nodeMass, k, air⟩ cs state nodes net = .ok _ from if_neg (by omega)]
  · simp [sortDown_length]
  · exact sortDown_stratified _
  · intro t ht
    obtain ⟨i, hi, rfl⟩ := map_range_mem (mem_sortDown.1 ht)
    obtain ⟨w, w0, w1, hw⟩ := steady_slope H hk (cps_pos hcs (by rw [h.1]; exact hi))
    obtain ⟨t1, t2⟩ := between_temp h hi
    obtain ⟨f0, f1⟩ := ratio_range hM h0
    rw [hw]
    have hpos : 0 < w * (temp nodes i - air) := mul_pos w0 (by linarith)
    have hle : w * (temp nodes i - air) ≤ 1 / 10 * (temp nodes i - air) :=
      mul_le_mul_of_nonneg_right w1 (by linarith)
    cases state with
    | standby =>
      rw [flow_standby]
      constructor <;> linarith
    | charging =>
      obtain ⟨c, c1, c2, hc⟩ := between_charging H h hi
      rw [hc]
      have e0 : 0 ≤ min m tk.nodeMass / tk.nodeMass * (c - temp nodes i) := mul_nonneg f0 (by linarith)
      have e1 : min m tk.nodeMass / tk.nodeMass * (c - temp nodes i) ≤ 1 * (c - temp nodes i) :=
        mul_le_mul_of_nonneg_right f1 (by linarith)
      constructor <;> linarith
    | discharging =>
      obtain ⟨c, c1, c2, hc⟩ := between_discharging H h hi
      rw [hc]
      have fh : min m tk.nodeMass / tk.nodeMass ≤ 1 / 2 := by
        rw [div_le_iff₀ hM]
        have := hd rfl
        have := min_le_left m tk.nodeMass
        linarith
      generalize min m tk.nodeMass / tk.nodeMass = f at f0 f1 fh
      have e0 : 0 ≤ f * (c - air) := mul_nonneg f0 (by linarith)
      have e1 : 0 ≤ f * (net.source - c) := mul_nonneg f0 (by linarith)
      have e2 : 0 ≤ (1 / 2 - f) * (temp nodes i - air) := mul_nonneg (by linarith) (by linarith)
      have e3 : 0 ≤ (1 / 2 - f) * (net.source - temp nodes i) := mul_nonneg (by linarith) (by linarith)
      constructor <;> nlinarith

theorem steady_cp (H : SteadyStore tk net air) :
    ∃ cp, specificHeat net.source = .ok cp ∧ specificHeat net.flow = .ok cp ∧ 4178 ≤ cp := by
  have := steady_pos H
  have := H.ret
  obtain ⟨cp, hcp, h1, -⟩ := specificHeat_ok (t := net.source) (by linarith [H.source.1]) H.source.2
  refine ⟨cp, hcp, ?_, h1⟩
  obtain ⟨cf, hcf, -⟩ := specificHeat_ok (t := net.flow) (by linarith [H.flow.1]) H.flow.2
  rw [← hcp]
  unfold specificHeat
  rw [if_pos ⟨H.flow.2, by linarith [H.flow.1]⟩, if_pos ⟨H.source.2, by linarith [H.source.1]⟩, H.heats]

theorem steady_masses (H : SteadyStore tk net air) (th de : ℚ) :
    ∃ cp s d, specificHeat net.source = .ok cp ∧ specificHeat net.flow = .ok cp ∧ 4178 ≤ cp ∧
      sourceMass net th = .ok s ∧ networkMass net de = .ok d ∧ s * net.sourceDelta = th / (cp / 1000) ∧
      d * (net.flow - net.ret) = de / (cp / 1000) := by
  obtain ⟨cp, h1, h2, h3⟩ := steady_cp H
  have hc : cp / 1000 ≠ 0 := by
    have : 0 < cp := by linarith
    positivity
  have hs : sourceMass net th = .ok (th / (cp / 1000 * net.sourceDelta)) := by
    unfold sourceMass safeDiv
    rw [h1]
    exact if_neg (mul_ne_zero hc H.spread)
  have hd : networkMass net de = .ok (de / (cp / 1000 * (net.flow - net.ret))) := by
    unfold networkMass safeDiv
    rw [h2]
    exact if_neg (mul_ne_zero hc (by linarith [H.flow.1]))
  exact ⟨cp, _, _, h1, h2, h3, hs, hd, sourceMass_ok h1 hs, networkMass_ok h2 hd⟩

/-- The flow of charging is not negative when more is made than used. -/
theorem steady_charge (H : SteadyStore tk net air) {th de b : ℚ} (t : ℚ) (hb : b < net.source) (hle : de ≤ th) :
    ∃ m, massFlow .charging net th de b t = .ok m ∧ 0 ≤ m := by
  obtain ⟨cp, s, d, h1, h2, h3, hs, hd, -⟩ := steady_masses H th de
  obtain ⟨m, hm⟩ : ∃ m, massFlow .charging net th de b t = .ok m := by
    unfold massFlow
    dsimp only
    rw [hs, hd]
    unfold safeDiv
    exact ⟨_, if_neg (by linarith)⟩
  refine ⟨m, hm, ?_⟩
  obtain ⟨-, rfl⟩ := massFlow_charging_ok h1 h2 hm
  refine div_nonneg ?_ (by linarith)
  rw [← sub_div]
  exact div_nonneg (by linarith) (by linarith)

/-- The flow of discharging a top layer that is warm enough. -/
theorem steady_discharge (H : SteadyStore tk net air) {th de t lim : ℚ} (b : ℚ) (ht : net.flow ≤ t) (hle : th ≤ de)
    (hlim : (de - th) * 1000 ≤ lim * 4178 * (net.flow - net.ret)) (hl : 0 ≤ lim) :
    ∃ m, massFlow .discharging net th de b t = .ok m ∧ 0 ≤ m ∧ m ≤ lim := by
  obtain ⟨cp, s, d, h1, h2, h3, hs, hd, -⟩ := steady_masses H th de
  have hfr := H.flow.1
  obtain ⟨m, hm⟩ : ∃ m, massFlow .discharging net th de b t = .ok m := by
    unfold massFlow
    dsimp only
    rw [hd, hs]
    unfold safeDiv
    dsimp only
    rw [if_neg (by linarith)]
    exact ⟨_, rfl⟩
  refine ⟨m, hm, massFlow_discharging_nonneg hm, ?_⟩
  obtain ⟨-, rfl⟩ := massFlow_discharging_ok h1 h2 hm
  have hcp : 0 < cp / 1000 := by linarith
  have htr : 0 < t - net.ret := by linarith
  rw [← sub_div, abs_of_nonneg (div_nonneg (div_nonneg (by linarith) hcp.le) htr.le), div_le_iff₀ htr,
    div_le_iff₀ hcp]
  have e1 : lim * 4178 * (net.flow - net.ret) ≤ lim * cp * (t - net.ret) :=
    mul_le_mul (mul_le_mul_of_nonneg_left h3 hl) (by linarith) (by linarith) (mul_nonneg hl (by linarith))
  nlinarith

theorem between_not_full (h : Between tk air net.source nodes) (h2 : 2 ≤ tk.number) :
    nodes.sum ≠ net.source * nodes.length := by
  have hne : nodes ≠ [] := by
    intro hn
    have := h.1
    rw [hn] at this
    simp at this
    omega
  have : nodes.sum < nodes.length • net.source := by
    have := List.sum_lt_sum_of_ne_nil hne id (fun _ => net.source) (fun t ht => (h.2.2 t ht).2)
    simpa using this
  rw [nsmul_eq_mul] at this
  linarith

theorem between_passes {hour : ℕ} {state : TankState} {th de : ℚ}
    (hstep : ∀ a, Between tk air net.source a → ∃ b, internalStep tk hour state net th de a = .ok b ∧ Between tk air net.source b) :
    ∀ (t : ℕ) (nodes : List ℚ), Between tk air net.source nodes → ∃ ps, profiles tk hour state net th de t nodes = .ok ps ∧
      ps.length = t ∧ ∀ p ∈ ps, Between tk air net.source p := by
  intro t
  induction t with
  | zero => intro nodes _; exact ⟨[], rfl, rfl, by simp⟩
  | succ t ih =>
    intro nodes h
    obtain ⟨b, hb, hb'⟩ := hstep nodes h
    obtain ⟨ps, hps, hl, hall⟩ := ih b hb'
    refine ⟨b :: ps, ?_, by simp [hl], fun p hp => ?_⟩
    · unfold profiles
      rw [hb]
      dsimp only
      rw [hps]
    · rcases List.mem_cons.1 hp with h4 | h4
      · rw [h4]; exact hb'
      · exact hall p h4

theorem last_between {ps : List (List ℚ)} (h1 : 1 ≤ ps.length) (h : ∀ p ∈ ps, Between tk air net.source p) :
    ∃ p, lastProfile (.profiles ps) = .ok p ∧ Between tk air net.source p := by
  have hne : ps ≠ [] := by
    intro hn
    rw [hn] at h1
    simp at h1
  refine ⟨ps.getLast hne, ?_, h _ (List.getLast_mem hne)⟩
  unfold lastProfile
  dsimp only
  rw [List.getLast?_eq_some_getLast hne]

/-- Charging never raises. -/
theorem between_charge (H : SteadyStore tk net air) {hour : ℕ} (hh : hour < 8760) (h : Between tk air net.source nodes)
    {th de : ℚ} (hle : de ≤ th) : ∃ out p, newNodesTemp tk hour .charging net nodes th de = .ok out ∧
      lastProfile out = .ok p ∧ Between tk air net.source p := by
  have h2 := H.usable.2
  have hbot : ∀ a, Between tk air net.source a → temp a (tk.number - 1) < net.source := fun a ha =>
    (between_temp ha (by omega)).2
  obtain ⟨m, hm, -⟩ := steady_charge H (temp nodes 0) (hbot nodes h) hle
  obtain ⟨c1, -⟩ := stepCount_range (tk := tk) (by omega) (m * 3600)
  obtain ⟨ps, hps, hl, hall⟩ := between_passes (th := th * 3600 / stepCount tk (m * 3600))
    (de := de * 3600 / stepCount tk (m * 3600)) (hour := hour) (state := .charging) (fun a ha => by
      obtain ⟨m', hm', h0⟩ := steady_charge H (th := th * 3600 / stepCount tk (m * 3600))
        (de := de * 3600 / stepCount tk (m * 3600)) (temp a 0) (hbot a ha)
        (div_le_div_of_nonneg_right (by linarith) (Nat.cast_nonneg _))
      exact between_pass H hh ha hm' h0 (by intro hx; cases hx)) (stepCount tk (m * 3600)) nodes h
  obtain ⟨p, hp, hp'⟩ := last_between (by rw [hl]; exact c1) hall
  refine ⟨.profiles ps, p, ?_, hp, hp'⟩
  unfold newNodesTemp
  rw [if_neg (not_not.mpr h.1), if_neg (ne_of_gt H.usable.1), if_neg (fun hx => between_not_full h h2 hx.1),
    if_neg (by omega), hm]
  dsimp only
  rw [hps]

/-- Standing by never raises. -/
theorem between_stand (H : SteadyStore tk net air) {hour : ℕ} (hh : hour < 8760) (h : Between tk air net.source nodes)
    (th de : ℚ) : ∃ out p, newNodesTemp tk hour .standby net nodes th de = .ok out ∧
      lastProfile out = .ok p ∧ Between tk air net.source p := by
  have h2 := H.usable.2
  obtain ⟨c1, -⟩ := stepCount_range (tk := tk) (by omega) (0 * 3600)
  obtain ⟨ps, hps, hl, hall⟩ := between_passes (th := th * 3600 / stepCount tk (0 * 3600))
    (de := de * 3600 / stepCount tk (0 * 3600)) (hour := hour) (state := .standby) (fun a ha =>
      between_pass H hh ha rfl le_rfl (by intro hx; cases hx)) (stepCount tk (0 * 3600)) nodes h
  obtain ⟨p, hp, hp'⟩ := last_between (by rw [hl]; exact c1) hall
  refine ⟨.profiles ps, p, ?_, hp, hp'⟩
  unfold newNodesTemp
  rw [if_neg (not_not.mpr h.1), if_neg (ne_of_gt H.usable.1), if_neg (by rintro ⟨-, hx⟩; cases hx),
    if_neg (by omega)]
  dsimp only [massFlow]
  rw [hps]

/-- Discharging never raises if the top is warm and half a layer holds the heat drawn. -/
theorem between_draw (H : SteadyStore tk net air) {hour : ℕ} (hh : hour < 8760) (h : Between tk air net.source nodes)
    {th de : ℚ} (htop : net.flow ≤ temp nodes 0) (hle : th ≤ de)
    (hlim : (de - th) * 3600 * 1000 ≤ tk.nodeMass / 2 * 4178 * (net.flow - net.ret)) :
    ∃ out p, newNodesTemp tk hour .discharging net nodes th de = .ok out ∧
      lastProfile out = .ok p ∧ Between tk air net.source p := by
  have h2 := H.usable.2
  have hM := nodeMass_pos H.usable
  have hfr := H.flow.1
  obtain ⟨m, hm, m0, m1⟩ := steady_discharge H (th := th) (de := de) (lim := tk.nodeMass / 2 / 3600)
    (temp nodes (tk.number - 1)) htop hle (by linarith) (by positivity)
  have hc : stepCount tk (m * 3600) = 1 := by
    unfold stepCount
    have : ⌈m * 3600 / tk.nodeMass⌉ ≤ 1 := by
      rw [Int.ceil_le, div_le_iff₀ hM]
      push_cast
      linarith
    have : min (tk.number : ℤ) ⌈m * 3600 / tk.nodeMass⌉ ≤ 1 := le_trans (min_le_right _ _) this
    rw [max_eq_right this]
    rfl
  obtain ⟨m', hm', m0', m1'⟩ := steady_discharge H (th := th * 3600 / (1 : ℕ)) (de := de * 3600 / (1 : ℕ))
    (lim := tk.nodeMass / 2) (temp nodes (tk.number - 1)) htop (by push_cast; linarith) (by push_cast; linarith)
    (by positivity)
  obtain ⟨new, hnew, hb⟩ := between_pass H hh h hm' m0' (fun _ => m1')
  refine ⟨.profiles [new], new, ?_, rfl, hb⟩
  unfold newNodesTemp
  rw [if_neg (not_not.mpr h.1), if_neg (ne_of_gt H.usable.1), if_neg (by rintro ⟨-, hx⟩; cases hx),
    if_neg (by omega), hm]
  dsimp only
  rw [hc]
  unfold profiles
  rw [hnew]
  rfl

end Verif.Tank
