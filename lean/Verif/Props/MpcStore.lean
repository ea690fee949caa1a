import Verif.Props.StoreBalance
import Verif.Props.MpcTank

/-!
# The thermal store under predictive control (C131)

The predictive controller plans with a tank that holds so many kWh, and moves the real tank by what the plan says, cut to
what the real tank offers. Here the two are brought together for the stores of C126.
-/

set_option autoImplicit false

namespace Verif
open Spec Mpc Tank

/-- What the controller makes of a plan for the tank: filling, drawing, or neither. -/
theorem flows_kind {mc md : ℚ} {p : Point} {f : ℚ × ℚ × TankState} (hmc : 0 ≤ mc) (hmd : 0 ≤ md)
    (hc : 0 ≤ p.tsc) (h : tankFlows (.ok mc) (.ok md) p = .ok f) :
    match f.2.2 with
    | .charging => 0 < f.1 ∧ f.2.1 = 0
    | .discharging => f.1 = 0 ∧ 0 < f.2.1 ∧ f.2.1 ≤ md ∧ f.2.1 ≤ p.tsd + 1 / 200
    | .standby => f.2.1 ≤ f.1 + 1 / 200 := by
  have hb := FixedOrder.pyRound_bounds (p.tsc - p.tsd) 2
  have hd := FixedOrder.pyRound_bounds (p.tsd - p.tsc) 2
  norm_num at hb hd
  unfold tankFlows at h
  dsimp only at h
  by_cases h1 : pyRound (p.tsc - p.tsd) 2 > pyRound (p.tsd - p.tsc) 2
  · have hpos : 0 ≤ p.tsc - p.tsd := by
      by_contra hn
      have := pyRound_mono (a := p.tsc - p.tsd) (b := p.tsd - p.tsc) (by linarith) 2
      linarith
    have h0 := FixedOrder.pyRound_nonneg hpos 2
    rw [if_pos h1] at h
    cases Except.ok.inj h
    dsimp only
    by_cases hz : min mc (pyRound (p.tsc - p.tsd) 2) = 0
    · rw [if_pos hz, hz]
      norm_num
    · rw [if_neg hz]
      exact ⟨lt_of_le_of_ne (le_min hmc h0) (Ne.symm hz), rfl⟩
  · rw [if_neg h1] at h
    by_cases h2 : pyRound (p.tsd - p.tsc) 2 > pyRound (p.tsc - p.tsd) 2
    · have hpos : 0 ≤ p.tsd - p.tsc := by
        by_contra hn
        have := pyRound_mono (a := p.tsd - p.tsc) (b := p.tsc - p.tsd) (by linarith) 2
        linarith
      have h0 := FixedOrder.pyRound_nonneg hpos 2
      rw [if_pos h2] at h
      cases Except.ok.inj h
      dsimp only
      by_cases hz : min md (pyRound (p.tsd - p.tsc) 2) = 0
      · rw [if_pos hz, hz]
        norm_num
      · rw [if_neg hz]
        refine ⟨rfl, lt_of_le_of_ne (le_min hmd h0) (Ne.symm hz), min_le_left _ _, ?_⟩
        have := min_le_right md (pyRound (p.tsd - p.tsc) 2)
        linarith
    · rw [if_neg h2] at h
      cases Except.ok.inj h
      dsimp only
      linarith

/-- The posted equations let the tank give no more than the heat demand. -/
theorem posted_draw {N : Type} {S : MpcIn N} {t : ℕ} {cap : ℚ} {p : Point} (h : Posted S t cap p)
    (he : 0 ≤ S.es.dischargeEff) : p.tsd ≤ S.heatDemand t := by
  have b := h.bounds
  cases hel : S.aux.electric with
  | true =>
    have := (h.electric hel).hd
    have := mul_nonneg b.esdAux he
    linarith [b.hptrd, b.hptid, b.hptesd, b.auxD, b.auxRd]
  | false =>
    have := (h.fuel hel).hd
    linarith [b.hptrd, b.hptid, b.auxD]

/-- An hour of the store: it accepts what is asked of it, and gains no more heat than is booked, up to the rounding of the
plan. -/
theorem store_hour {tk : Tank} {net : ℕ → NetTemps} {air cp de : ℚ} (HS : SteadyStore tk (net 1) air)
    (hcp : specificHeat (net 1).source = .ok cp) {hour : ℕ} (hh : hour < 8760) {prev : List ℚ}
    (hb : Between tk air (net 1).source prev) (hhold : LayersHold tk (net 1) (de + 1 / 200)) {p : Point}
    (hc : 0 ≤ p.tsc) (hde : p.tsd ≤ de) {mc md : ℚ} (hmc : maxEnergy tk 1 .charging (net 1) prev = .ok mc)
    (hmd : maxEnergy tk 1 .discharging (net 1) prev = .ok md) {f : ℚ × ℚ × TankState}
    (h : tankFlows (.ok mc) (.ok md) p = .ok f) :
    ∃ out nodes, newNodesTemp tk hour f.2.2 (net 1) prev f.1 f.2.1 = .ok out ∧ lastProfile out = .ok nodes ∧
      Between tk air (net 1).source nodes ∧
      heatAbove tk cp air nodes + f.2.1 ≤ heatAbove tk cp air prev + f.1 + 1 / 200 := by
  have hcap : 0 ≤ tk.capacity := HS.usable.1.le
  have hk := flows_kind (C33_nonneg hcap HS.flow.1.le hmc) (C33_nonneg hcap HS.flow.1.le hmd) hc h
  obtain ⟨cp', c1, -, c3⟩ := steady_cp HS
  cases Except.ok.inj (hcp.symm.trans c1)
  have hcpos : 0 < cp := by linarith
  have fin : ∀ nodes, Between tk air (net 1).source nodes →
      (∃ E, tk.nodeMass * (nodes.sum - prev.sum) ≤ E * 3600 / (cp / 1000) ∧ E ≤ f.1 - f.2.1 + 1 / 200) →
      heatAbove tk cp air nodes + f.2.1 ≤ heatAbove tk cp air prev + f.1 + 1 / 200 := by
    rintro nodes hn ⟨E, hE, hle⟩
    have hdiff := heatAbove_diff (tk := tk) (air := air) (cp := cp) (hb.1.trans hn.1.symm)
    have : tk.nodeMass * (nodes.sum - prev.sum) * cp / 3600000 ≤ E := by
      have := mul_le_mul_of_nonneg_right hE hcpos.le
      rw [div_le_iff₀ (by norm_num)]
      have e : E * 3600 / (cp / 1000) * cp = E * 3600000 := by
        field_simp
        ring
      linarith
    linarith
  obtain ⟨f1, f2, s⟩ := f
  dsimp only at hk fin ⊢
  cases s with
  | charging =>
    obtain ⟨k1, k2⟩ := hk
    obtain ⟨out, nodes, q1, q2, q3⟩ := between_charge HS hh hb (th := f1) (de := f2) (by linarith)
    exact ⟨out, nodes, q1, q2, q3, fin nodes q3 ⟨f1 - f2, charge_call HS hh hb hcp (by linarith) q1 q2, by linarith⟩⟩
  | standby =>
    obtain ⟨out, nodes, q1, q2, q3⟩ := between_stand HS hh hb f1 f2
    refine ⟨out, nodes, q1, q2, q3, fin nodes q3 ⟨0, ?_, by linarith⟩⟩
    rw [zero_mul, zero_div]
    exact stand_call HS hh hb q1 q2
  | discharging =>
    obtain ⟨k1, k2, k3, k4⟩ := hk
    have htop := offer_top HS (by norm_num) hb hmd (lt_of_lt_of_le k2 k3)
    have hlim : (f2 - f1) * 3600 * 1000 ≤ tk.nodeMass / 2 * 4178 * ((net 1).flow - (net 1).ret) := by
      unfold LayersHold at hhold
      linarith
    obtain ⟨out, nodes, q1, q2, q3⟩ := between_draw HS hh hb (th := f1) (de := f2) htop (by linarith) hlim
    exact ⟨out, nodes, q1, q2, q3,
      fin nodes q3 ⟨f1 - f2, draw_call HS hh hb hcp htop (by linarith) hlim q1 q2, by linarith⟩⟩

/-- **An hour.** Result `r` follows result `b`, whose layers are between the air and the source. Then so are those of `r`,
and the heat in them and the heat booked out of the store are together at most the heat the hour started from, the heat
booked in, and 0.005 kWh for the rounding of the plan. The hour starts from the layers of `b`, or if its first attempt
failed from a store at the return temperature. -/
theorem C131_hour {S : MpcIn (List ℚ)} {g : ℕ → ℕ → Except PyErr Point} {first n i : ℕ} {b r : MpcResults (List ℚ)}
    (h : Consecutive S g first n i b r) (hobey : Obeys S g) (hel : S.aux.electric = true)
    (heff : 0 ≤ S.es.dischargeEff) {tk : Tank} {net : ℕ → NetTemps} {air ret cp : ℚ} (htank : S.tank = ofTank tk net ret)
    (HS : SteadyStore tk (net 1) air) (hret : (net 1).ret = ret) (hcp : specificHeat (net 1).source = .ok cp)
    (hhold : LayersHold tk (net 1) (S.heatDemand (first + (i + 1)) + 1 / 200)) {old : List ℚ}
    (hold : b.ts.finalNodesTemp = some old) (hb : Between tk air (net 1).source old) :
    ∃ attempt start nodes, (∃ p, g (first + i) attempt = .ok p) ∧
      (attempt = 0 ∧ start = old ∨ attempt = 1 ∧ start = S.tank.initTemps) ∧
      r.ts.finalNodesTemp = some nodes ∧ Between tk air (net 1).source nodes ∧
      heatAbove tk cp air nodes + r.ts.dischargingTotal ≤
        heatAbove tk cp air start + r.ts.chargingTotal + 1 / 200 := by
  have hc : S.tank.capacity ≠ 0 := by rw [htank]; exact ne_of_gt HS.usable.1
  have hinit : Between tk air (net 1).source S.tank.initTemps := by
    rw [htank]
    refine ⟨List.length_replicate, List.pairwise_replicate_of_refl, fun t ht => ?_⟩
    rw [List.eq_of_mem_replicate ht, ← hret]
    exact ⟨HS.ret, HS.source.1⟩
  have hhour : first + (i + 1) < 8760 := by
    obtain ⟨rs, h1, h2, h3, h4⟩ := h
    have hn : 2 ≤ n := by
      by_contra hn
      unfold movingHorizon at h1
      split_ifs at h1
      rw [show n - 1 = 0 by omega] at h1
      unfold hours at h1
      cases Except.ok.inj h1
      simp at h3
    obtain ⟨q1, q2, -⟩ := run_shape hn h1
    have := (List.getElem?_eq_some_iff.mp h3).1
    omega
  obtain ⟨hour, a, p, prev, f, nodes, ht, hg, hp, hf, hn, rfl⟩ := consecutive h
  have hh : hour = first + i := by omega
  subst hh
  obtain ⟨cap, hpost⟩ := hobey _ _ _ hg
  have hprev : Between tk air (net 1).source prev := by
    rcases hp with ⟨-, hp⟩ | ⟨-, rfl⟩
    · rw [hold] at hp
      cases Option.some.inj hp
      exact hb
    · exact hinit
  obtain ⟨mc, hmc⟩ := between_offer HS (hour := 1) (by norm_num) .charging hprev
  obtain ⟨md, hmd⟩ := between_offer HS (hour := 1) (by norm_num) .discharging hprev
  have hf' : tankFlows (.ok mc) (.ok md) p = .ok f := by
    rw [htank] at hf
    dsimp only [ofTank] at hf
    rw [hmc, hmd] at hf
    exact hf
  obtain ⟨out, nodes', q1, q2, q3, q4⟩ := store_hour HS hcp hhour hprev hhold hpost.bounds.tsc
    (posted_draw hpost heff) hmc hmd hf'
  have hnodes : nodes' = nodes := by
    unfold finalNodes at hn
    rw [if_neg hc, if_pos hel, htank] at hn
    dsimp only [ofTank] at hn
    rw [show first + i + 1 = first + (i + 1) by omega, q1] at hn
    exact Except.ok.inj (q2.symm.trans hn)
  subst hnodes
  refine ⟨a, prev, nodes', ⟨p, hg⟩, ?_, rfl, q3, q4⟩
  rcases hp with ⟨ha, hp⟩ | ⟨ha, hp⟩
  · rw [hold] at hp
    exact Or.inl ⟨ha, (Option.some.inj hp).symm⟩
  · exact Or.inr ⟨ha, hp⟩

/-- How many of the hours from `first` have an answer of the optimiser on a second attempt. -/
def Spec.retries (g : ℕ → ℕ → Except PyErr Point) (first k : ℕ) : ℕ :=
  (List.range k).countP (fun i => (g (first + i) 1).toOption.isSome)

theorem heatAbove_pos {tk : Tank} {air source cp : ℚ} {nodes : List ℚ} (hu : UsableTank tk) (hcp : 0 < cp)
    (hb : Between tk air source nodes) : 0 < heatAbove tk cp air nodes := by
  have hM := nodeMass_pos hu
  have h2 := hu.2
  unfold heatAbove
  refine div_pos (mul_pos (mul_pos hM hcp) (List.sum_pos _ (fun x hx => ?_) ?_)) (by norm_num)
  · obtain ⟨t, ht, rfl⟩ := List.mem_map.mp hx
    linarith [(hb.2.2 t ht).1]
  · intro hn
    have := hb.1
    rw [List.map_eq_nil_iff.mp hn] at this
    simp at this
    omega

theorem heatAbove_init {tk : Tank} {net : ℕ → NetTemps} {air ret cp : ℚ} (hu : UsableTank tk) :
    heatAbove tk cp air (ofTank tk net ret).initTemps = tk.capacity * cp * (ret - air) / 3600000 := by
  unfold heatAbove
  have h2 := hu.2
  have : (ofTank tk net ret).initTemps = List.replicate tk.number ret := rfl
  rw [this, List.map_replicate, List.sum_replicate, nsmul_eq_mul]
  unfold nodeMass
  have : (tk.number : ℚ) ≠ 0 := by
    have : 0 < tk.number := by omega
    positivity
  field_simp

/-- **A store gives back no more than it got, under predictive control.** For the stores of C126, an electric heater and an
optimiser whose answers satisfy what is posted: up to any hour of a run, the heat in the layers and all the heat booked
out of the store are together at most the heat of a store at the return temperature, all the heat booked in, and
0.005 kWh for each hour. A second attempt starts from a new store, so each hour that needed one adds the heat of that. -/
theorem C131_store_balance {S : MpcIn (List ℚ)} {g : ℕ → ℕ → Except PyErr Point} {first n : ℕ}
    {rs : List (MpcResults (List ℚ))} (h : movingHorizon S g first n = .ok rs) (hn : 2 ≤ n) (hobey : Obeys S g)
    (hel : S.aux.electric = true) (heff : 0 ≤ S.es.dischargeEff) {tk : Tank} {net : ℕ → NetTemps} {air ret cp : ℚ}
    (htank : S.tank = ofTank tk net ret) (HS : SteadyStore tk (net 1) air) (hret : (net 1).ret = ret)
    (hcp : specificHeat (net 1).source = .ok cp)
    (hhold : ∀ hour < 8760, LayersHold tk (net 1) (S.heatDemand hour + 1 / 200)) :
    ∀ i r, rs[i]? = some r → first + i ≠ 8759 → ∃ nodes, r.ts.finalNodesTemp = some nodes ∧
      Between tk air (net 1).source nodes ∧
      heatAbove tk cp air nodes + ((rs.take (i + 1)).map (·.ts.dischargingTotal)).sum ≤
        ((rs.take (i + 1)).map (·.ts.chargingTotal)).sum +
          tk.capacity * cp * (ret - air) / 3600000 * (1 + retries g first i) + (i : ℚ) / 200 := by
  obtain ⟨hy, hl, h0, -, -⟩ := run_shape hn h
  have hcpos : 0 < cp := by
    obtain ⟨cp', c1, -, c3⟩ := steady_cp HS
    cases Except.ok.inj (hcp.symm.trans c1)
    linarith
  have hinit : Between tk air (net 1).source S.tank.initTemps := by
    rw [htank]
    refine ⟨List.length_replicate, List.pairwise_replicate_of_refl, fun t ht => ?_⟩
    rw [List.eq_of_mem_replicate ht, ← hret]
    exact ⟨HS.ret, HS.source.1⟩
  have hheat : heatAbove tk cp air S.tank.initTemps = tk.capacity * cp * (ret - air) / 3600000 := by
    rw [htank]
    exact heatAbove_init HS.usable
  rw [← hheat]
  have hpos0 := heatAbove_pos HS.usable hcpos hinit
  intro i
  induction i with
  | zero =>
    intro r hr _
    rw [h0] at hr
    cases Option.some.inj hr
    refine ⟨S.tank.initTemps, rfl, hinit, ?_⟩
    have e : rs.take 1 = [opening S first] := by
      cases rs with
      | nil => cases h0
      | cons a l =>
        cases Option.some.inj h0
        rfl
    rw [zero_add, e]
    simp [opening, retries]
  | succ i ih =>
    intro r hr h8
    have hlt := (List.getElem?_eq_some_iff.mp hr).1
    have hb : rs[i]? = some (rs[i]'(by omega)) := List.getElem?_eq_getElem _
    obtain ⟨old, o1, o2, o3⟩ := ih _ hb (by omega)
    obtain ⟨a, start, nodes, ⟨p, hg⟩, hs, n1, n2, n3⟩ := C131_hour ⟨rs, h, hb, hr, h8⟩ hobey hel heff htank HS hret hcp
      (hhold _ (by omega)) o1 o2
    refine ⟨nodes, n1, n2, ?_⟩
    rw [List.take_add_one (i := i + 1), hr]
    simp only [Option.toList_some, List.map_append, List.map_cons, List.map_nil, List.sum_append, List.sum_cons,
      List.sum_nil, add_zero]
    have hposo := heatAbove_pos HS.usable hcpos o2
    have hre : (retries g first (i + 1) : ℚ) = retries g first i +
        (if (g (first + i) 1).toOption.isSome then 1 else 0) := by
      unfold retries
      rw [List.range_succ, List.countP_append]
      simp
    have hstart : heatAbove tk cp air start ≤ heatAbove tk cp air old +
        heatAbove tk cp air S.tank.initTemps * (if (g (first + i) 1).toOption.isSome then 1 else 0) := by
      rcases hs with ⟨rfl, rfl⟩ | ⟨rfl, rfl⟩
      · have : (0 : ℚ) ≤ if (g (first + i) 1).toOption.isSome then 1 else 0 := by split_ifs <;> norm_num
        have := mul_nonneg hpos0.le this
        linarith
      · rw [hg]
        simp only [Except.toOption, Option.isSome_some, if_true]
        linarith
    rw [hre]
    push_cast
    have hring : heatAbove tk cp air S.tank.initTemps *
        (1 + (retries g first i + if (g (first + i) 1).toOption.isSome then (1 : ℚ) else 0)) =
      heatAbove tk cp air S.tank.initTemps * (1 + retries g first i) +
        heatAbove tk cp air S.tank.initTemps * (if (g (first + i) 1).toOption.isSome then (1 : ℚ) else 0) := by ring
    rw [hring]
    linarith

/-- So what is drawn from the store is less than what was booked into it, up to the heat of stores at the return
temperature and the rounding. -/
theorem C131_gives_back {S : MpcIn (List ℚ)} {g : ℕ → ℕ → Except PyErr Point} {first n : ℕ}
    {rs : List (MpcResults (List ℚ))} (h : movingHorizon S g first n = .ok rs) (hn : 2 ≤ n) (hobey : Obeys S g)
    (hel : S.aux.electric = true) (heff : 0 ≤ S.es.dischargeEff) {tk : Tank} {net : ℕ → NetTemps} {air ret cp : ℚ}
    (htank : S.tank = ofTank tk net ret) (HS : SteadyStore tk (net 1) air) (hret : (net 1).ret = ret)
    (hcp : specificHeat (net 1).source = .ok cp)
    (hhold : ∀ hour < 8760, LayersHold tk (net 1) (S.heatDemand hour + 1 / 200))
    (hfirst : ∀ hour p, g hour 1 ≠ .ok p) {i : ℕ} (hi : i < n) (h8 : first + i ≠ 8759) :
    ((rs.take (i + 1)).map (·.ts.dischargingTotal)).sum < ((rs.take (i + 1)).map (·.ts.chargingTotal)).sum +
      tk.capacity * cp * (ret - air) / 3600000 + (i : ℚ) / 200 := by
  have hl := (run_shape hn h).2.1
  obtain ⟨nodes, -, n2, n3⟩ := C131_store_balance h hn hobey hel heff htank HS hret hcp hhold i _
    (List.getElem?_eq_getElem (by omega)) h8
  have hcpos : 0 < cp := by
    obtain ⟨cp', c1, -, c3⟩ := steady_cp HS
    cases Except.ok.inj (hcp.symm.trans c1)
    linarith
  have := heatAbove_pos HS.usable hcpos n2
  have hz : retries g first i = 0 := by
    unfold retries
    refine List.countP_eq_zero.mpr fun j _ => ?_
    cases hg : g (first + j) 1 with
    | ok p => exact absurd hg (hfirst _ _)
    | error e => simp [Except.toOption]
  rw [hz] at n3
  push_cast at n3
  linarith

/-- The loop of the hours gets to its end if each hour that has an answer can be carried out. -/
theorem hours_succeed_of {N : Type} {S : MpcIn N} {g : ℕ → ℕ → Except PyErr Point} {first : ℕ} {Q : N → Prop}
    (hsol : ∀ hour a (prev : Carry N), hour ≤ 8757 → (∃ p, g hour a = .ok p) → Q prev.nodes →
      ∃ r c, solve S g hour a (horizonEnd S hour) prev = .ok (r, c) ∧ Q c.nodes)
    (h0 : Q S.tank.initTemps) (hg : ∀ hour, (∃ p, g hour 0 = .ok p) ∨ (∃ p, g hour 1 = .ok p)) :
    ∀ (k hour : ℕ) (L : Lists N), first < hour → hour + k ≤ 8759 → L.next.length = hour - first + 1 →
      (∀ c ∈ L.next, Q c.nodes) → ∃ L', hours S g first k hour L = .ok L'
  | 0, _, L, _, _, _, _ => ⟨L, rfl⟩
  | k + 1, hour, L, h1, h2, h3, h4 => by
    have hadd : ∀ c : Carry N, Q c.nodes → ∀ c' ∈ L.next ++ [c], Q c'.nodes := by
      intro c hc c' hm'
      rcases List.mem_append.mp hm' with h | h
      · exact h4 c' h
      · rw [List.mem_singleton.mp h]
        exact hc
    have hstep : ∃ L1, Mpc.hourStep S g first hour L = .ok L1 ∧ L1.next.length = hour + 1 - first + 1 ∧
        ∀ c ∈ L1.next, Q c.nodes := by
      unfold Mpc.hourStep
      by_cases h8 : hour = 8758
      · rw [if_pos (Or.inr h8), if_neg (by omega)]
        exact ⟨_, rfl, by simp [h3]; omega, hadd _ h0⟩
      · rw [if_neg (by omega)]
        have hget : L.next[hour - first]? = some (L.next[hour - first]'(by omega)) := List.getElem?_eq_getElem _
        have hq := h4 _ (List.getElem_mem (by omega : hour - first < L.next.length))
        dsimp only
        rw [hget]
        dsimp only
        cases hs : solve S g hour 0 (horizonEnd S hour) (L.next[hour - first]'(by omega)) with
        | ok v =>
          obtain ⟨r, c⟩ := v
          obtain ⟨-, p, f, nodes, hgo, -⟩ := solve_ok hs
          obtain ⟨r', c', hok, hq'⟩ := hsol hour 0 _ (by omega) ⟨p, hgo⟩ hq
          rw [hs] at hok
          cases hok
          exact ⟨_, rfl, by simp [h3]; omega, hadd _ hq'⟩
        | error e =>
          have hg1 : ∃ p, g hour 1 = .ok p := by
            rcases hg hour with hg0 | hg1
            · obtain ⟨r, c, hok, -⟩ := hsol hour 0 _ (by omega) hg0 hq
              rw [hs] at hok
              cases hok
            · exact hg1
          obtain ⟨r, c, hok, hq'⟩ := hsol hour 1 (fresh S) (by omega) hg1 h0
          simp only [hok]
          exact ⟨_, rfl, by simp [h3]; omega, hadd _ hq'⟩
    obtain ⟨L1, hL1, hlen, hall⟩ := hstep
    unfold hours
    rw [hL1]
    exact hours_succeed_of hsol h0 hg k (hour + 1) L1 (by omega) (by omega) hlen hall

/-- **Such a run gets to its end.** With a store of C126, an electric heater and a horizon of two hours or more, a run that
starts before hour 8758 ends, as long as the optimiser solves its first hour at once and every later hour at one of two
attempts, with answers that satisfy what is posted: the real tank accepts every plan. -/
theorem C131_ends {S : MpcIn (List ℚ)} {g : ℕ → ℕ → Except PyErr Point} {first n : ℕ} (hobey : Obeys S g)
    (hel : S.aux.electric = true) (heff : 0 ≤ S.es.dischargeEff) {tk : Tank} {net : ℕ → NetTemps} {air source ret : ℚ}
    (htank : S.tank = ofTank tk net ret)
    (hst : ∀ hour < 8760, SteadyStore tk (net hour) air ∧ (net hour).source = source ∧ (net hour).ret = ret)
    (hhold : ∀ hour < 8760, LayersHold tk (net 1) (S.heatDemand hour + 1 / 200)) (hhor : 2 ≤ S.horizon)
    (hg0 : ∃ p, g first 0 = .ok p) (hg : ∀ hour, (∃ p, g hour 0 = .ok p) ∨ (∃ p, g hour 1 = .ok p))
    (hn : 2 ≤ n) (hf : first ≤ 8757) (hy : first + n ≤ 8760) :
    ∃ rs, movingHorizon S g first n = .ok rs ∧ rs.length = n := by
  obtain ⟨HS, hsrc, hret⟩ := hst 1 (by norm_num)
  have hc : S.tank.capacity ≠ 0 := by rw [htank]; exact ne_of_gt HS.usable.1
  have hinit : Between tk air source S.tank.initTemps := by
    rw [htank]
    refine ⟨List.length_replicate, List.pairwise_replicate_of_refl, fun t ht => ?_⟩
    rw [List.eq_of_mem_replicate ht, ← hsrc, ← hret]
    exact ⟨HS.ret, HS.source.1⟩
  obtain ⟨cp, hcp, -⟩ := steady_cp HS
  have hsol : ∀ hour a (prev : Carry (List ℚ)), hour ≤ 8757 → (∃ p, g hour a = .ok p) →
      Between tk air source prev.nodes →
      ∃ r c, solve S g hour a (horizonEnd S hour) prev = .ok (r, c) ∧ Between tk air source c.nodes := by
    rintro hour a ⟨prev⟩ h7 ⟨p, hp⟩ hb
    dsimp only at hb
    obtain ⟨HSh, hsrch, -⟩ := hst hour (by omega)
    obtain ⟨v0, hv0⟩ := between_offer HSh (hour := hour) (by omega) .discharging (by rw [hsrch]; exact hb)
    rw [← hsrc] at hb
    obtain ⟨mc, hmc⟩ := between_offer HS (hour := 1) (by norm_num) .charging hb
    obtain ⟨md, hmd⟩ := between_offer HS (hour := 1) (by norm_num) .discharging hb
    obtain ⟨f, hfl⟩ : ∃ f, tankFlows (.ok mc) (.ok md) p = .ok f := by
      unfold tankFlows
      dsimp only
      split_ifs <;> exact ⟨_, rfl⟩
    obtain ⟨cap, hpost⟩ := hobey _ _ _ hp
    obtain ⟨out, nodes, q1, q2, q3, -⟩ := store_hour HS hcp (hour := hour + 1) (by omega) hb
      (hhold (hour + 1) (by omega)) hpost.bounds.tsc (posted_draw hpost heff) hmc hmd hfl
    have hnod : finalNodes S hour ⟨prev⟩ f = .ok nodes := by
      unfold finalNodes
      rw [if_neg hc, if_pos hel, htank]
      dsimp only [ofTank]
      rw [q1]
      exact q2
    have hend : hour + 2 ≤ horizonEnd S hour := by
      unfold horizonEnd
      split_ifs <;> omega
    refine ⟨report S (hour + 1) p f nodes, ⟨nodes⟩, ?_, by rw [← hsrc]; exact q3⟩
    have e0 : S.tank.maxInOut hour hour .discharging prev = .ok v0 := by rw [htank]; exact hv0
    have e1 : S.tank.maxInOut 1 1 .charging prev = .ok mc := by rw [htank]; exact hmc
    have e2 : S.tank.maxInOut 1 1 .discharging prev = .ok md := by rw [htank]; exact hmd
    unfold solve
    simp only [e0, hp, if_neg (by omega : ¬ horizonEnd S hour < hour + 2), e1, e2, hfl, hnod]
  obtain ⟨r, c, hok, hq⟩ := hsol first 0 (fresh S) hf hg0 hinit
  obtain ⟨k, rfl⟩ : ∃ k, n = k + 2 := ⟨n - 2, by omega⟩
  have hstep : Mpc.hourStep S g first first ⟨[], []⟩ = .ok ⟨[opening S first, r], [fresh S, c]⟩ := by
    unfold Mpc.hourStep
    rw [if_pos (Or.inl rfl), if_pos rfl, hok]
    rfl
  obtain ⟨L, hL⟩ := hours_succeed_of hsol hinit hg (first := first) k (first + 1)
    ⟨[opening S first, r], [fresh S, c]⟩ (by omega) (by omega) (by simp)
    (by simp only [List.forall_mem_cons, List.not_mem_nil, false_implies, implies_true, and_true]; exact ⟨hinit, hq⟩)
  have hrun : movingHorizon S g first (k + 2) = .ok L.results := by
    unfold movingHorizon
    rw [if_neg (by omega), show k + 2 - 1 = k + 1 by omega]
    unfold hours
    rw [hstep]
    dsimp only
    rw [hL]
  exact ⟨_, hrun, C47_count_partial hn hrun⟩

/-! ### A year -/

/-- The system of `Samples.steady` with the store of C126. -/
def Spec.storedYear : MpcIn (List ℚ) :=
  { hp := (Samples.steady true 1).hp, es := (Samples.steady true 1).es, aux := (Samples.steady true 1).aux,
    tank := ofTank bigStore (fun _ => labNet) 40, exportPrice := 10, horizon := 24, generation := fun _ => 6,
    wind := fun _ => 6, pv := fun _ => 0, elecDemand := fun _ => 3, heatDemand := fun _ => 9,
    importCost := fun _ => 100, perf := fun _ => ⟨3, 9⟩, peakHeatDemand := 9 }

/-- Plans that fill the store for 300 hours and then draw the demand from it in every hour. -/
def Spec.fillAndDraw (hour attempt : ℕ) : Except PyErr Point :=
  if attempt = 0 then .ok (if hour < 300 then Samples.crossed else Samples.drawn) else .error .other

theorem fillAndDraw_obeys : Obeys storedYear fillAndDraw := by
  intro hour a p hp
  unfold fillAndDraw at hp
  split_ifs at hp with h1 h2
  · cases Except.ok.inj hp
    refine ⟨100, ?_, fun _ => ?_, fun h => (by cases h), ?_⟩ <;> constructor <;>
      norm_num [Samples.crossed, Samples.zero, storedYear, Samples.steady, hpMin]
  · cases Except.ok.inj hp
    refine ⟨100, ?_, fun _ => ?_, fun h => (by cases h), ?_⟩ <;> constructor <;>
      norm_num [Samples.drawn, Samples.zero, storedYear, Samples.steady, hpMin]

theorem storedYear_holds (hour : ℕ) : LayersHold bigStore labNet (storedYear.heatDemand hour + 1 / 200) := by
  show LayersHold bigStore labNet (9 + 1 / 200)
  norm_num [LayersHold, labNet, bigStore, wallTank, labTank, nodeMass]

/-- The year with these plans ends, and up to every hour but the last of the year the store has given back less than it
got, 872 kWh and the rounding. -/
example : ∃ rs, movingHorizon storedYear fillAndDraw 0 8760 = .ok rs ∧ rs.length = 8760 ∧ ∀ i < 8759,
    ((rs.take (i + 1)).map (·.ts.dischargingTotal)).sum <
      ((rs.take (i + 1)).map (·.ts.chargingTotal)).sum + 872 + (i : ℚ) / 200 := by
  obtain ⟨rs, h, hl⟩ := C131_ends (first := 0) (n := 8760) fillAndDraw_obeys rfl (by norm_num [storedYear, Samples.steady])
    (tk := bigStore) (net := fun _ => labNet) (air := 15) (source := 60) (ret := 40) rfl
    (fun _ _ => ⟨bigStore_steady, rfl, rfl⟩) (fun hour _ => storedYear_holds hour) (by norm_num [storedYear])
    ⟨_, rfl⟩ (fun _ => Or.inl ⟨_, rfl⟩) (by norm_num) (by norm_num) (by norm_num)
  refine ⟨rs, h, hl, fun i hi => ?_⟩
  have := C131_gives_back h (by norm_num) fillAndDraw_obeys rfl (by norm_num [storedYear, Samples.steady])
    (tk := bigStore) (net := fun _ => labNet) (air := 15) (ret := 40) (cp := 4185) rfl bigStore_steady rfl
    (by decide +kernel) (fun hour _ => storedYear_holds hour)
    (fun hour p hp => by unfold fillAndDraw at hp; rw [if_neg (by norm_num)] at hp; cases hp) (i := i) (by omega) (by omega)
  have e : bigStore.capacity = 30000 := rfl
  have e2 : (30000 : ℚ) * 4185 * (40 - 15) / 3600000 < 872 := by norm_num
  rw [e] at this
  linarith

/-- An hour that draws: of a store at 57 to 59 degrees the plan takes 9 kWh, and so do the results. -/
example : ∃ r c, solve storedYear fillAndDraw 300 0 324 ⟨[59, 58, 57]⟩ = .ok (r, c) ∧ r.ts.dischargingTotal = 9 ∧
    r.ts.chargingTotal = 0 ∧ heatAbove bigStore 4185 15 c.nodes + 9 ≤ heatAbove bigStore 4185 15 [59, 58, 57] := by
  obtain ⟨⟨r, c⟩, h⟩ : ∃ v : MpcResults (List ℚ) × Carry (List ℚ), solve storedYear fillAndDraw 300 0 324 ⟨[59, 58, 57]⟩ = .ok v ∧
    v.1.ts.dischargingTotal = 9 ∧ v.1.ts.chargingTotal = 0 ∧
    heatAbove bigStore 4185 15 v.2.nodes + 9 ≤ heatAbove bigStore 4185 15 [59, 58, 57] :=
    exists_of_checks (by decide +kernel)
  exact ⟨r, c, h⟩

end Verif
