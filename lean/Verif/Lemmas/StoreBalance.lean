import Verif.Spec.StoreBalance
import Verif.Lemmas.TankServes

/-!
# The heat of a store over its passes (for C129)
-/

set_option autoImplicit false

namespace Verif.Tank
open Spec

variable {tk : Tank} {net : NetTemps} {air : ℚ} {nodes new : List ℚ}

/-- In a pass the layers gain at most what the flow brings: the wall only takes. -/
theorem pass_sum (H : SteadyStore tk net air) {hour : ℕ} (hh : hour < 8760) {state : TankState}
    (h : Between tk air net.source nodes) {th de : ℚ} (hn : internalStep tk hour state net th de nodes = .ok new) :
    ∃ m, massFlow state net th de (temp nodes (tk.number - 1)) (temp nodes 0) = .ok m ∧
      tk.nodeMass * (new.sum - nodes.sum) ≤
        min m tk.nodeMass * ((List.range tk.number).map (fun i => flowTerm tk state nodes net i)).sum := by
  have hM := nodeMass_pos H.usable
  obtain ⟨m, cs, k, amb, hm, hcs, hk, ha, rfl⟩ := internalStep_ok hn
  cases Except.ok.inj (ha.symm.trans (H.surroundings hour hh))
  refine ⟨m, hm, ?_⟩
  rw [(sortDown_perm _).sum_eq]
  have hle : ((List.range tk.number).map (fun i => temp nodes i +
        slope tk ⟨min m tk.nodeMass, k, air⟩ state nodes net i (cs.getD i 0))).sum ≤
      ((List.range tk.number).map (fun i => temp nodes i +
        min m tk.nodeMass / tk.nodeMass * flowTerm tk state nodes net i)).sum := by
    refine List.sum_le_sum fun i hi => ?_
    have hi' : i < tk.number := by simpa using hi
    obtain ⟨w, w0, w1, hw⟩ := steady_slope H hk (cps_pos hcs (by rw [h.1]; exact hi'))
    have := mul_nonneg w0.le (sub_nonneg.mpr (between_temp h hi').1.le)
    rw [hw]
    linarith
  rw [sum_new h.1 _ _ _ (fun i _ => rfl)] at hle
  have := mul_le_mul_of_nonneg_left hle hM.le
  have e : tk.nodeMass * (nodes.sum + min m tk.nodeMass / tk.nodeMass *
      ((List.range tk.number).map (fun i => flowTerm tk state nodes net i)).sum) =
      tk.nodeMass * nodes.sum + min m tk.nodeMass *
        ((List.range tk.number).map (fun i => flowTerm tk state nodes net i)).sum := by
    field_simp
  rw [e] at this
  linarith

theorem charging_flow (H : SteadyStore tk net air) (h : Between tk air net.source nodes) :
    ((List.range tk.number).map (fun i => flowTerm tk .charging nodes net i)).sum =
      net.source - temp nodes (tk.number - 1) := by
  have h2 := H.usable.2
  have hf : ∀ j < tk.number, chargeFlag .charging nodes net.source j = if j = 0 then 1 else 0 := by
    intro j hj
    rw [chargeFlag_eq]
    by_cases h0 : j = 0
    · rw [if_pos h0, if_pos ⟨(between_temp h hj).2.le, .inl h0⟩]
    · rw [if_neg h0, if_neg]
      rintro ⟨-, h1 | h1⟩
      · exact h0 h1
      · have := (between_temp h (show j - 1 < tk.number by omega)).2
        linarith
  rw [← sum_telescope_up (temp nodes) net.source 0 tk.number (by omega)]
  congr 1
  refine List.map_congr_left fun i hi => ?_
  exact flow_charging net (c := 0) (by omega) (by simpa using hi) hf

theorem discharging_flow (H : SteadyStore tk net air) (h : Between tk air net.source nodes)
    (htop : net.flow ≤ temp nodes 0) :
    ((List.range tk.number).map (fun i => flowTerm tk .discharging nodes net i)).sum = net.ret - temp nodes 0 := by
  have h2 := H.usable.2
  obtain ⟨n, hn⟩ : ∃ n, tk.number = n + 1 := ⟨tk.number - 1, by omega⟩
  rw [← sum_telescope_down (temp nodes) net.ret n, ← hn]
  congr 1
  refine List.map_congr_left fun i hi => ?_
  rw [flow_discharging H.usable net (fun j hj => dischargeFlag_strat h.2.1 (by rw [h.1]; exact hj)) (by simpa using hi),
    if_pos htop, show tk.number - 1 = n by omega]

/-- A pass of charging adds at most what is made beyond the demand. -/
theorem charge_pass (H : SteadyStore tk net air) {hour : ℕ} (hh : hour < 8760)
    (h : Between tk air net.source nodes) {th de cp : ℚ} (hcp : specificHeat net.source = .ok cp)
    (hn : internalStep tk hour .charging net th de nodes = .ok new) :
    tk.nodeMass * (new.sum - nodes.sum) ≤ (th - de) / (cp / 1000) := by
  have h2 := H.usable.2
  obtain ⟨m, hm, hle⟩ := pass_sum H hh h hn
  obtain ⟨cp', c1, c2, c3⟩ := steady_cp H
  cases Except.ok.inj (hcp.symm.trans c1)
  rw [charging_flow H h] at hle
  obtain ⟨hne, hm'⟩ := massFlow_charging_ok c1 c2 hm
  have hb := (between_temp h (show tk.number - 1 < tk.number by omega)).2
  have := mul_le_mul_of_nonneg_right (min_le_left m tk.nodeMass) (sub_nonneg.mpr hb.le)
  have e : m * (net.source - temp nodes (tk.number - 1)) = (th - de) / (cp / 1000) := by
    rw [hm', div_mul_cancel₀ _ hne, sub_div]
  linarith

/-- A pass of discharging takes at least what the demand lacks. -/
theorem draw_pass (H : SteadyStore tk net air) {hour : ℕ} (hh : hour < 8760)
    (h : Between tk air net.source nodes) {th de cp : ℚ} (hcp : specificHeat net.source = .ok cp)
    (htop : net.flow ≤ temp nodes 0) (hle' : th ≤ de)
    (hlim : (de - th) * 1000 ≤ tk.nodeMass / 2 * 4178 * (net.flow - net.ret))
    (hn : internalStep tk hour .discharging net th de nodes = .ok new) :
    tk.nodeMass * (new.sum - nodes.sum) ≤ (th - de) / (cp / 1000) := by
  have hM := nodeMass_pos H.usable
  obtain ⟨m, hm, hle⟩ := pass_sum H hh h hn
  obtain ⟨cp', c1, c2, c3⟩ := steady_cp H
  cases Except.ok.inj (hcp.symm.trans c1)
  rw [discharging_flow H h htop] at hle
  obtain ⟨m', hm1, m0, m1⟩ := steady_discharge H (temp nodes (tk.number - 1)) htop hle' hlim (by positivity)
  cases Except.ok.inj (hm.symm.trans hm1)
  rw [min_eq_left (by linarith)] at hle
  obtain ⟨hne, hm'⟩ := massFlow_discharging_ok c1 c2 hm
  have hpos : 0 < temp nodes 0 - net.ret := by linarith [H.flow.1]
  have e : m * (temp nodes 0 - net.ret) = (de - th) / (cp / 1000) := by
    rw [hm', ← sub_div, abs_of_nonneg (div_nonneg (div_nonneg (by linarith) (by linarith)) hpos.le),
      div_mul_cancel₀ _ hne]
  have e2 : (th - de) / (cp / 1000) = -((de - th) / (cp / 1000)) := by rw [← neg_div]; ring
  rw [e2, ← e]
  linarith

/-- A pass of standing by adds nothing. -/
theorem stand_pass (H : SteadyStore tk net air) {hour : ℕ} (hh : hour < 8760)
    (h : Between tk air net.source nodes) {th de : ℚ}
    (hn : internalStep tk hour .standby net th de nodes = .ok new) :
    tk.nodeMass * (new.sum - nodes.sum) ≤ 0 := by
  obtain ⟨m, hm, hle⟩ := pass_sum H hh h hn
  have e : ((List.range tk.number).map (fun i => flowTerm tk .standby nodes net i)).sum = 0 := by
    refine List.sum_eq_zero fun x hx => ?_
    obtain ⟨i, hi, rfl⟩ := List.mem_map.mp hx
    exact flow_standby ..
  rw [e, mul_zero] at hle
  exact hle

/-- What holds of each pass adds up over the passes. -/
theorem passes_sum {hour : ℕ} {state : TankState} {th de E : ℚ}
    (hstep : ∀ a b, Between tk air net.source a → internalStep tk hour state net th de a = .ok b →
      Between tk air net.source b ∧ tk.nodeMass * (b.sum - a.sum) ≤ E) :
    ∀ (t : ℕ) (nodes : List ℚ) (ps : List (List ℚ)), Between tk air net.source nodes →
      profiles tk hour state net th de t nodes = .ok ps →
      ∀ p, (nodes :: ps).getLast? = some p → tk.nodeMass * (p.sum - nodes.sum) ≤ t * E := by
  intro t
  induction t with
  | zero =>
    intro nodes ps _ h p hp
    cases h
    cases hp
    simp
  | succ t ih =>
    intro nodes ps hb h p hp
    unfold profiles at h
    cases hn : internalStep tk hour state net th de nodes with
    | error e => rw [hn] at h; cases h
    | ok b =>
      rw [hn] at h
      dsimp only at h
      cases hps : profiles tk hour state net th de t b with
      | error e => rw [hps] at h; cases h
      | ok ps' =>
        rw [hps] at h
        cases h
        obtain ⟨hb', hs⟩ := hstep nodes b hb hn
        rw [List.getLast?_cons_cons] at hp
        have := ih b ps' hb' hps p hp
        push_cast
        linarith

/-- The passes of a call that ends with a profile. -/
theorem call_passes (h1 : 1 ≤ tk.number) {hour : ℕ} {state : TankState} {th de : ℚ} {out : NodesOut} {p : List ℚ}
    (ho : newNodesTemp tk hour state net nodes th de = .ok out) (hp : lastProfile out = .ok p) :
    ∃ mf ps, massFlow state net th de (temp nodes (tk.number - 1)) (temp nodes 0) = .ok mf ∧
      1 ≤ stepCount tk (mf * 3600) ∧
      profiles tk hour state net (th * 3600 / stepCount tk (mf * 3600)) (de * 3600 / stepCount tk (mf * 3600))
        (stepCount tk (mf * 3600)) nodes = .ok ps ∧ (nodes :: ps).getLast? = some p := by
  cases out with
  | flat xs => cases hp
  | profiles ps =>
    obtain ⟨-, -, -, -, mf, hm, hps⟩ := newNodesTemp_profiles ho
    obtain ⟨c1, -⟩ := stepCount_range (tk := tk) h1 (mf * 3600)
    refine ⟨mf, ps, hm, c1, hps, ?_⟩
    unfold lastProfile at hp
    dsimp only at hp
    cases hl : ps.getLast? with
    | none => rw [hl] at hp; cases hp
    | some q =>
      rw [hl] at hp
      cases hp
      rw [List.getLast?_cons, hl]
      rfl

/-- Charging adds at most what is made beyond the demand. -/
theorem charge_call (H : SteadyStore tk net air) {hour : ℕ} (hh : hour < 8760)
    (h : Between tk air net.source nodes) {th de cp : ℚ} (hcp : specificHeat net.source = .ok cp) (hle : de ≤ th)
    {out : NodesOut} {p : List ℚ} (ho : newNodesTemp tk hour .charging net nodes th de = .ok out)
    (hp : lastProfile out = .ok p) : tk.nodeMass * (p.sum - nodes.sum) ≤ (th - de) * 3600 / (cp / 1000) := by
  have h2 := H.usable.2
  obtain ⟨mf, ps, hm, c1, hps, hlast⟩ := call_passes (by omega) ho hp
  generalize stepCount tk (mf * 3600) = t at c1 hps
  have ht : (0 : ℚ) < t := by exact_mod_cast c1
  have := passes_sum (E := (th * 3600 / t - de * 3600 / t) / (cp / 1000)) (fun a b ha hab => by
    refine ⟨?_, charge_pass H hh ha hcp hab⟩
    obtain ⟨m', hm', h0⟩ := steady_charge H (th := th * 3600 / t) (de := de * 3600 / t) (temp a 0)
      (between_temp ha (show tk.number - 1 < tk.number by omega)).2
      (div_le_div_of_nonneg_right (by linarith) ht.le)
    obtain ⟨b', hb', hI⟩ := between_pass H hh ha hm' h0 (by intro hx; cases hx)
    cases Except.ok.inj (hab.symm.trans hb')
    exact hI) t nodes ps h hps p hlast
  have e : (t : ℚ) * ((th * 3600 / t - de * 3600 / t) / (cp / 1000)) = (th - de) * 3600 / (cp / 1000) := by
    rw [← mul_div_assoc, ← sub_div, mul_div_cancel₀ _ ht.ne']
    ring
  rw [e] at this
  exact this

/-- Standing by adds nothing. -/
theorem stand_call (H : SteadyStore tk net air) {hour : ℕ} (hh : hour < 8760)
    (h : Between tk air net.source nodes) {th de : ℚ}
    {out : NodesOut} {p : List ℚ} (ho : newNodesTemp tk hour .standby net nodes th de = .ok out)
    (hp : lastProfile out = .ok p) : tk.nodeMass * (p.sum - nodes.sum) ≤ 0 := by
  have h2 := H.usable.2
  obtain ⟨mf, ps, hm, c1, hps, hlast⟩ := call_passes (by omega) ho hp
  have := passes_sum (E := 0) (fun a b ha hab => by
    refine ⟨?_, stand_pass H hh ha hab⟩
    obtain ⟨b', hb', hI⟩ := between_pass H hh ha (state := .standby) (m := 0) rfl le_rfl (by intro hx; cases hx)
    cases Except.ok.inj (hab.symm.trans hb')
    exact hI) _ nodes ps h hps p hlast
  rwa [mul_zero] at this

/-- Discharging takes at least what the demand lacks. -/
theorem draw_call (H : SteadyStore tk net air) {hour : ℕ} (hh : hour < 8760)
    (h : Between tk air net.source nodes) {th de cp : ℚ} (hcp : specificHeat net.source = .ok cp)
    (htop : net.flow ≤ temp nodes 0) (hle : th ≤ de)
    (hlim : (de - th) * 3600 * 1000 ≤ tk.nodeMass / 2 * 4178 * (net.flow - net.ret))
    {out : NodesOut} {p : List ℚ} (ho : newNodesTemp tk hour .discharging net nodes th de = .ok out)
    (hp : lastProfile out = .ok p) : tk.nodeMass * (p.sum - nodes.sum) ≤ (th - de) * 3600 / (cp / 1000) := by
  have h2 := H.usable.2
  have hM := nodeMass_pos H.usable
  obtain ⟨mf, ps, hm, -, hps, hlast⟩ := call_passes (by omega) ho hp
  obtain ⟨m, hm', m0, m1⟩ := steady_discharge H (th := th) (de := de) (lim := tk.nodeMass / 2 / 3600)
    (temp nodes (tk.number - 1)) htop hle (by linarith) (by positivity)
  cases Except.ok.inj (hm.symm.trans hm')
  have hc : stepCount tk (mf * 3600) = 1 := by
    unfold stepCount
    have : ⌈mf * 3600 / tk.nodeMass⌉ ≤ 1 := by
      rw [Int.ceil_le, div_le_iff₀ hM]
      push_cast
      linarith
    have : min (tk.number : ℤ) ⌈mf * 3600 / tk.nodeMass⌉ ≤ 1 := le_trans (min_le_right _ _) this
    rw [max_eq_right this]
    rfl
  rw [hc] at hps
  unfold profiles at hps
  cases hn : internalStep tk hour .discharging net (th * 3600 / (1 : ℕ)) (de * 3600 / (1 : ℕ)) nodes with
  | error e => rw [hn] at hps; cases hps
  | ok b =>
    rw [hn] at hps
    dsimp only [profiles] at hps
    cases hps
    cases hlast
    have := draw_pass H hh h hcp htop (by push_cast; linarith) (by push_cast; linarith) hn
    rw [show th * 3600 / ((1 : ℕ) : ℚ) - de * 3600 / ((1 : ℕ) : ℚ) = (th - de) * 3600 by push_cast; ring] at this
    exact this

/-- If such a store offers anything, its top is warm enough for the network. -/
theorem offer_top (H : SteadyStore tk net air) {hour : ℕ} (hh : hour < 8760) (h : Between tk air net.source nodes)
    {m : ℚ} (hm : maxEnergy tk hour .discharging net nodes = .ok m) (hpos : 0 < m) : net.flow ≤ temp nodes 0 := by
  by_contra hcool
  have hM := nodeMass_pos H.usable
  have := C33_cool_top_wall_partial H.usable H.sealed H.wall.le
    (fun k hk => by
      obtain ⟨k', hk', hin⟩ := H.insulation
      cases Except.ok.inj (hk.symm.trans hk')
      have := mul_nonneg H.wall.le (kValue_pos hk).le
      linarith)
    (hour := hour) (net := net)
    (fun a ha => by
      cases Except.ok.inj (ha.symm.trans (H.surroundings hour hh))
      linarith [H.ret, H.flow.1]) h.2.1 h.1 (not_le.mp hcool) hm
  linarith

theorem heatAbove_diff {cp : ℚ} {a b : List ℚ} (ha : a.length = b.length) :
    heatAbove tk cp air b - heatAbove tk cp air a = tk.nodeMass * (b.sum - a.sum) * cp / 3600000 := by
  have e : ∀ l : List ℚ, (l.map (· - air)).sum = l.sum - l.length * air := by
    intro l
    induction l with
    | nil => simp
    | cons x l ih => rw [List.map_cons, List.sum_cons, ih, List.sum_cons, List.length_cons]; push_cast; ring
  unfold heatAbove
  rw [e, e, ha]
  ring

end Verif.Tank
