import Verif.Lemmas.MpcTank
import Verif.Props.MpcBalance
import Verif.Lemmas.Grid

/-!
# The tank under predictive control (C84)

`b` and `r` are consecutive results of a run, `r` not being the last hour of the year (which repeats the
first, see C47). The tank `prev` that hour `r` starts from is the one `b` reports, or, if the optimiser
failed at first, the tank of the start of the run.
-/

set_option autoImplicit false

namespace Verif
open Mpc
variable {N : Type}

/-- `b` and `r` are results `i` and `i + 1` of a run, and `r` is not the last hour of the year. -/
def Spec.Consecutive (S : MpcIn N) (g : ℕ → ℕ → Except PyErr Point) (first n i : ℕ) (b r : MpcResults N) : Prop :=
  ∃ rs, movingHorizon S g first n = .ok rs ∧ rs[i]? = some b ∧ rs[i + 1]? = some r ∧ first + (i + 1) ≠ 8759

/-- The tank an hour starts from: the one the hour before left, or on the second attempt a new one. -/
def Spec.StartsFrom (S : MpcIn N) (b : MpcResults N) (attempt : ℕ) (prev : N) : Prop :=
  attempt = 0 ∧ b.ts.finalNodesTemp = some prev ∨ attempt = 1 ∧ prev = S.tank.initTemps

/-- How the tank is moved in an hour when `plan` kWh more were to go in than out. -/
inductive Spec.Moved (offer : TankState → Except PyErr ℚ) (plan : ℚ) : TankState → ℚ → ℚ → Prop
  /-- in, as much as planned (to the hundredth) and as fits -/
  | charge (m c : ℚ) : 0 < plan → offer .charging = .ok m → |c - plan| ≤ 1/200 → min m c ≠ 0 →
      Spec.Moved offer plan .charging (min m c) 0
  /-- out, as much as planned and as there is -/
  | discharge (m d : ℚ) : plan < 0 → offer .discharging = .ok m → |d - -plan| ≤ 1/200 → min m d ≠ 0 →
      Spec.Moved offer plan .discharging 0 (min m d)
  /-- planned to be filled, but full -/
  | full (m c : ℚ) : 0 < plan → offer .charging = .ok m → |c - plan| ≤ 1/200 → min m c = 0 →
      Spec.Moved offer plan .standby 0 0
  /-- planned to be emptied, but empty -/
  | empty (m d : ℚ) : plan < 0 → offer .discharging = .ok m → |d - -plan| ≤ 1/200 → min m d = 0 →
      Spec.Moved offer plan .standby 0 0
  /-- nearly as much in as out -/
  | rest (c d : ℚ) : |plan| ≤ 1/200 → c - d = plan → Spec.Moved offer plan .standby c d

/-- The predecessor of an hour in `Spec.FromOptimiser`. -/
theorem consecutive {S : MpcIn N} {g : ℕ → ℕ → Except PyErr Point} {first n i : ℕ} {b r : MpcResults N}
    (h : Spec.Consecutive S g first n i b r) : FollowsOn S g (first + (i + 1)) b r := by
  obtain ⟨rs, h1, h2, h3, h4⟩ := h
  by_cases hn : 2 ≤ n
  · exact run_chain hn h1 h2 h3 h4
  · exfalso
    unfold movingHorizon at h1
    split_ifs at h1
    rw [show n - 1 = 0 by omega] at h1
    unfold hours at h1
    cases Except.ok.inj h1
    simp at h3

theorem moved_of_flows {offer : TankState → Except PyErr ℚ} {p : Point} {f : ℚ × ℚ × TankState}
    (h : tankFlows (offer .charging) (offer .discharging) p = .ok f) :
    Spec.Moved offer (p.tsc - p.tsd) f.2.2 f.1 f.2.1 := by
  have hc := FixedOrder.pyRound_bounds (p.tsc - p.tsd) 2
  have hd := FixedOrder.pyRound_bounds (p.tsd - p.tsc) 2
  norm_num at hc hd
  unfold tankFlows at h
  dsimp only at h
  by_cases h1 : pyRound (p.tsc - p.tsd) 2 > pyRound (p.tsd - p.tsc) 2
  · have hpos : 0 < p.tsc - p.tsd := by
      by_contra hn
      have := pyRound_mono (a := p.tsc - p.tsd) (b := p.tsd - p.tsc) (by linarith) 2
      linarith
    have habs : |pyRound (p.tsc - p.tsd) 2 - (p.tsc - p.tsd)| ≤ 1 / 200 := by
      rw [abs_le]
      constructor <;> linarith
    rw [if_pos h1] at h
    split at h
    · cases h
    · rename_i m hm
      cases Except.ok.inj h
      dsimp only
      by_cases h0 : min m (pyRound (p.tsc - p.tsd) 2) = 0
      · rw [if_pos h0, h0]
        exact .full m _ hpos hm habs h0
      · rw [if_neg h0]
        exact .charge m _ hpos hm habs h0
  · rw [if_neg h1] at h
    by_cases h2 : pyRound (p.tsd - p.tsc) 2 > pyRound (p.tsc - p.tsd) 2
    · have hneg : p.tsc - p.tsd < 0 := by
        by_contra hn
        have := pyRound_mono (a := p.tsd - p.tsc) (b := p.tsc - p.tsd) (by linarith) 2
        linarith
      have habs : |pyRound (p.tsd - p.tsc) 2 - -(p.tsc - p.tsd)| ≤ 1 / 200 := by
        rw [abs_le]
        constructor <;> linarith
      rw [if_pos h2] at h
      split at h
      · cases h
      · rename_i m hm
        cases Except.ok.inj h
        dsimp only
        by_cases h0 : min m (pyRound (p.tsd - p.tsc) 2) = 0
        · rw [if_pos h0, h0]
          exact .empty m _ hneg hm habs h0
        · rw [if_neg h0]
          exact .discharge m _ hneg hm habs h0
    · rw [if_neg h2] at h
      cases Except.ok.inj h
      refine .rest _ _ ?_ rfl
      rw [abs_le]
      constructor <;> linarith

/-- C84: with an electric heater and a tank, every hour moves the tank by the heat it is reported to take
in and give out, and that is the plan of the optimiser, cut to what the tank offers. Missing: after a
failed first attempt the hour does not start from the tank the hour before left
(`C84_failure_forgets_heat`). -/
theorem C84_tank_moved_partial {S : MpcIn N} {g : ℕ → ℕ → Except PyErr Point} {first n i : ℕ} {b r : MpcResults N}
    (h : Spec.Consecutive S g first n i b r) (he : S.aux.electric = true) (hc : S.tank.capacity ≠ 0) :
    ∃ attempt prev p state nodes, g (first + i) attempt = .ok p ∧ Spec.StartsFrom S b attempt prev ∧
      Spec.Moved (fun s => S.tank.maxInOut 1 1 s prev) (p.tsc - p.tsd) state r.ts.chargingTotal r.ts.dischargingTotal ∧
      S.tank.newNodes 1 (first + (i + 1)) state prev r.ts.chargingTotal r.ts.dischargingTotal = .ok nodes ∧
      r.ts.finalNodesTemp = some nodes ∧ r.heatDemand.ts = r.ts.dischargingTotal := by
  obtain ⟨hour, a, p, prev, f, nodes, ht, hg, hp, hf, hn, rfl⟩ := consecutive h
  have hh : hour = first + i := by omega
  subst hh
  unfold finalNodes at hn
  rw [if_neg hc, if_pos he] at hn
  exact ⟨a, prev, p, f.2.2, nodes, hg, hp, moved_of_flows (offer := fun s => S.tank.maxInOut 1 1 s prev) hf,
    hn, rfl, rfl⟩

/-- C84: without a tank the temperatures carried along never change, in any result. -/
theorem C84_no_tank_unchanged {S : MpcIn N} {g : ℕ → ℕ → Except PyErr Point} {first n : ℕ}
    {rs : List (MpcResults N)} (h : movingHorizon S g first n = .ok rs) (hn : 2 ≤ n) (hc : S.tank.capacity = 0) :
    ∀ r ∈ rs, r.ts.finalNodesTemp = some S.tank.initTemps := by
  obtain ⟨_, hl, h0, _, hi⟩ := run_shape hn h
  have key : ∀ (i : ℕ) (r : MpcResults N), rs[i]? = some r → r.ts.finalNodesTemp = some S.tank.initTemps := by
    intro i
    induction i with
    | zero =>
      intro r hr
      rw [h0] at hr
      cases Option.some.inj hr
      rfl
    | succ i ih =>
      intro r hr
      by_cases h8 : first + (i + 1) ≠ 8759
      · have hlt : i + 1 < rs.length := (List.getElem?_eq_some_iff.mp hr).1
        have hb : rs[i]? = some (rs[i]'(by omega)) := List.getElem?_eq_getElem (by omega)
        have hfin := ih _ hb
        obtain ⟨hour, a, p, prev, f, nodes, ht, hg, hp, hf, hn, rfl⟩ := consecutive ⟨rs, h, hb, hr, h8⟩
        unfold finalNodes at hn
        rw [if_pos hc] at hn
        cases Except.ok.inj hn
        rcases hp with ⟨_, hp⟩ | ⟨_, hp⟩
        · exact hp.symm.trans hfin
        · exact congrArg some hp
      · push Not at h8
        by_cases h2 : 2 ≤ i + 1
        · rw [(hi (i + 1) r (by omega) hr).2 h8 h2]
          rfl
        · have h1 : i + 1 = 1 := by omega
          have := (horizonEnd_le S first).1
          omega
  intro r hr
  obtain ⟨i, hi⟩ := List.mem_iff_getElem?.mp hr
  exact key i r hi

namespace Mpc.Samples

/-- A tank that counts its heat: 4 kWh at most, 1 kWh at the start. -/
def counting : MpcIn ℚ where
  hp := ⟨10, 60, 50⟩
  es := ⟨10, 1/2, 5, 5, 9/10, 9/10, 0⟩
  aux := ⟨true, 1, 40, 0⟩
  tank := ⟨1, 1, fun _ _ s q => .ok (match s with | .charging => 4 - q | _ => q), fun _ _ _ q c d => .ok (q + c - d)⟩
  exportPrice := 10
  horizon := 24
  generation _ := 6
  wind _ := 6
  pv _ := 0
  elecDemand _ := 3
  heatDemand _ := 9
  importCost _ := 100
  perf _ := ⟨3, 9⟩
  peakHeatDemand := 9

/-- Plan for `counting`: 9 kWh in, and from the second hour on 2 kWh out. -/
def swing (hour _a : ℕ) : Except PyErr Point :=
  if hour = 0 then .ok { zero with tsc := 9, soc := 4 } else .ok { zero with tsd := 2, soc := 4 }

end Mpc.Samples

/-- The theorem applies: of the planned 9 kWh only 3 fit, then 2 come out again. -/
example : Samples.counting.aux.electric = true ∧ Samples.counting.tank.capacity ≠ 0 ∧
    ∃ a b r, Spec.Consecutive Samples.counting Samples.swing 0 3 0 a b ∧
    Spec.Consecutive Samples.counting Samples.swing 0 3 1 b r ∧
    b.ts.chargingTotal = 3 ∧ b.ts.finalNodesTemp = some 4 ∧ r.ts.dischargingTotal = 2 ∧ r.ts.finalNodesTemp = some 2 := by
  refine ⟨rfl, by decide +kernel, ?_⟩
  have hc : checks (movingHorizon Samples.counting Samples.swing 0 3) (fun rs => decide (∃ a ∈ rs[0]?, ∃ b ∈ rs[1]?,
      ∃ r ∈ rs[2]?, b.ts.chargingTotal = 3 ∧ b.ts.finalNodesTemp = some 4 ∧ r.ts.dischargingTotal = 2 ∧
        r.ts.finalNodesTemp = some 2)) = true := by decide +kernel
  obtain ⟨rs, h1, a, ha, b, hb, r, hr, h2⟩ := exists_of_checks hc
  exact ⟨a, b, r, ⟨rs, h1, ha, hb, by norm_num⟩, ⟨rs, h1, hb, hr, by norm_num⟩, h2⟩

/-- And a run without a tank: `Samples.plain`. -/
example : Samples.plain.tank.capacity = 0 ∧ ∃ rs, movingHorizon Samples.plain Samples.answer 0 3 = .ok rs ∧ rs.length = 3 :=
  ⟨rfl, exists_of_checks (p := fun rs => decide (rs.length = 3)) (by decide +kernel) |>.imp
    (fun _ h => ⟨h.1, of_decide_eq_true h.2⟩)⟩

/-- C84: if the optimiser fails at first in an hour, the heat in the tank is forgotten: the second
attempt starts from the tank of the start of the run. Here the tank held 4 kWh; after the failure 1 kWh of
a planned 2 come out of a tank with 1 kWh. -/
theorem C84_failure_forgets_heat : ∃ (S : MpcIn ℚ) (g : ℕ → ℕ → Except PyErr Point) (b r : MpcResults ℚ),
    Spec.Consecutive S g 0 3 1 b r ∧ b.ts.finalNodesTemp = some 4 ∧ r.ts.chargingTotal = 0 ∧
      r.ts.dischargingTotal = 1 ∧ r.ts.finalNodesTemp = some 0 := by
  refine ⟨Samples.counting, fun hour a => if hour = 1 ∧ a = 0 then .error .other else Samples.swing hour a, ?_⟩
  have hc : checks (movingHorizon Samples.counting
      (fun hour a => if hour = 1 ∧ a = 0 then .error .other else Samples.swing hour a) 0 3)
      (fun rs => decide (∃ b ∈ rs[1]?, ∃ r ∈ rs[2]?, b.ts.finalNodesTemp = some 4 ∧ r.ts.chargingTotal = 0 ∧
        r.ts.dischargingTotal = 1 ∧ r.ts.finalNodesTemp = some 0)) = true := by decide +kernel
  obtain ⟨rs, h1, b, hb, r, hr, h2⟩ := exists_of_checks hc
  exact ⟨b, r, ⟨rs, h1, hb, hr, by norm_num⟩, h2⟩

end Verif
