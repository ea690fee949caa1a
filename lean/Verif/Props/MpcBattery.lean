import Verif.Props.MpcTank
import Verif.Model.MpcPlan
import Mathlib.Tactic.FieldSimp
import Mathlib.Tactic.Ring

/-!
# The battery's books under predictive control (C115)

The optimiser plans an hour from the charge the hour before is reported to end with. If its first attempt fails, the
second starts from the charge of the start of the run. GEKKO's treatment of the differential equation is taken to be
the implicit Euler rule with steps of one hour (`Mpc.euler`).
-/

set_option autoImplicit false

namespace Verif
open Mpc
variable {N : Type}

/-- Every answer is the second point of a plan that satisfies all that is posted, and in that plan the battery starts
with the charge it is told: on the first attempt that of the result before, on the second that of the start of the
run. -/
def Spec.PlansFrom (S : MpcIn N) (D : Dynamics) (g : ℕ → ℕ → Except PyErr Point) (first : ℕ)
    (rs : List (MpcResults N)) : Prop :=
  ∀ (i : ℕ) (b : MpcResults N) (a : ℕ) (p : Point), rs[i]? = some b → g (first + i) a = .ok p →
    ∃ n s plan, 2 ≤ n ∧ Feasible S D (first + i) n s plan ∧ p = plan 1 ∧
      (a = 0 → s.socEs = b.es.finalSoc) ∧ (a = 1 → s.socEs = S.es.initState)

/-- What the results are reported to take from the battery, added up. -/
def Spec.drawn (rs : List (MpcResults N)) : ℚ := (rs.map (fun r => r.es.dischargingTotal)).sum

/-- What the results are reported to put into the battery, added up. -/
def Spec.charged (rs : List (MpcResults N)) : ℚ := (rs.map (fun r => r.es.chargingTotal)).sum

/-- The plan an hour's result comes from. -/
theorem battery_hour {S : MpcIn N} {g : ℕ → ℕ → Except PyErr Point} {first n i : ℕ} {rs : List (MpcResults N)}
    {b r : MpcResults N} (h : movingHorizon S g first n = .ok rs) (hp : Spec.PlansFrom S euler g first rs)
    (hb : rs[i]? = some b) (hr : rs[i + 1]? = some r) (h8 : first + (i + 1) ≠ 8759) :
    ∃ a p cap start f nodes, g (first + i) a = .ok p ∧ Posted S (first + (i + 1)) cap p ∧
      (a = 0 ∧ start = b.es.finalSoc ∨ a = 1 ∧ start = S.es.initState) ∧
      p.socEs = start + (p.esc * S.es.chargeEff - p.esd - S.es.selfDischarge * p.socEs) ∧
      r = report S (first + (i + 1)) p f nodes := by
  obtain ⟨hour, a, p, prev, f, nodes, ht, hg, hs, hf, hn, rfl⟩ := consecutive ⟨rs, h, hb, hr, h8⟩
  have hh : hour = first + i := by omega
  subst hh
  obtain ⟨m, s, plan, hm, hF, rfl, h0, h1⟩ := hp i b a p hb hg
  have he := hF.battery 0 (by omega)
  dsimp only [batteryRate] at he
  rw [hF.socEs] at he
  have hpost := hF.posted 1 (le_refl _) (by omega)
  refine ⟨a, plan 1, s.maxCap 1, s.socEs, f, nodes, hg, hpost, ?_, he, rfl⟩
  rcases hs with ⟨ha, _⟩ | ⟨ha, _⟩
  · exact Or.inl ⟨ha, h0 ha⟩
  · exact Or.inr ⟨ha, h1 ha⟩

/-- C115: with an electric heater the charge reported at the end of an hour is that at its start, plus what went in less
the charging loss, minus what went out before the discharging loss, minus the self-discharge. The start is the charge
the hour before is reported to end with, or, if the first attempt of the hour failed, that of the start of the run.
Missing: the second case (`C115_failure_refills`) and a boiler (`C115_boiler_draws_nothing`). -/
theorem C115_hour_partial {S : MpcIn N} {g : ℕ → ℕ → Except PyErr Point} {first n i : ℕ} {rs : List (MpcResults N)}
    {b r : MpcResults N} (h : movingHorizon S g first n = .ok rs) (hp : Spec.PlansFrom S euler g first rs)
    (hb : rs[i]? = some b) (hr : rs[i + 1]? = some r) (h8 : first + (i + 1) ≠ 8759)
    (he : S.aux.electric = true) (hd : S.es.dischargeEff ≠ 0) :
    ∃ start, (start = b.es.finalSoc ∨ start = S.es.initState ∧ ∃ p, g (first + i) 1 = .ok p) ∧
      r.es.finalSoc = start + S.es.chargeEff * r.es.chargingTotal
        - (r.es.dischargingToDemand / S.es.dischargeEff + r.es.dischargingToHp + r.dischargingToAux)
        - S.es.selfDischarge * r.es.finalSoc := by
  obtain ⟨a, p, cap, start, f, nodes, hg, hpost, hs, hq, rfl⟩ := battery_hour h hp hb hr h8
  refine ⟨start, ?_, ?_⟩
  · rcases hs with ⟨_, hs⟩ | ⟨ha, hs⟩
    · exact Or.inl hs
    · exact Or.inr ⟨hs, p, ha ▸ hg⟩
  · dsimp only [report]
    have h1 := (hpost.electric he).esc
    have h2 := (hpost.electric he).esd
    rw [mul_div_assoc, div_self hd, mul_one, ← h1, ← h2]
    linarith

/-- C115: if no hour needed a second attempt, then up to any hour of the run the battery has given no more than it held
at the start and was given since, and what it still holds is at most the difference. -/
theorem C115_run {S : MpcIn N} {g : ℕ → ℕ → Except PyErr Point} {first n : ℕ} {rs : List (MpcResults N)}
    (h : movingHorizon S g first n = .ok rs) (hn : 2 ≤ n) (hp : Spec.PlansFrom S euler g first rs)
    (he : S.aux.electric = true) (hd : S.es.dischargeEff ≤ 1) (hl : 0 ≤ S.es.selfDischarge)
    (h1 : ∀ hour p, g hour 1 ≠ .ok p) :
    ∀ (i : ℕ) (r : MpcResults N), rs[i]? = some r → first + i ≠ 8759 →
      r.es.finalSoc + Spec.drawn (rs.take (i + 1)) ≤ S.es.initState + S.es.chargeEff * Spec.charged (rs.take (i + 1)) := by
  obtain ⟨_, _, h0, _, _⟩ := run_shape hn h
  intro i
  induction i with
  | zero =>
    intro r hr _
    rw [h0] at hr
    cases Option.some.inj hr
    obtain ⟨hlt, hrs⟩ := List.getElem?_eq_some_iff.mp h0
    rw [List.take_succ_eq_append_getElem hlt, hrs]
    simp [Spec.drawn, Spec.charged, opening]
  | succ i ih =>
    intro r hr h8
    have hlt : i + 1 < rs.length := (List.getElem?_eq_some_iff.mp hr).1
    have hb : rs[i]? = some (rs[i]'(by omega)) := List.getElem?_eq_getElem (by omega)
    have hlast : first + i < 8759 := by
      have := (run_shape hn h).1
      have hl := (run_shape hn h).2.1
      omega
    have hih := ih _ hb (by omega)
    obtain ⟨a, p, cap, start, f, nodes, hg, hpost, hs, hq, hrep⟩ := battery_hour h hp hb hr h8
    have hst : start = (rs[i]'(by omega)).es.finalSoc := by
      rcases hs with ⟨_, hs⟩ | ⟨ha, _⟩
      · exact hs
      · exact absurd (ha ▸ hg) (h1 _ p)
    have hri : rs[i + 1] = r := (List.getElem?_eq_some_iff.mp hr).2
    have hx := (hpost.electric he).esc
    have hy := (hpost.electric he).esd
    have hz : p.esdEd * S.es.dischargeEff ≤ p.esdEd := by
      have := mul_le_mul_of_nonneg_left hd hpost.bounds.esdEd
      linarith
    have hloss := mul_nonneg hl hpost.bounds.socEs
    rw [List.take_succ_eq_append_getElem hlt, hri]
    unfold Spec.drawn Spec.charged at hih ⊢
    rw [List.map_append, List.sum_append, List.map_append, List.sum_append, hrep]
    simp only [List.map_cons, List.map_nil, List.sum_cons, List.sum_nil, add_zero]
    dsimp only [report]
    rw [← hx, mul_add]
    linarith

/-- C115: in particular what is drawn is at most what was there plus what was put in. -/
theorem C115_drawn {S : MpcIn N} {g : ℕ → ℕ → Except PyErr Point} {first n : ℕ} {rs : List (MpcResults N)}
    (h : movingHorizon S g first n = .ok rs) (hn : 2 ≤ n) (hp : Spec.PlansFrom S euler g first rs)
    (he : S.aux.electric = true) (hd : S.es.dischargeEff ≤ 1) (hl : 0 ≤ S.es.selfDischarge)
    (h1 : ∀ hour p, g hour 1 ≠ .ok p) {i : ℕ} {r : MpcResults N} (hr : rs[i + 1]? = some r) (h8 : first + (i + 1) ≠ 8759) :
    Spec.drawn (rs.take (i + 2)) ≤ S.es.initState + S.es.chargeEff * Spec.charged (rs.take (i + 2)) := by
  have := C115_run h hn hp he hd hl h1 (i + 1) r hr h8
  have hlt : i + 1 < rs.length := (List.getElem?_eq_some_iff.mp hr).1
  have hb : rs[i]? = some (rs[i]'(by omega)) := List.getElem?_eq_getElem (by omega)
  obtain ⟨a, p, cap, start, f, nodes, hg, hpost, hs, hq, rfl⟩ := battery_hour h hp hb hr h8
  have h0 : 0 ≤ (report S (first + (i + 1)) p f nodes).es.finalSoc := hpost.bounds.socEs
  linarith

namespace Mpc.Samples

/-- Half of a battery that holds 5 kWh goes to the electricity demand; the rest of the demand is met by the wind, and the
heat pump runs on imports. -/
def half (before : ℚ) : Point :=
  { zero with resEd := 3 - before / 2 * (9/10), exp := 3 + before / 2 * (9/10), hptid := 9, hpStatus := 1, hptVar := 9,
              esd := before / 2, esdEd := before / 2, socEs := before / 2 }

theorem half_feasible {hour : ℕ} {q : ℚ} (h0 : 0 ≤ q) (h5 : q ≤ 5) :
    Feasible (steady true 0) euler hour 2 ⟨q, 0, fun _ => 0⟩ (fun k => if k = 0 then { zero with socEs := q } else half q) where
  socEs := rfl
  soc := rfl
  posted k h1 h2 := by
    have : k = 1 := by omega
    subst this
    rw [if_neg one_ne_zero]
    refine ⟨?_, fun _ => ?_, fun h => (by cases h), ?_⟩
    · constructor <;> dsimp only [half, zero] <;> linarith
    · constructor <;> dsimp only [half, zero, steady, Point.hpt] <;> ring
    · constructor <;> dsimp only [half, zero, steady, hpMin] <;> linarith
  battery k hk := by
    have : k = 0 := by omega
    subst this
    dsimp only [batteryRate, half, zero, steady]
    norm_num
    ring
  tank k hk := by
    have : k = 0 := by omega
    subst this
    dsimp only [tankRate, half, zero]
    norm_num

/-- The battery is halved in every hour. -/
def halving (hour a : ℕ) : Except PyErr Point := if a = 0 then .ok (half (5 / 2 ^ hour)) else .error .other

/-- After the first hour the first attempt always fails. -/
def failing (hour a : ℕ) : Except PyErr Point :=
  if hour = 0 ∧ a = 0 ∨ a = 1 then .ok (half 5) else .error .other

/-- With a boiler: the battery rests, but 40 kWh are said to go from it to the heat pump. -/
def free : Point := { zero with resEd := 3, exp := 3, hptid := 9, hpStatus := 1, hptVar := 9, esdHp := 40, socEs := 5 }

theorem free_feasible {hour : ℕ} : Feasible (steady false 0) euler hour 2 ⟨5, 0, fun _ => 0⟩
    (fun k => if k = 0 then { zero with socEs := 5 } else free) where
  socEs := rfl
  soc := rfl
  posted k h1 h2 := by
    have : k = 1 := by omega
    subst this
    rw [if_neg one_ne_zero]
    refine ⟨?_, fun h => (by cases h), fun _ => ?_, ?_⟩
    · constructor <;> dsimp only [free, zero] <;> norm_num
    · constructor <;> dsimp only [free, zero, steady, Point.hpt] <;> norm_num
    · constructor <;> dsimp only [free, zero, steady, hpMin] <;> norm_num
  battery k hk := by
    have : k = 0 := by omega
    subst this
    dsimp only [batteryRate, free, zero, steady]
    norm_num
  tank k hk := by
    have : k = 0 := by omega
    subst this
    dsimp only [tankRate, free, zero]
    norm_num

end Mpc.Samples

/-- The charge a result is reported to end with, from the list of these charges. -/
theorem charge_at {rs : List (MpcResults N)} {l : List ℚ} (h : rs.map (fun r => r.es.finalSoc) = l) {i : ℕ}
    {b : MpcResults N} (hb : rs[i]? = some b) : l[i]? = some b.es.finalSoc := by
  rw [← h, List.getElem?_map, hb]
  rfl

/-- The theorems apply: a battery that is halved in each of three hours. -/
example : ∃ rs, movingHorizon (Samples.steady true 0) Samples.halving 0 4 = .ok rs ∧
    Spec.PlansFrom (Samples.steady true 0) euler Samples.halving 0 rs ∧ (∀ hour p, Samples.halving hour 1 ≠ .ok p) ∧
    rs.map (fun r => r.es.finalSoc) = [5, 5/2, 5/4, 5/8] ∧ Spec.drawn rs = 63 / 16 := by
  have hc : checks (movingHorizon (Samples.steady true 0) Samples.halving 0 4) (fun rs => decide
      (rs.map (fun r => r.es.finalSoc) = [5, 5/2, 5/4, 5/8] ∧ (rs.map (fun r => r.es.dischargingTotal)).sum = 63 / 16)) = true := by
    decide +kernel
  obtain ⟨rs, h1, h2, h3⟩ := exists_of_checks hc
  refine ⟨rs, h1, ?_, fun _ _ h => (by cases h), h2, h3⟩
  intro i b a p hb hg
  have hq := charge_at h2 hb
  have hi : b.es.finalSoc = 5 / 2 ^ i := by
    match i with
    | 0 => have := Option.some.inj hq; rw [← this]; norm_num
    | 1 => have := Option.some.inj hq; rw [← this]; norm_num
    | 2 => have := Option.some.inj hq; rw [← this]; norm_num
    | 3 => have := Option.some.inj hq; rw [← this]; norm_num
    | i + 4 => simp at hq
  rw [zero_add] at hg ⊢
  unfold Samples.halving at hg
  split_ifs at hg with ha
  cases Except.ok.inj hg
  have hpow : (0 : ℚ) < 2 ^ i := by positivity
  refine ⟨2, _, _, le_refl _, Samples.half_feasible (q := 5 / 2 ^ i) (by positivity) ?_, rfl, fun _ => hi.symm,
    fun h => (by omega)⟩
  rw [div_le_iff₀ hpow]
  have : (1 : ℚ) ≤ 2 ^ i := one_le_pow₀ (by norm_num)
  linarith

/-- C115 is false after a failed attempt: the battery is full again as at the start of the run. Here it held 5 kWh and
is never charged, but 6.75 kWh are drawn from it in three hours. -/
theorem C115_failure_refills : ∃ (S : MpcIn Unit) (g : ℕ → ℕ → Except PyErr Point) (rs : List (MpcResults Unit)),
    movingHorizon S g 0 4 = .ok rs ∧ Spec.PlansFrom S euler g 0 rs ∧ S.aux.electric = true ∧
      S.es.dischargeEff = 9 / 10 ∧ S.es.selfDischarge = 0 ∧ S.es.initState = 5 ∧
      Spec.charged rs = 0 ∧ Spec.drawn rs = 27 / 4 := by
  refine ⟨Samples.steady true 0, Samples.failing, ?_⟩
  have hc : checks (movingHorizon (Samples.steady true 0) Samples.failing 0 4) (fun rs => decide
      (rs.map (fun r => r.es.finalSoc) = [5, 5/2, 5/2, 5/2] ∧ (rs.map (fun r => r.es.chargingTotal)).sum = 0 ∧
        (rs.map (fun r => r.es.dischargingTotal)).sum = 27 / 4)) = true := by
    decide +kernel
  obtain ⟨rs, h1, h2, h3, h4⟩ := exists_of_checks hc
  refine ⟨rs, h1, ?_, rfl, rfl, rfl, by decide +kernel, h3, h4⟩
  intro i b a p hb hg
  rw [zero_add] at hg ⊢
  unfold Samples.failing at hg
  split_ifs at hg with ha
  cases Except.ok.inj hg
  refine ⟨2, _, _, le_refl _, Samples.half_feasible (q := 5) (by norm_num) (le_refl _), rfl, fun h0 => ?_,
    fun _ => (by decide +kernel)⟩
  have hi : i = 0 := by omega
  subst hi
  exact Option.some.inj (charge_at h2 hb)

/-- C115 is false with a boiler: nothing ties what the heat pump is reported to draw from the battery to the charge. Here
40 kWh are drawn from a battery of 10 kWh that keeps its 5 kWh. -/
theorem C115_boiler_draws_nothing : ∃ (S : MpcIn Unit) (g : ℕ → ℕ → Except PyErr Point) (rs : List (MpcResults Unit)),
    movingHorizon S g 0 2 = .ok rs ∧ Spec.PlansFrom S euler g 0 rs ∧ (∀ hour p, g hour 1 ≠ .ok p) ∧
      S.es.capacity = 10 ∧ S.es.initState = 5 ∧ Spec.charged rs = 0 ∧ Spec.drawn rs = 40 ∧
      rs.map (fun r => r.es.finalSoc) = [5, 5] := by
  refine ⟨Samples.steady false 0, fun _ a => if a = 0 then .ok Samples.free else .error .other, ?_⟩
  have hc : checks (movingHorizon (Samples.steady false 0) (fun _ a => if a = 0 then .ok Samples.free else .error .other) 0 2)
      (fun rs => decide (rs.map (fun r => r.es.finalSoc) = [5, 5] ∧ (rs.map (fun r => r.es.chargingTotal)).sum = 0 ∧
        (rs.map (fun r => r.es.dischargingTotal)).sum = 40)) = true := by
    decide +kernel
  obtain ⟨rs, h1, h2, h3, h4⟩ := exists_of_checks hc
  refine ⟨rs, h1, ?_, fun _ _ h => (by cases h), rfl, by decide +kernel, h3, h4, h2⟩
  intro i b a p hb hg
  dsimp only at hg
  split_ifs at hg with ha
  cases Except.ok.inj hg
  refine ⟨2, _, _, le_refl _, Samples.free_feasible, rfl, fun _ => ?_, fun h => (by omega)⟩
  have hq := charge_at h2 hb
  match i with
  | 0 => exact Option.some.inj hq
  | 1 => exact Option.some.inj hq
  | i + 2 => simp at hq

end Verif
