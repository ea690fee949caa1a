import Verif.Lemmas.Polyhedron
import Verif.Props.MpcPlan

/-!
# With an electric heater there is a cheapest plan (C111)
-/

set_option autoImplicit false

namespace Verif
open Mpc Spec Polyhedron
variable {N : Type}

/-- What is posted with an electric heater, without the product of two variables. -/
structure Mpc.Reduced (S : MpcIn N) (t : ℕ) (cap : ℚ) (p : Point) : Prop where
  bounds : ∀ x ∈ [p.resEd, p.exp, p.impEd, p.hptrd, p.hptrs, p.hptid, p.hptis, p.hptesd, p.tsc, p.tsd, p.soc, p.esc,
    p.escRes, p.escImp, p.esd, p.esdHp, p.esdAux, p.esdEd, p.socEs, p.auxRd, p.auxRs, p.auxD, p.auxS, p.aux], 0 ≤ x
  esd : p.esd = p.esdEd + p.esdHp + p.esdAux
  esc : p.esc = p.escRes + p.escImp
  ed : S.elecDemand t = p.resEd + p.impEd + p.esdEd * S.es.dischargeEff
  hd : S.heatDemand t = p.hptrd + p.hptid + p.hptesd + p.auxD + p.auxRd + p.esdAux * S.es.dischargeEff + p.tsd
  hptesd : p.hptesd = p.esdHp * (S.perf t).cop * S.es.dischargeEff
  aux : p.aux = p.auxD + p.auxS + p.auxRd + p.auxRs + p.esdAux
  tsc : p.tsc = p.hptrs + p.hptis + p.auxRs + p.auxS
  res : S.generation t = p.resEd + (p.hptrs + p.hptrd) / (S.perf t).cop + p.escRes + p.auxRd + p.auxRs + p.exp
  duty : p.hptrs + p.hptrd + p.hptid + p.hptis + p.hptesd ≤ (S.perf t).duty
  soc_le : p.soc ≤ cap
  tsc_le : p.tsc ≤ cap - p.soc
  tsd_le : p.tsd ≤ p.soc
  socEs_le : p.socEs ≤ S.es.capacity
  esc_le : p.esc ≤ S.es.chargeMax * S.es.chargeEff
  esd_le : p.esd ≤ S.es.dischargeMax
  esd_soc : p.esd ≤ p.socEs
  aux_le : p.aux ≤ S.peakHeatDemand

/-- The heat pump at full duty for a share of the hour. -/
def Mpc.fullDuty (S : MpcIn N) (t : ℕ) (p : Point) : Point :=
  { p with hptVar := (S.perf t).duty, hpStatus := (p.hptrs + p.hptrd + p.hptid + p.hptis + p.hptesd) / (S.perf t).duty }

theorem reduced_of_posted {S : MpcIn N} (he : S.aux.electric = true) {t : ℕ} {cap : ℚ} {p : Point}
    (h : Posted S t cap p) : Reduced S t cap p := by
  have B := h.bounds
  have E := h.electric he
  have I := h.ineqs
  refine ⟨?_, E.esd, E.esc, E.ed, E.hd, E.hptesd, E.aux, E.tsc, E.res, ?_, I.soc, I.tsc, I.tsd, I.socEs, I.esc, I.esd,
    I.esd_soc, I.aux⟩
  · simp only [List.forall_mem_cons, List.not_mem_nil, false_imp_iff, implies_true, and_true]
    exact ⟨B.resEd, B.exp, B.impEd, B.hptrd, B.hptrs, B.hptid, B.hptis, B.hptesd, B.tsc, B.tsd, B.soc, B.esc, B.escRes,
      B.escImp, B.esd, B.esdHp, B.esdAux, B.esdEd, B.socEs, B.auxRd, B.auxRs, B.auxD, B.auxS, B.aux⟩
  · rw [← E.hpt]
    exact (mul_le_of_le_one_left B.hptVar B.hpStatus_le).trans I.duty

theorem posted_of_reduced {S : MpcIn N} (he : S.aux.electric = true) {t : ℕ} {cap : ℚ} {p : Point}
    (hd : 0 ≤ (S.perf t).duty) (hm : hpMin S t ≤ (S.perf t).duty) (h : Reduced S t cap p) :
    Posted S t cap (fullDuty S t p) := by
  have hb := h.bounds
  simp only [List.forall_mem_cons, List.not_mem_nil, false_imp_iff, implies_true, and_true] at hb
  obtain ⟨b1, b2, b3, b4, b5, b6, b7, b8, b9, b10, b11, b12, b13, b14, b15, b16, b17, b18, b19, b20, b21, b22, b23,
    b24⟩ := hb
  have hs : 0 ≤ p.hptrs + p.hptrd + p.hptid + p.hptis + p.hptesd := by linarith
  refine ⟨⟨b1, b2, b3, b4, b5, b6, b7, b8, div_nonneg hs hd, div_le_one_of_le₀ h.duty hd, hd, b9, b10, b11, b12, b13, b14,
    b15, b16, b17, b18, b19, b20, b21, b22, b23, b24⟩,
    fun _ => ⟨h.esd, h.esc, h.ed, h.hd, h.hptesd, ?_, h.aux, h.tsc, h.res⟩, fun h' => (by rw [he] at h'; cases h'),
    ⟨le_rfl, hm, h.soc_le, h.tsc_le, h.tsd_le, h.socEs_le, h.esc_le, h.esd_le, h.esd_soc, h.aux_le⟩⟩
  show (p.hptrs + p.hptrd + p.hptid + p.hptis + p.hptesd) / (S.perf t).duty * (S.perf t).duty = _
  rcases hd.eq_or_lt with h0 | h0
  · have := h.duty
    rw [← h0, mul_zero]
    exact le_antisymm hs (by rw [h0]; exact this)
  · exact div_mul_cancel₀ _ h0.ne'

/-- A point from its 26 coordinates. -/
def Mpc.point (w : Fin 26 → ℚ) : Point :=
  ⟨w 0, w 1, w 2, w 3, w 4, w 5, w 6, w 7, w 8, w 9, w 10, w 11, w 12, w 13, w 14, w 15, w 16, w 17, w 18, w 19, w 20, w 21,
    w 22, w 23, w 24, w 25⟩

theorem point_surjective : Function.Surjective point := fun p =>
  ⟨![p.1, p.2, p.3, p.4, p.5, p.6, p.7, p.8, p.9, p.10, p.11, p.12, p.13, p.14, p.15, p.16, p.17, p.18, p.19, p.20, p.21,
    p.22, p.23, p.24, p.25, p.26], rfl⟩

/-- A plan from the coordinates of its first points. -/
def Mpc.toPlan (n : ℕ) (v : Fin (n + 1) → Fin 26 → ℚ) : Plan := fun k =>
  point fun j => if h : k < n + 1 then v ⟨k, h⟩ j else 0

theorem aff_coord (n k : ℕ) (j : Fin 26) :
    Aff fun v : Fin (n + 1) → Fin 26 → ℚ => if h : k < n + 1 then v ⟨k, h⟩ j else 0 := by
  by_cases h : k < n + 1
  · simp only [dif_pos h]
    exact ⟨LinearMap.proj (R := ℚ) (φ := fun _ : Fin 26 => ℚ) j ∘ₗ
      LinearMap.proj (R := ℚ) (φ := fun _ : Fin (n + 1) => Fin 26 → ℚ) ⟨k, h⟩, 0, fun v => by simp⟩
  · simp only [dif_neg h]
    exact Aff.const 0

theorem toPlan_surjective (n : ℕ) (plan : Plan) : ∃ v, ∀ k, k ≤ n → toPlan n v k = plan k := by
  choose f hf using point_surjective
  refine ⟨fun k => f (plan k), fun k hk => ?_⟩
  unfold toPlan
  simp only [dif_pos (Nat.lt_succ_of_le hk)]
  exact hf _

macro "aff" : tactic => `(tactic| repeat' first
  | exact Aff.const _
  | exact aff_coord _ _ _
  | apply Aff.add
  | apply Aff.sub
  | apply Aff.const_mul
  | apply Aff.mul_const
  | apply Aff.div_const)

theorem poly_reduced (S : MpcIn N) (n t k : ℕ) (cap : ℚ) : Poly fun v => Reduced S t cap (toPlan n v k) := by
  have e : ∀ v, Reduced S t cap (toPlan n v k) ↔ _ := fun v => ⟨fun h => And.intro h.bounds <| And.intro h.esd <|
    And.intro h.esc <| And.intro h.ed <| And.intro h.hd <| And.intro h.hptesd <| And.intro h.aux <| And.intro h.tsc <|
    And.intro h.res <| And.intro h.duty <| And.intro h.soc_le <| And.intro h.tsc_le <| And.intro h.tsd_le <|
    And.intro h.socEs_le <| And.intro h.esc_le <| And.intro h.esd_le <| And.intro h.esd_soc h.aux_le,
    fun ⟨a1, a2, a3, a4, a5, a6, a7, a8, a9, a10, a11, a12, a13, a14, a15, a16, a17, a18⟩ =>
      ⟨a1, a2, a3, a4, a5, a6, a7, a8, a9, a10, a11, a12, a13, a14, a15, a16, a17, a18⟩⟩
  simp only [e]
  refine .and ?_ <| .and ?_ <| .and ?_ <| .and ?_ <| .and ?_ <| .and ?_ <| .and ?_ <| .and ?_ <| .and ?_ <| .and ?_ <|
    .and ?_ <| .and ?_ <| .and ?_ <| .and ?_ <| .and ?_ <| .and ?_ <| .and ?_ ?_
  · simp only [List.forall_mem_cons, List.not_mem_nil, false_imp_iff, implies_true, and_true]
    repeat' apply Poly.and
    all_goals
      apply Poly.le <;> aff
  all_goals first
    | (apply Poly.eq <;> aff)
    | (apply Poly.le <;> aff)

/-- Money spent in an hour is linear in the plan. -/
theorem aff_spent {S : MpcIn N} (he : S.aux.electric = true) (n t k : ℕ) :
    Aff fun v => spent S t (toPlan n v k) + (toPlan n v k).escRes / 100000 := by
  unfold spent bought burnt
  simp only [he, if_true]
  aff

/-- A linear rule for a store is a polyhedron. -/
theorem poly_rule {D : Dynamics} (hD : LinearRule D) (m n : ℕ) {f g : ℕ → (Fin (m + 1) → Fin 26 → ℚ) → ℚ}
    (hf : ∀ k, Aff (f k)) (hg : ∀ k, Aff (g k)) : Poly fun v => D n (fun k => f k v) fun k => g k v := by
  obtain ⟨eqs, h⟩ := hD n
  simp only [h]
  exact Poly.all _ fun e _ => Poly.eq (Aff.sum _ fun k _ => ((hf k).const_mul _).add ((hg k).const_mul _)) (Aff.const 0)

theorem rule_congr {D : Dynamics} (hD : LinearRule D) {n : ℕ} {x y v w : ℕ → ℚ} (h1 : ∀ k, k < n → x k = y k)
    (h2 : ∀ k, k < n → v k = w k) (h : D n x v) : D n y w := by
  obtain ⟨eqs, he⟩ := hD n
  rw [he] at h ⊢
  intro e hm
  rw [← h e hm]
  refine Finset.sum_congr rfl fun k hk => ?_
  rw [Finset.mem_range] at hk
  rw [h1 k hk, h2 k hk]

/-- C111: with an electric heater, data as a workbook means them and a linear discretisation, there is a cheapest plan
as soon as there is a feasible one. -/
theorem C111_cheapest_exists {S : MpcIn N} (he : S.aux.electric = true) {D : Dynamics} (hD : LinearRule D) {hour n : ℕ}
    (hp : Plannable S hour n) {s : Start} (h : ∃ plan, Feasible S D hour n s plan) :
    ∃ plan, Cheapest S D hour n s plan := by
  obtain ⟨K, hK⟩ := C111_bounded he D (hour := hour) (n := n) s hp
  -- the polyhedron of plans
  let F : (Fin (n + 1) → Fin 26 → ℚ) → Prop := fun v =>
    (toPlan n v 0).socEs = s.socEs ∧ (toPlan n v 0).soc = s.soc ∧
    (∀ k ∈ List.range n, 1 ≤ k → Reduced S (hour + k) (s.maxCap k) (toPlan n v k)) ∧
    D n (fun k => (toPlan n v k).socEs) (fun k => batteryRate S (toPlan n v k)) ∧
    D n (fun k => (toPlan n v k).soc) fun k => tankRate (toPlan n v k)
  let C : (Fin (n + 1) → Fin 26 → ℚ) → ℚ := fun v =>
    ∑ k ∈ Finset.Ico 1 n, (spent S (hour + k) (toPlan n v k) + (toPlan n v k).escRes / 100000)
  have hF : Poly F := by
    refine .and (Poly.eq (aff_coord n 0 _) (.const _)) <| .and (Poly.eq (aff_coord n 0 _) (.const _)) <| .and ?_ <|
      .and (poly_rule hD n n (fun k => aff_coord n k _) fun k => ?_)
        (poly_rule hD n n (fun k => aff_coord n k _) fun k => ?_)
    · refine Poly.all _ fun k _ => ?_
      by_cases h1 : 1 ≤ k
      · simp only [h1, true_implies]
        exact poly_reduced S n _ k _
      · simp only [h1, false_implies]
        exact ⟨[], fun v => by simp [Sat]⟩
    · unfold batteryRate
      aff
    · unfold tankRate
      aff
  have hC : Aff C := Aff.sum _ fun k _ => aff_spent he n (hour + k) k
  -- from plans to the polyhedron
  have down : ∀ plan, Feasible S D hour n s plan → ∃ v, F v ∧ C v = planCost S hour n plan := by
    intro plan hf
    obtain ⟨v, hv⟩ := toPlan_surjective n plan
    refine ⟨v, ⟨by rw [hv 0 (Nat.zero_le _)]; exact hf.socEs, by rw [hv 0 (Nat.zero_le _)]; exact hf.soc, fun k hk h1 => ?_,
      rule_congr hD (fun k hk => by rw [hv k hk.le]) (fun k hk => by rw [hv k hk.le]) hf.battery,
      rule_congr hD (fun k hk => by rw [hv k hk.le]) (fun k hk => by rw [hv k hk.le]) hf.tank⟩, ?_⟩
    · have hk := List.mem_range.mp hk
      rw [hv k hk.le]
      exact reduced_of_posted he (hf.posted k h1 hk)
    · refine Finset.sum_congr rfl fun k hk => ?_
      obtain ⟨h1, h2⟩ := Finset.mem_Ico.mp hk
      rw [hv k h2.le, objective_electric he (hf.posted k h1 h2)]
  -- and back
  have up : ∀ v, F v → ∃ plan, Feasible S D hour n s plan ∧ planCost S hour n plan = C v := by
    rintro v ⟨f1, f2, f3, f4, f5⟩
    have hf : Feasible S D hour n s fun k => fullDuty S (hour + k) (toPlan n v k) :=
      ⟨f1, f2, fun k h1 h2 => posted_of_reduced he (hp.perf k h1 h2).2.1 (hp.perf k h1 h2).2.2
        (f3 k (List.mem_range.mpr h2) h1), f4, f5⟩
    refine ⟨_, hf, Finset.sum_congr rfl fun k hk => ?_⟩
    obtain ⟨h1, h2⟩ := Finset.mem_Ico.mp hk
    rw [objective_electric he (hf.posted k h1 h2)]
    rfl
  obtain ⟨p0, hp0⟩ := h
  obtain ⟨v0, hv0, -⟩ := down p0 hp0
  obtain ⟨v, hv, hmin⟩ := hF.attained hC ⟨v0, hv0⟩ (K := K) fun v hv => by
    obtain ⟨plan, hf, e⟩ := up v hv
    rw [← e]
    exact hK plan hf
  obtain ⟨plan, hf, e⟩ := up v hv
  refine ⟨plan, hf, fun q hq => ?_⟩
  obtain ⟨u, hu, e'⟩ := down q hq
  rw [e, ← e']
  exact hmin u hu

/-- C111: with an electric heater and stores that hold no more than they may over the horizon, a cheapest plan
exists. -/
theorem C111_solvable {S : MpcIn N} (he : S.aux.electric = true) {D : Dynamics} (hD : Settles D) (hl : LinearRule D)
    {hour n : ℕ} (hp : Plannable S hour n) {s : Start} (h1 : 0 ≤ s.socEs) (h2 : s.socEs ≤ S.es.capacity) (h3 : 0 ≤ s.soc)
    (h4 : ∀ k, 1 ≤ k → k < n → s.soc ≤ s.maxCap k) : ∃ plan, Cheapest S D hour n s plan :=
  C111_cheapest_exists he hl hp (C111_plan_exists hD hp h1 h2 h3 h4)

theorem euler_linear : LinearRule euler := by
  intro n
  refine ⟨(List.range (n - 1)).map fun k =>
    (fun j => if j = k + 1 then 1 else if j = k then -1 else 0, fun j => if j = k + 1 then -1 else 0), fun x v => ?_⟩
  unfold euler
  simp only [List.forall_mem_map, List.mem_range]
  refine forall_congr' fun k => ?_
  have key : k + 1 < n → ∑ j ∈ Finset.range n, ((if j = k + 1 then (1 : ℚ) else if j = k then -1 else 0) * x j
      + (if j = k + 1 then (-1 : ℚ) else 0) * v j) = x (k + 1) - x k - v (k + 1) := by
    intro hk
    have e : ∀ j, (if j = k + 1 then (1 : ℚ) else if j = k then -1 else 0) * x j + (if j = k + 1 then (-1 : ℚ) else 0) * v j
        = (if k + 1 = j then x j - v j else 0) + if k = j then -x j else 0 := by
      intro j
      by_cases h1 : j = k + 1
      · subst h1
        simp
        ring
      · by_cases h2 : j = k
        · subst h2
          simp
        · simp [h1, h2, Ne.symm h1, Ne.symm h2]
    simp only [e, Finset.sum_add_distrib, Finset.sum_ite_eq, Finset.mem_range, hk, Nat.lt_of_succ_lt hk, if_true]
    ring
  constructor
  · intro h hk
    rw [key (by omega), h (by omega)]
    ring
  · intro h hk
    have := h (by omega)
    rw [key hk] at this
    linarith

/-- A battery half full and a tank of 30 kWh with 12 kWh in it, over a day. -/
example : ∃ plan, Cheapest (Samples.steady true 1000) euler 5 24 ⟨5, 12, fun _ => 30⟩ plan :=
  C111_solvable rfl euler_settles euler_linear
    (by constructor <;> intros <;> norm_num [Samples.steady, hpMin]) (by norm_num) (by norm_num [Samples.steady]) (by norm_num)
    fun _ _ _ => by norm_num

end Verif
