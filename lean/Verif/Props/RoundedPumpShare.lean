import Verif.Props.RoundedSubsidy
import Verif.Props.KpiShares

/-!
# Renewable shares and the wind farm's import in floats (C124, continued)
-/

set_option autoImplicit false

namespace Verif
open FixedOrder Kpi Spec Rounding
open RoundedKpi (Numpy)
variable {N : Type} {R : Rounding}

theorem okThen {α β : Type} (a : α) (k : α → Except PyErr β) : (Except.ok a >>= k) = k a := rfl

/-- The values of some hours, and nothing for the others. -/
def onlyIn (w : ℕ → Bool) (f : Results N → ℚ) (rs : List (Results N)) : List ℚ := rs.mapIdx fun i r => if w i then f r else 0

theorem npSum_zeros (hr : Rounds R) (np : Numpy) {xs : List ℚ} (h : ∀ x ∈ xs, x = 0) : RoundedKpi.npSum R np xs = 0 := by
  apply le_antisymm
  · have := RoundedKpi.npSum_nonneg hr np (xs := xs) fun x hx => (h x hx).ge
    have h2 := RoundedKpi.npSum_mono hr np (xs := xs) (ys := xs.map fun _ => 0) (by
      rw [List.forall₂_map_right_iff]
      exact forall₂_self fun a ha => (h a ha).le)
    refine h2.trans ?_
    unfold RoundedKpi.npSum
    split
    · exact le_rfl
    · refine le_of_eq ?_
      suffices ∀ a : RoundedKpi.Adding, a.sum R (xs.map fun _ => 0) = 0 from this _
      intro a
      induction a with
      | one i =>
        unfold RoundedKpi.Adding.sum
        rw [List.getElem?_map]
        cases xs[i]? <;> rfl
      | both a b iha ihb =>
        unfold RoundedKpi.Adding.sum Rounding.add
        rw [iha, ihb, add_zero]
        exact RoundedKpi.rounds_zero hr
  · exact RoundedKpi.npSum_nonneg hr np fun x hx => (h x hx).ge

/-- The indicators of the wind farm add the same hours, with and without rounding. -/
theorem gridRes_hours (hr : Rounds R) (np : Numpy) {C : Calcs N} (h : AllHours C) {f : Results N → ℚ} {g : ℚ}
    (hg : Kpi.gridRes C f = .ok g) : ∃ w : ℕ → Bool, g = (onlyIn w f C.results).sum ∧
      ∀ t : Results N → ℚ, RoundedKpi.gridRes R np C t = .ok (RoundedKpi.npSum R np (onlyIn w t C.results)) := by
  have none0 : ∀ t : Results N → ℚ, ∀ x ∈ onlyIn (fun _ => false) t C.results, x = 0 := by
    intro t x hx
    unfold onlyIn at hx
    obtain ⟨i, hi, e⟩ := List.getElem_of_mem hx
    rw [← e, List.getElem_mapIdx]
    rfl
  have zero : g = 0 → (∀ t : Results N → ℚ, RoundedKpi.gridRes R np C t = .ok 0) → ∃ w : ℕ → Bool,
      g = (onlyIn w f C.results).sum ∧
      ∀ t : Results N → ℚ, RoundedKpi.gridRes R np C t = .ok (RoundedKpi.npSum R np (onlyIn w t C.results)) := by
    intro h1 h2
    refine ⟨fun _ => false, ?_, fun t => ?_⟩
    · rw [h1, List.sum_eq_zero (none0 f)]
    · rw [h2 t, npSum_zeros hr np (none0 t)]
  unfold Kpi.gridRes at hg
  unfold RoundedKpi.gridRes at zero ⊢
  by_cases c1 : C.tariff = "Flat rates"
  · rw [if_pos c1] at hg
    exact zero (Except.ok.inj hg).symm fun t => by rw [if_pos c1]
  by_cases c2 : C.tariff = "Variable periods"
  · rw [if_neg c1, if_pos c2] at hg
    exact zero (Except.ok.inj hg).symm fun t => by rw [if_neg c1, if_pos c2]
  by_cases c3 : C.tariff = "Time of use - WM"
  · rw [if_neg c1, if_neg c2, if_pos c3] at hg
    exact zero (Except.ok.inj hg).symm fun t => by rw [if_neg c1, if_neg c2, if_pos c3]
  rw [if_neg c1, if_neg c2, if_neg c3] at hg
  split_ifs at hg with c4
  rw [except_bind_ok] at hg
  obtain ⟨farm, hfarm, hg⟩ := hg
  rw [except_bind_ok] at hg
  obtain ⟨xs, hxs, hg⟩ := hg
  have hlen : C.results.length = C.timesteps := h
  have hpos : ∀ i, i < C.timesteps → ∃ p, Tariff.position farm.power i = .ok p := fun i hi => by
    obtain ⟨y, -, hy⟩ := mapM_range_get hxs hi
    rw [except_bind_ok] at hy
    obtain ⟨p, hp, -⟩ := hy
    exact ⟨p, hp⟩
  have all : ∀ t : Results N → ℚ, (List.range C.timesteps).mapM (fun i => do
      let p ← Tariff.position farm.power i
      if p ≥ farm.higherBand then t <$> result C i else .ok 0) =
      .ok (onlyIn (fun i => decide (farm.power[i]?.getD 0 ≥ farm.higherBand)) t C.results) := by
    intro t
    rw [mapM_ok_iff, List.forall₂_iff_get]
    refine ⟨by simp [onlyIn, hlen], fun i h1 h2 => ?_⟩
    have hi : i < C.timesteps := by simpa using h1
    obtain ⟨p, hp⟩ := hpos i hi
    have hp' : farm.power[i]?.getD 0 = p := by
      unfold Tariff.position at hp
      cases e : farm.power[i]? with
      | none => rw [e] at hp; cases hp
      | some q => rw [e] at hp; cases Except.ok.inj hp; rfl
    simp only [List.get_eq_getElem, List.getElem_range, onlyIn, List.getElem_mapIdx]
    rw [hp, okThen]
    by_cases c : p ≥ farm.higherBand
    · rw [if_pos c, result_ok (by rw [hlen]; exact hi), if_pos (decide_eq_true (by rw [hp']; exact c))]
      rfl
    · rw [if_neg c, if_neg (fun q => c (by rw [← hp']; exact of_decide_eq_true q))]
  refine ⟨fun i => decide (farm.power[i]?.getD 0 ≥ farm.higherBand), ?_, fun t => ?_⟩
  · cases Except.ok.inj (hxs.symm.trans (all f))
    exact (Except.ok.inj hg).symm
  · rw [if_neg c1, if_neg c2, if_neg c3, if_pos c4, hfarm, okThen, all t, okThen]
    rfl

theorem onlyIn_bounds {C : Calcs N} {w : ℕ → Bool} {f t : Results N → ℚ} (h : ∀ r ∈ C.results, 0 ≤ f r ∧ f r ≤ t r) :
    List.Forall₂ (fun x y => 0 ≤ x ∧ x ≤ y) (onlyIn w f C.results) (C.results.map t) := by
  rw [List.forall₂_iff_get]
  refine ⟨by simp [onlyIn], fun i h1 h2 => ?_⟩
  have hi : i < C.results.length := by simpa using h2
  obtain ⟨a, b⟩ := h _ (List.getElem_mem hi)
  simp only [List.get_eq_getElem, onlyIn, List.getElem_mapIdx, List.getElem_map]
  split
  · exact ⟨a, b⟩
  · exact ⟨le_rfl, a.trans b⟩

theorem onlyIn_nonneg {C : Calcs N} {w : ℕ → Bool} {f : Results N → ℚ} (h : ∀ r ∈ C.results, 0 ≤ f r) :
    ∀ x ∈ onlyIn w f C.results, 0 ≤ x := fun x hx => by
  have hb := onlyIn_bounds (C := C) (w := w) (f := f) (t := f) fun r hr => ⟨h r hr, le_rfl⟩
  obtain ⟨i, hi, rfl⟩ := List.getElem_of_mem hx
  exact ((List.forall₂_iff_get.mp hb).2 i hi (by rw [← hb.length_eq]; exact hi)).1

/-- **What is bought while the farm has much wind is never shown as negative or as more than all that is bought**, not even
by a rounding, and is right to one part in a million million. -/
theorem C124_wind_import (np : Numpy) {C : Calcs N} (h : AllHours C) (hn : C.timesteps ≤ 8784)
    (he : ∀ r ∈ C.results, 0 ≤ r.grid.totalImport) {g : ℚ} (hg : Kpi.gridResUsed C = .ok g) :
    ∃ x y, RoundedKpi.gridResUsed double np C = .ok x ∧ RoundedKpi.sumImport double np C = .ok y ∧ 0 ≤ x ∧ x ≤ y ∧
      |x - g| ≤ 1 / 10 ^ 12 * g + 1 / 10 ^ 300 := by
  obtain ⟨w, e, hall⟩ := gridRes_hours double_rounds np h hg
  have hb := onlyIn_bounds (C := C) (w := w) (f := fun r => r.grid.totalImport) (t := fun r => r.grid.totalImport)
    fun r hr => ⟨he r hr, le_rfl⟩
  have h0 := onlyIn_nonneg (C := C) (w := w) he
  refine ⟨_, _, hall _, RoundedKpi.total_ok h np _, RoundedKpi.npSum_nonneg double_rounds np h0,
    RoundedKpi.npSum_mono double_rounds np (hb.imp fun _ _ q => q.2), ?_⟩
  have k := RoundedKpi.npSum_year np (xs := onlyIn w (fun r => r.grid.totalImport) C.results) (by
    unfold onlyIn
    rw [List.length_mapIdx, show C.results.length = C.timesteps from h]
    exact hn)
  rw [List.map_congr_left fun x hx => abs_of_nonneg (h0 x hx), List.map_id'] at k
  rw [e]
  exact k

theorem near_sum_of (np : Numpy) {X V : List ℚ} (hn : X.length ≤ 8784)
    (h : List.Forall₂ (fun x v => 0 ≤ v ∧ |x - v| ≤ 1 / 10 ^ 15 * v + 1 / 10 ^ 300) X V) :
    0 ≤ V.sum ∧ |RoundedKpi.npSum double np X - V.sum| ≤ 2 / 10 ^ 12 * V.sum + 1 / 10 ^ 290 := by
  have h1 := RoundedKpi.npSum_year np (xs := X) hn
  have t0 : (0 : ℚ) ≤ 1 / 10 ^ 300 := by positivity
  have t1 : (1 : ℚ) / 10 ^ 290 = 10 ^ 10 * (1 / 10 ^ 300) := by decide +kernel
  rw [t1]
  generalize (1 : ℚ) / 10 ^ 300 = τ at *
  have key : 0 ≤ V.sum ∧ |X.sum - V.sum| ≤ 1 / 10 ^ 15 * V.sum + X.length * τ ∧
      (X.map fun x => |x|).sum ≤ V.sum + (1 / 10 ^ 15 * V.sum + X.length * τ) := by
    clear h1 hn
    induction h with
    | nil => simp
    | @cons x v X V p _ ih =>
      obtain ⟨i0, i1, i2⟩ := ih
      obtain ⟨p0, p1⟩ := p
      have p2 := abs_sub_abs_le_abs_sub x v
      rw [abs_of_nonneg p0] at p2
      simp only [List.sum_cons, List.map_cons, List.length_cons, Nat.cast_add, Nat.cast_one]
      refine ⟨by linarith, ?_, by linarith⟩
      rw [add_sub_add_comm]
      exact (abs_add_le _ _).trans (by linarith)
  obtain ⟨k0, k1, k2⟩ := key
  have hl : (X.length : ℚ) * τ ≤ 8784 * τ := mul_le_mul_of_nonneg_right (by exact_mod_cast hn) t0
  refine ⟨k0, ?_⟩
  generalize (X.length : ℚ) * τ = m at *
  generalize (X.map fun x => |x|).sum = A at *
  generalize X.sum = S at *
  generalize V.sum = v at *
  generalize RoundedKpi.npSum double np X = Y at *
  obtain ⟨x1, x2⟩ := abs_le.mp h1
  obtain ⟨y1, y2⟩ := abs_le.mp k1
  exact abs_le.mpr ⟨by linarith, by linarith⟩

theorem onlyIn_near {C : Calcs N} (w : ℕ → Bool) {u c : Results N → ℚ} (h : ∀ r ∈ C.results, 0 ≤ u r * c r) :
    List.Forall₂ (fun x v => 0 ≤ v ∧ |x - v| ≤ 1 / 10 ^ 15 * v + 1 / 10 ^ 300)
      (onlyIn w (fun r => double.mul (u r) (c r)) C.results) (onlyIn w (fun r => u r * c r) C.results) := by
  rw [List.forall₂_iff_get]
  refine ⟨by simp [onlyIn], fun i h1 h2 => ?_⟩
  have hi : i < C.results.length := by simpa [onlyIn] using h2
  have q := h _ (List.getElem_mem hi)
  simp only [List.get_eq_getElem, onlyIn, List.getElem_mapIdx]
  split
  · have e := double_err (u C.results[i] * c C.results[i])
    rw [abs_of_nonneg q] at e
    exact ⟨q, e⟩
  · refine ⟨le_rfl, ?_⟩
    rw [sub_zero, abs_zero]
    positivity

theorem onlyIn_all (f : Results N → ℚ) (rs : List (Results N)) : onlyIn (fun _ => true) f rs = rs.map f := by
  unfold onlyIn
  apply List.ext_getElem
  · simp
  · intro i h1 h2
    simp

/-- Every hour's heat of the heat pump covers what its renewable and its imported electricity made. -/
def Spec.CoversPump (C : Calcs N) : Prop := ∀ r ∈ C.results, 0 ≤ r.hp.elecResUsage ∧ 0 ≤ r.hp.elecImportUsage ∧
  0 ≤ r.hp.cop ∧ (r.hp.elecResUsage + r.hp.elecImportUsage) * r.hp.cop ≤ r.hp.heatTotalOutput

/-- **The renewable share of the heat pump's heat is right to two thousand-millionths of a percentage point**, under every
tariff, over at most a year with any heat worth the name; it is never shown as negative. -/
theorem C124_pump_share_close (np : Numpy) {C : Calcs N} (h : AllHours C) (hn : C.timesteps ≤ 8784) (hc : CoversPump C)
    (hd : 1 / 10 ^ 100 ≤ exactly C fun r => r.hp.heatTotalOutput) {y : ℚ} (hy : Kpi.hpMetRes C = .ok (some y)) :
    ∃ x, RoundedKpi.hpMetRes double np C = .ok (some x) ∧ 0 ≤ x ∧ 0 ≤ y ∧ y ≤ 100 ∧ |x - y| ≤ 2 / 10 ^ 9 := by
  have hlen : C.results.length = C.timesteps := h
  unfold Kpi.hpMetRes Kpi.sumHpOutput Kpi.hpFromLocalRes Kpi.hpFromGridRes at hy
  rw [Kpi.total_ok h, Kpi.total_ok h] at hy
  simp only [except_bind_ok, except_pure_ok, Except.ok.injEq] at hy
  obtain ⟨_, rfl, _, rfl, g, hg, hy⟩ := hy
  obtain ⟨w, eg, hall⟩ := gridRes_hours double_rounds np h hg
  obtain ⟨g0, g1⟩ := gridRes_bounds h (fun r hr => mul_nonneg (hc r hr).2.1 (hc r hr).2.2.1) hg
  obtain ⟨-, G2⟩ := near_sum_of np (by simp only [onlyIn, List.length_mapIdx]; omega)
    (onlyIn_near (C := C) w fun r hr => mul_nonneg (hc r hr).2.1 (hc r hr).2.2.1)
  rw [← eg] at G2
  obtain ⟨l0, L2⟩ := near_sum_of np (by simp only [onlyIn, List.length_mapIdx]; omega)
    (onlyIn_near (C := C) (fun _ => true) fun r hr => mul_nonneg (hc r hr).1 (hc r hr).2.2.1)
  rw [onlyIn_all, onlyIn_all] at L2
  rw [onlyIn_all] at l0
  have hout : ∀ r ∈ C.results, 0 ≤ r.hp.heatTotalOutput := fun r hr => by
    obtain ⟨a, b, c, d⟩ := hc r hr
    exact (mul_nonneg (add_nonneg a b) c).trans d
  obtain ⟨D', d1, d2⟩ := C124_year np h hn fun r => r.hp.heatTotalOutput
  rw [amounts_eq hout] at d2
  have hle : (C.results.map fun r => r.hp.elecResUsage * r.hp.cop).sum + g ≤ exactly C fun r => r.hp.heatTotalOutput := by
    have := sum_le_sum_map (l := C.results) (f := fun r => r.hp.elecResUsage * r.hp.cop + r.hp.elecImportUsage * r.hp.cop)
      (g := fun r => r.hp.heatTotalOutput) fun r hr => by
        have := (hc r hr).2.2.2
        rw [add_mul] at this
        exact this
    rw [sum_map_add'] at this
    unfold exactly
    linarith
  have hDp : 0 < exactly C fun r => r.hp.heatTotalOutput := lt_of_lt_of_le (by norm_num) hd
  have nL : 0 ≤ RoundedKpi.npSum double np (C.results.map fun r => double.mul r.hp.elecResUsage r.hp.cop) :=
    RoundedKpi.npSum_nonneg double_rounds np fun x hx => by
      obtain ⟨r, hr, rfl⟩ := List.mem_map.mp hx
      have := double_rounds.mono 0 _ (mul_nonneg (hc r hr).1 (hc r hr).2.2.1)
      rwa [RoundedKpi.rounds_zero double_rounds] at this
  have nG : 0 ≤ RoundedKpi.npSum double np (onlyIn w (fun r => double.mul r.hp.elecImportUsage r.hp.cop) C.results) :=
    RoundedKpi.npSum_nonneg double_rounds np fun x hx => by
      unfold onlyIn at hx
      obtain ⟨i, hi, rfl⟩ := List.getElem_of_mem hx
      rw [List.getElem_mapIdx]
      split
      · have hm := List.getElem_mem (l := C.results) (n := i) (by simpa using hi)
        have := double_rounds.mono 0 _ (mul_nonneg (hc _ hm).2.1 (hc _ hm).2.2.1)
        rwa [RoundedKpi.rounds_zero double_rounds] at this
      · exact le_rfl
  unfold RoundedKpi.hpMetRes RoundedKpi.sumHpOutput RoundedKpi.hpFromLocalRes RoundedKpi.hpFromGridRes
  rw [d1, RoundedKpi.total_ok h np, hall]
  change (Kpi.npDiv ((C.results.map fun r => r.hp.elecResUsage * r.hp.cop).sum + g)
    (exactly C fun r => r.hp.heatTotalOutput)).map (fun z => z * 100) = some y at hy
  generalize RoundedKpi.npSum double np (C.results.map fun r => double.mul r.hp.elecResUsage r.hp.cop) = L' at *
  generalize RoundedKpi.npSum double np (onlyIn w (fun r => double.mul r.hp.elecImportUsage r.hp.cop) C.results) = G' at *
  generalize (C.results.map fun r => r.hp.elecResUsage * r.hp.cop).sum = l at *
  generalize (exactly C fun r => r.hp.heatTotalOutput) = D at *
  clear hall hg eg hout hc g1
  have t : (1 : ℚ) / 10 ^ 300 ≤ 1 / 10 ^ 13 * (1 / 10 ^ 100) := by decide +kernel
  have t' : (1 : ℚ) / 10 ^ 300 ≤ 1 / 10 ^ 13 * D := t.trans (mul_le_mul_of_nonneg_left hd (by norm_num))
  have q := quotient_near (K := l) (S := -g) (K' := L') (S' := -G') (a := l) (b := g) (δ := 1 / 10 ^ 290) hd
    (abs_of_nonneg l0).le (by rw [abs_neg, abs_of_nonneg g0]) L2 (by
      rw [show -G' - -g = -(G' - g) by ring, abs_neg]
      linarith) (d2.trans (by linarith)) (by decide +kernel)
  rw [sub_neg_eq_add, sub_neg_eq_add] at q
  obtain ⟨q1, q2⟩ := q
  have s0 : 0 ≤ (l + g) / D := div_nonneg (by linarith) hDp.le
  have s1 : (l + g) / D ≤ 1 := (div_le_one hDp).mpr hle
  have ey : y = (l + g) / D * 100 := by
    unfold Kpi.npDiv at hy
    rw [if_neg (ne_of_gt hDp)] at hy
    exact (Option.some.inj hy).symm
  have up : ∀ x, 0 ≤ x → 0 ≤ double.rnd x := fun x hx => by
    have := double_rounds.mono 0 x hx
    rwa [RoundedKpi.rounds_zero double_rounds] at this
  have p0 : 0 ≤ double.rnd (double.rnd (L' + G') / D') := up _ (div_nonneg (up _ (by linarith)) q1.le)
  refine ⟨double.rnd (double.rnd (double.rnd (L' + G') / D') * 100), ?_, up _ (by linarith), by linarith, by linarith, ?_⟩
  · show Except.ok ((RoundedKpi.npDiv double (double.add L' G') D').map fun x => double.mul x 100) = _
    unfold RoundedKpi.npDiv
    rw [if_neg (ne_of_gt q1)]
    rfl
  · have e3 := double_err (double.rnd (double.rnd (L' + G') / D') * 100)
    have t3 : (1 : ℚ) / 10 ^ 300 ≤ 1 / 10 ^ 15 := by decide +kernel
    have t4 : (10 : ℚ) ^ 102 * (1 / 10 ^ 290) ≤ 1 / 10 ^ 15 := by decide +kernel
    rw [ey]
    clear hy ey d2 d1 L2 G2 t t' hd hle
    generalize double.rnd (double.rnd (L' + G') / D') = p at *
    generalize (l + g) / D = s at *
    generalize (1 : ℚ) / 10 ^ 300 = τ at *
    generalize (10 : ℚ) ^ 102 * (1 / 10 ^ 290) = ε at *
    rw [abs_of_nonneg (by linarith : 0 ≤ p * 100)] at e3
    obtain ⟨x1, x2⟩ := abs_le.mp e3
    obtain ⟨y1, y2⟩ := abs_le.mp q2
    exact abs_le.mpr ⟨by linarith, by linarith⟩

theorem sum_float (hr : Rounds R) (np : Numpy) {xs : List ℚ} (h : ∀ x ∈ xs, IsFloat R x) :
    IsFloat R (RoundedKpi.npSum R np xs) := by
  have h0 : IsFloat R 0 := RoundedKpi.rounds_zero hr
  unfold RoundedKpi.npSum
  split
  · exact h0
  · suffices ∀ a : RoundedKpi.Adding, IsFloat R (a.sum R xs) from this _
    intro a
    cases a with
    | one i =>
      unfold RoundedKpi.Adding.sum
      cases e : xs[i]? with
      | none => exact h0
      | some x => exact h x (List.mem_of_getElem? e)
    | both a b => exact hr.idem _

/-- **Without a wind farm the renewable share of the heat pump's heat is a percentage, exactly**: with rounding too it is
between 0 and 100, if the heat of each hour is a float and covers what the renewable electricity made. -/
theorem C124_pump_share (hr : Rounds R) (h1 : IsFloat R 1) (h100 : IsFloat R 100) (np : Numpy) {C : Calcs N} (h : AllHours C)
    (ht : C.tariff ∈ ["Flat rates", "Variable periods", "Time of use - WM"])
    (hc : ∀ r ∈ C.results, 0 ≤ r.hp.elecResUsage ∧ 0 ≤ r.hp.cop ∧ r.hp.elecResUsage * r.hp.cop ≤ r.hp.heatTotalOutput ∧
      IsFloat R r.hp.heatTotalOutput) :
    ∃ x, RoundedKpi.hpMetRes R np C = .ok x ∧ ∀ y, x = some y → 0 ≤ y ∧ y ≤ 100 := by
  have h0 := RoundedKpi.rounds_zero hr
  have up : ∀ x, 0 ≤ x → 0 ≤ R.rnd x := fun x hx => by have := hr.mono 0 x hx; rwa [h0] at this
  have zero : ∀ f : Results N → ℚ, RoundedKpi.gridRes R np C f = .ok 0 := by
    intro f
    unfold RoundedKpi.gridRes
    simp only [List.mem_cons, List.not_mem_nil, or_false] at ht
    rcases ht with ht | ht | ht
    · rw [if_pos ht]
    · rw [if_neg (by rw [ht]; decide), if_pos ht]
    · rw [if_neg (by rw [ht]; decide), if_neg (by rw [ht]; decide), if_pos ht]
  have hL : 0 ≤ RoundedKpi.npSum R np (C.results.map fun r => R.mul r.hp.elecResUsage r.hp.cop) :=
    RoundedKpi.npSum_nonneg hr np fun x hx => by
      obtain ⟨r, hr', rfl⟩ := List.mem_map.mp hx
      exact up _ (mul_nonneg (hc r hr').1 (hc r hr').2.1)
  have hLf : IsFloat R (RoundedKpi.npSum R np (C.results.map fun r => R.mul r.hp.elecResUsage r.hp.cop)) :=
    sum_float hr np fun x hx => by
      obtain ⟨r, -, rfl⟩ := List.mem_map.mp hx
      exact hr.idem _
  have hLD : RoundedKpi.npSum R np (C.results.map fun r => R.mul r.hp.elecResUsage r.hp.cop) ≤
      RoundedKpi.npSum R np (C.results.map fun r => r.hp.heatTotalOutput) :=
    RoundedKpi.npSum_mono hr np (List.forall₂_map_left_iff.mpr (List.forall₂_map_right_iff.mpr
      (forall₂_self fun r hr' => by
        have := hr.mono _ _ (hc r hr').2.2.1
        rwa [show R.rnd r.hp.heatTotalOutput = r.hp.heatTotalOutput from (hc r hr').2.2.2] at this)))
  unfold RoundedKpi.hpMetRes RoundedKpi.sumHpOutput RoundedKpi.hpFromLocalRes RoundedKpi.hpFromGridRes
  rw [RoundedKpi.total_ok h np, RoundedKpi.total_ok h np, zero]
  refine ⟨_, rfl, fun y hy => ?_⟩
  generalize RoundedKpi.npSum R np (C.results.map fun r => R.mul r.hp.elecResUsage r.hp.cop) = L at *
  generalize RoundedKpi.npSum R np (C.results.map fun r => r.hp.heatTotalOutput) = D at *
  have e : R.add L 0 = L := by
    show R.rnd (L + 0) = L
    rw [add_zero]
    exact hLf
  rw [e] at hy
  unfold RoundedKpi.npDiv at hy
  split at hy
  · cases hy
  · rename_i hD
    cases hy
    have hDp : 0 < D := lt_of_le_of_ne (hL.trans hLD) (Ne.symm hD)
    have d0 : 0 ≤ R.div L D := up _ (div_nonneg hL hDp.le)
    have d1 : R.div L D ≤ 1 := by
      have := hr.mono _ _ ((div_le_one hDp).mpr hLD)
      rwa [show R.rnd 1 = 1 from h1] at this
    refine ⟨up _ (by linarith), ?_⟩
    have := hr.mono (R.div L D * 100) 100 (by linarith)
    rwa [show R.rnd 100 = 100 from h100] at this

/-- Three hours of a heat pump under a tariff with a wind farm, which has much wind in the first and second. -/
def Spec.farmHours : Calcs Unit :=
  { sampleCalcs [{ hp := { elecResUsage := 1 / 3, elecImportUsage := 1 / 7, cop := 3, heatTotalOutput := 2 }, grid := { totalImport := 1 / 7, totalExport := 1 / 10 }, res := { generationTotal := 5 / 6 }, elecDemand := { elecDemand := 9 / 10 } },
      { hp := { elecImportUsage := 1 / 10, cop := 29 / 10, heatTotalOutput := 1 / 2, elecTotalUsage := 2 }, grid := { totalImport := 1 / 10 } },
      { hp := { elecImportUsage := 1 / 3, cop := 2, heatTotalOutput := 1 }, grid := { totalImport := 1 / 3 } }] 3 with
    tariff := "Time of use - PPA + FR", farmPower := [10, 5, 2, 3], higherPercent := 1 / 2, lowerPercent := 1 / 4 }

example : ∃ x y, RoundedKpi.gridResUsed double oneByOne farmHours = .ok x ∧ RoundedKpi.sumImport double oneByOne farmHours = .ok y ∧
    0 ≤ x ∧ x ≤ y ∧ |x - 17 / 70| ≤ 1 / 10 ^ 12 * (17 / 70) + 1 / 10 ^ 300 :=
  C124_wind_import oneByOne (C := farmHours) rfl (by decide) (by
    intro r hr
    simp only [farmHours, sampleCalcs, List.mem_cons, List.not_mem_nil, or_false] at hr
    rcases hr with rfl | rfl | rfl <;> norm_num) (by decide +kernel)

theorem farmHours_covers : CoversPump farmHours := by
  intro r hr
  simp only [farmHours, sampleCalcs, List.mem_cons, List.not_mem_nil, or_false] at hr
  rcases hr with rfl | rfl | rfl <;> refine ⟨?_, ?_, ?_, ?_⟩ <;> norm_num

example : ∃ x, RoundedKpi.hpMetRes double oneByOne farmHours = .ok (some x) ∧
    |x - (1 + 3 / 7 + 29 / 100) / (7 / 2) * 100| ≤ 2 / 10 ^ 9 := by
  obtain ⟨x, h1, -, -, -, h2⟩ := C124_pump_share_close oneByOne (C := farmHours) rfl (by decide) farmHours_covers
    (by decide +kernel) (y := (1 + 3 / 7 + 29 / 100) / (7 / 2) * 100) (by decide +kernel)
  exact ⟨x, h1, h2⟩

example : ∃ x, RoundedKpi.hpMetRes double oneByOne { farmHours with tariff := "Flat rates" } = .ok x ∧
    ∀ y, x = some y → 0 ≤ y ∧ y ≤ 100 :=
  C124_pump_share double_rounds (show double.rnd 1 = 1 by decide +kernel) (show double.rnd 100 = 100 by decide +kernel) oneByOne
    (C := { farmHours with tariff := "Flat rates" }) rfl (by decide) (by
      intro r hr
      simp only [farmHours, sampleCalcs, List.mem_cons, List.not_mem_nil, or_false] at hr
      rcases hr with rfl | rfl | rfl <;> refine ⟨?_, ?_, ?_, ?_⟩ <;>
        first | norm_num; done | (unfold IsFloat; decide +kernel))

/-- One windy hour: 0.2 kWh from the roof and 0.3 kWh from the grid at a COP of 3.4 make 1.7 kWh of heat. -/
def Spec.halfAndHalf : Calcs Unit :=
  { sampleCalcs [{ hp :=
      { elecResUsage := double.rnd (1 / 5), elecImportUsage := double.rnd (3 / 10), cop := double.rnd (17 / 5),
        heatTotalOutput := double.rnd (17 / 10) } }] 1 with
    tariff := "Time of use - PPA + FR", farmPower := [10, 5, 2, 3], higherPercent := 1 / 2, lowerPercent := 1 / 4 }

/-- **With a wind farm the share can be above 100 %.** All entries are floats and the heat covers what the electricity made,
but the two parts are rounded on their own, and the share shown is 100.00000000000003 %. -/
theorem C124_pump_share_over : CoversPump halfAndHalf ∧
    (∀ r ∈ halfAndHalf.results, IsFloat double r.hp.elecResUsage ∧ IsFloat double r.hp.elecImportUsage ∧
      IsFloat double r.hp.cop ∧ IsFloat double r.hp.heatTotalOutput) ∧
    ∃ x, RoundedKpi.hpMetRes double oneByOne halfAndHalf = .ok (some x) ∧ 100 < x := by
  refine ⟨?_, ?_, ?_⟩
  · intro r hr
    simp only [halfAndHalf, sampleCalcs, List.mem_cons, List.not_mem_nil, or_false] at hr
    subst hr
    decide +kernel
  · intro r hr
    simp only [halfAndHalf, sampleCalcs, List.mem_cons, List.not_mem_nil, or_false] at hr
    subst hr
    exact ⟨double_rounds.idem _, double_rounds.idem _, double_rounds.idem _, double_rounds.idem _⟩
  · have hc : checks (RoundedKpi.hpMetRes double oneByOne halfAndHalf) (fun x => decide (100 < x.getD 0)) = true := by
      decide +kernel
    obtain ⟨x, h, hx⟩ := exists_of_checks hc
    cases x with
    | none => exact absurd hx (by decide)
    | some x => exact ⟨x, h, hx⟩

/-! ## The share of the demand -/

/-- **The share of the demand met from renewables is never shown as negative**, under every
tariff, if in no hour more is sold than generated. -/
theorem C124_demand_met (hr : Rounds R) (h1 : IsFloat R 1) (np : Numpy) {C : Calcs N} (h : AllHours C)
    (he : ∀ r ∈ C.results, r.grid.totalExport ≤ r.res.generationTotal)
    (hd : ∀ r ∈ C.results, 0 ≤ r.hp.elecTotalUsage ∧ 0 ≤ r.aux.demand ∧ 0 ≤ r.elecDemand.elecDemand)
    (hi : ∀ r ∈ C.results, 0 ≤ r.grid.totalImport) {g : ℚ} (hg : Kpi.gridResUsed C = .ok g) :
    ∃ x, RoundedKpi.demandMetRes R np C = .ok x ∧ ∀ y, x = some y → 0 ≤ y := by
  have h0 := RoundedKpi.rounds_zero hr
  have nn : ∀ f : Results N → ℚ, (∀ r ∈ C.results, 0 ≤ f r) → 0 ≤ RoundedKpi.npSum R np (C.results.map f) := fun f hf =>
    RoundedKpi.npSum_nonneg hr np fun x hx => by obtain ⟨r, hr, rfl⟩ := List.mem_map.mp hx; exact hf r hr
  have hEG : RoundedKpi.npSum R np (C.results.map fun r => r.grid.totalExport) ≤
      RoundedKpi.npSum R np (C.results.map fun r => r.res.generationTotal) :=
    RoundedKpi.npSum_mono hr np (List.forall₂_map_left_iff.mpr (List.forall₂_map_right_iff.mpr (forall₂_self he)))
  have n1 := nn (fun r => r.hp.elecTotalUsage) fun r hr => (hd r hr).1
  have n2 := nn (fun r => r.aux.demand) fun r hr => (hd r hr).2.1
  have n3 := nn (fun r => r.elecDemand.elecDemand) fun r hr => (hd r hr).2.2
  obtain ⟨w, -, hall⟩ := gridRes_hours hr np h hg
  have hw : 0 ≤ RoundedKpi.npSum R np (onlyIn w (fun r => r.grid.totalImport) C.results) :=
    RoundedKpi.npSum_nonneg hr np (onlyIn_nonneg hi)
  unfold RoundedKpi.demandMetRes RoundedKpi.totalResUsed RoundedKpi.gridResUsed RoundedKpi.totalResSelfConsumption RoundedKpi.sumHpUsage RoundedKpi.sumAuxOutput
    RoundedKpi.sumEd RoundedKpi.sumRes RoundedKpi.sumExport
  rw [RoundedKpi.total_ok h np, RoundedKpi.total_ok h np, RoundedKpi.total_ok h np, RoundedKpi.total_ok h np,
    RoundedKpi.total_ok h np, hall]
  refine ⟨_, rfl, fun y hy => ?_⟩
  generalize RoundedKpi.npSum R np (C.results.map fun r => r.grid.totalExport) = E at hEG hy
  generalize RoundedKpi.npSum R np (C.results.map fun r => r.res.generationTotal) = G at hEG hy
  generalize RoundedKpi.npSum R np (C.results.map fun r => r.hp.elecTotalUsage) = a at n1 hy
  generalize RoundedKpi.npSum R np (C.results.map fun r => r.aux.demand) = b at n2 hy
  generalize RoundedKpi.npSum R np (C.results.map fun r => r.elecDemand.elecDemand) = c at n3 hy
  generalize RoundedKpi.npSum R np (onlyIn w (fun r => r.grid.totalImport) C.results) = W at hw hy
  have up : ∀ x, 0 ≤ x → 0 ≤ R.rnd x := fun x hx => by have := hr.mono 0 x hx; rwa [h0] at this
  have hu : 0 ≤ R.add W (R.sub G E) := up _ (by have := up (G - E) (by linarith); show 0 ≤ W + R.rnd (G - E); linarith)
  have hD0 : 0 ≤ R.add (R.add a b) c := up _ (add_nonneg (up _ (add_nonneg n1 n2)) n3)
  have hDf : R.rnd (R.add (R.add a b) c) = R.add (R.add a b) c := hr.idem _
  generalize R.add W (R.sub G E) = U at hu hy
  generalize R.add (R.add a b) c = D at hD0 hDf hy
  unfold RoundedKpi.npDiv at hy
  split at hy
  · cases hy
  · rename_i hD
    cases hy
    have hDp : 0 < D := lt_of_le_of_ne hD0 (Ne.symm hD)
    have s1 : R.sub D U ≤ D := by have := hr.mono (D - U) D (by linarith); rwa [hDf] at this
    have s2 : R.div (R.sub D U) D ≤ 1 := by
      have := hr.mono _ _ ((div_le_one hDp).mpr s1); rwa [show R.rnd 1 = 1 from h1] at this
    exact up _ (mul_nonneg (up _ (by linarith)) (by norm_num))

example : ∃ x, RoundedKpi.demandMetRes double oneByOne windyHours = .ok x ∧ ∀ y, x = some y → 0 ≤ y :=
  C124_demand_met double_rounds (show double.rnd 1 = 1 by decide +kernel) oneByOne (C := windyHours) rfl (fun r hr => (windyHours_sold r hr).2) (by
    intro r hr
    simp only [windyHours, sampleCalcs, List.mem_cons, List.not_mem_nil, or_false] at hr
    rcases hr with rfl | rfl | rfl <;> refine ⟨?_, ?_, ?_⟩ <;> norm_num [windyHour1, windyHour2, windyHour3])
    (by
      intro r hr
      simp only [windyHours, sampleCalcs, List.mem_cons, List.not_mem_nil, or_false] at hr
      rcases hr with rfl | rfl | rfl <;> norm_num [windyHour1, windyHour2, windyHour3]) (g := 0) rfl

/-- **The share of the demand met from renewables is right** to a thousand-millionth of a percentage point, more if far more
is generated than asked for, under every tariff. `g` is what is bought while the wind farm has much wind. -/
theorem C124_demand_met_close (np : Numpy) {C : Calcs N} (h : AllHours C) (hn : C.timesteps ≤ 8784)
    (he : ∀ r ∈ C.results, 0 ≤ r.grid.totalExport ∧ r.grid.totalExport ≤ r.res.generationTotal)
    (hd : ∀ r ∈ C.results, 0 ≤ r.hp.elecTotalUsage ∧ 0 ≤ r.aux.demand ∧ 0 ≤ r.elecDemand.elecDemand)
    (hi : ∀ r ∈ C.results, 0 ≤ r.grid.totalImport) {g : ℚ} (hg : Kpi.gridResUsed C = .ok g)
    (hD : 1 / 10 ^ 100 ≤ askedFor C) :
    ∃ x, RoundedKpi.demandMetRes double np C = .ok (some x) ∧
      |x - 100 * ((g + (generated C.results - exported C.results)) / askedFor C)| ≤
        1 / 10 ^ 9 * (1 + (g + generated C.results) / askedFor C) := by
  obtain ⟨W, -, w1, -, -, -, w2⟩ := C124_wind_import np h hn hi hg
  have ng : 0 ≤ g := (gridRes_bounds h hi hg).1
  obtain ⟨G', g1, g2⟩ := C124_year np h hn fun r => r.res.generationTotal
  obtain ⟨E', e1, e2⟩ := C124_year np h hn fun r => r.grid.totalExport
  obtain ⟨a', a1, a2⟩ := C124_year np h hn fun r => r.hp.elecTotalUsage
  obtain ⟨b', b1, b2⟩ := C124_year np h hn fun r => r.aux.demand
  obtain ⟨c', c1, c2⟩ := C124_year np h hn fun r => r.elecDemand.elecDemand
  rw [amounts_eq fun r hr => (he r hr).1] at e2
  rw [amounts_eq fun r hr => (he r hr).1.trans (he r hr).2] at g2
  rw [amounts_eq fun r hr => (hd r hr).1] at a2
  rw [amounts_eq fun r hr => (hd r hr).2.1] at b2
  rw [amounts_eq fun r hr => (hd r hr).2.2] at c2
  have nn : ∀ f : Results N → ℚ, (∀ r ∈ C.results, 0 ≤ f r) → 0 ≤ exactly C f := fun f hf => List.sum_nonneg fun x hx => by
    obtain ⟨r, hr, rfl⟩ := List.mem_map.mp hx; exact hf r hr
  have na := nn _ fun r hr => (hd r hr).1
  have nb := nn _ fun r hr => (hd r hr).2.1
  have nc := nn _ fun r hr => (hd r hr).2.2
  have nE : 0 ≤ exported C.results := nn _ fun r hr => (he r hr).1
  have nEG : exported C.results ≤ generated C.results := sum_le_sum_map fun r hr => (he r hr).2
  change |E' - exported C.results| ≤ 1 / 10 ^ 12 * exported C.results + _ at e2
  change |G' - generated C.results| ≤ 1 / 10 ^ 12 * generated C.results + _ at g2
  have hτ : (1 : ℚ) / 10 ^ 300 ≤ 1 / 10 ^ 200 * askedFor C := by
    have := mul_le_mul_of_nonneg_left hD (by positivity : (0 : ℚ) ≤ 1 / 10 ^ 200)
    exact le_trans (by decide +kernel) this
  have hDp : 0 < askedFor C := lt_of_lt_of_le (by norm_num) hD
  have t1 : (1 : ℚ) / 10 ^ 200 * askedFor C ≤ 1 / 10 ^ 15 * askedFor C := mul_le_mul_of_nonneg_right (by norm_num) hDp.le
  have t2 : (1 : ℚ) / 10 ^ 200 * askedFor C ≤ 1 / 10 * (1 / 10 ^ 100 * askedFor C) := by
    rw [← mul_assoc]
    exact mul_le_mul_of_nonneg_right (by norm_num) hDp.le
  have key := share_close (D := askedFor C) (D' := double.add (double.add a' b') c') (U := g + (generated C.results - exported C.results))
    (U' := double.add W (double.sub G' E')) (G := g + generated C.results) hD ?_ ?_ (by linarith) (by linarith)
  · obtain ⟨k1, k2⟩ := key
    refine ⟨_, ?_, k2⟩
    unfold RoundedKpi.demandMetRes RoundedKpi.totalResUsed RoundedKpi.totalResSelfConsumption RoundedKpi.sumHpUsage RoundedKpi.sumAuxOutput
      RoundedKpi.sumEd RoundedKpi.sumRes RoundedKpi.sumExport
    rw [a1, b1, c1, w1, g1, e1]
    show Except.ok ((RoundedKpi.npDiv double (double.sub (double.add (double.add a' b') c') (double.add W (double.sub G' E')))
      (double.add (double.add a' b') c')).map fun x => double.mul (double.sub 1 x) 100) = _
    unfold RoundedKpi.npDiv
    rw [if_neg (ne_of_gt k1)]
    rfl
  · change |double.rnd (double.rnd (a' + b') + c') - askedFor C| ≤ _
    have r1 := double_err (a' + b')
    have r2 := double_err (double.rnd (a' + b') + c')
    unfold askedFor at hτ t1 hDp ⊢
    generalize (exactly C fun r => r.hp.elecTotalUsage) = a at *
    generalize (exactly C fun r => r.aux.demand) = b at *
    generalize (exactly C fun r => r.elecDemand.elecDemand) = c at *
    generalize (1 : ℚ) / 10 ^ 300 = τ at *
    generalize (1 : ℚ) / 10 ^ 200 * (a + b + c) = σ at *
    clear t2 hD
    obtain ⟨x1, x2⟩ := abs_le.mp a2
    obtain ⟨y1, y2⟩ := abs_le.mp b2
    obtain ⟨z1, z2⟩ := abs_le.mp c2
    have m1 : |a' + b'| ≤ 2 * (a + b + c) := abs_le.mpr ⟨by linarith, by linarith⟩
    obtain ⟨u1, u2⟩ := abs_le.mp r1
    have m2 : |double.rnd (a' + b') + c'| ≤ 4 * (a + b + c) := abs_le.mpr ⟨by linarith, by linarith⟩
    obtain ⟨v1, v2⟩ := abs_le.mp r2
    exact abs_le.mpr ⟨by linarith, by linarith⟩
  · change |double.rnd (W + double.rnd (G' - E')) - _| ≤ _
    have r1 := double_err (G' - E')
    have r2 := double_err (W + double.rnd (G' - E'))
    generalize generated C.results = G at *
    generalize exported C.results = E at *
    generalize (1 : ℚ) / 10 ^ 300 = τ at *
    generalize (1 : ℚ) / 10 ^ 200 * askedFor C = σ at *
    generalize (1 : ℚ) / 10 ^ 100 * askedFor C = ρ at *
    clear t1 hD
    obtain ⟨x1, x2⟩ := abs_le.mp g2
    obtain ⟨y1, y2⟩ := abs_le.mp e2
    obtain ⟨z1, z2⟩ := abs_le.mp w2
    have m1 : |G' - E'| ≤ 3 * G + 2 * τ := abs_le.mpr ⟨by linarith, by linarith⟩
    obtain ⟨u1, u2⟩ := abs_le.mp r1
    have m2 : |W + double.rnd (G' - E')| ≤ 4 * G + 2 * g + 6 * τ := abs_le.mpr ⟨by linarith, by linarith⟩
    obtain ⟨v1, v2⟩ := abs_le.mp r2
    exact abs_le.mpr ⟨by linarith, by linarith⟩

example : ∃ x, RoundedKpi.demandMetRes double oneByOne windyHours = .ok (some x) ∧
    |x - 100 * ((0 + (generated windyHours.results - exported windyHours.results)) / askedFor windyHours)| ≤
      1 / 10 ^ 9 * (1 + (0 + generated windyHours.results) / askedFor windyHours) :=
  C124_demand_met_close oneByOne (C := windyHours) rfl (by decide) windyHours_sold (by
    intro r hr
    simp only [windyHours, sampleCalcs, List.mem_cons, List.not_mem_nil, or_false] at hr
    rcases hr with rfl | rfl | rfl <;> refine ⟨?_, ?_, ?_⟩ <;> norm_num [windyHour1, windyHour2, windyHour3])
    (by
      intro r hr
      simp only [windyHours, sampleCalcs, List.mem_cons, List.not_mem_nil, or_false] at hr
      rcases hr with rfl | rfl | rfl <;> norm_num [windyHour1, windyHour2, windyHour3]) (g := 0) rfl (by decide +kernel)

example : ∃ x, RoundedKpi.demandMetRes double oneByOne farmHours = .ok (some x) ∧
    |x - 100 * ((17 / 70 + (5 / 6 - 1 / 10)) / (29 / 10))| ≤ 1 / 10 ^ 9 * (1 + (17 / 70 + 5 / 6) / (29 / 10)) := by
  have key := C124_demand_met_close oneByOne (C := farmHours) rfl (by decide) (by
    intro r hr
    simp only [farmHours, sampleCalcs, List.mem_cons, List.not_mem_nil, or_false] at hr
    rcases hr with rfl | rfl | rfl <;> norm_num) (by
    intro r hr
    simp only [farmHours, sampleCalcs, List.mem_cons, List.not_mem_nil, or_false] at hr
    rcases hr with rfl | rfl | rfl <;> norm_num) (by
    intro r hr
    simp only [farmHours, sampleCalcs, List.mem_cons, List.not_mem_nil, or_false] at hr
    rcases hr with rfl | rfl | rfl <;> norm_num) (g := 17 / 70) (by decide +kernel) (by decide +kernel)
  have e1 : generated farmHours.results = 5 / 6 := by decide +kernel
  have e2 : exported farmHours.results = 1 / 10 := by decide +kernel
  have e3 : askedFor farmHours = 29 / 10 := by decide +kernel
  rw [e1, e2, e3] at key
  exact key

end Verif
