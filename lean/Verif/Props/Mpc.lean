import Verif.Lemmas.Mpc

/-!
# Properties of the predictive controller (C47, C48, C49, C76)

`first` is the first hour of the run, `n` the number of timesteps, `g` any behaviour of the optimiser.
-/

set_option autoImplicit false

namespace Verif
open Mpc
variable {N : Type}

/-- The result is about hour `t`: heat demand, heat pump performance and import price are those of
hour `t` of the year. -/
def Spec.About (S : MpcIn N) (t : ℕ) (r : MpcResults N) : Prop :=
  r.heatDemand.heatDemand = S.heatDemand t ∧ r.hp.cop = (S.perf t).cop ∧ r.hp.duty = (S.perf t).duty ∧
    r.grid.importPrice = S.importCost t

/-- The result also carries the electricity demand and the renewable generation of hour `t`. -/
def Spec.Complete (S : MpcIn N) (t : ℕ) (r : MpcResults N) : Prop :=
  Spec.About S t r ∧ r.elecDemand.elecDemand = S.elecDemand t ∧ r.res.generationTotal = S.generation t ∧
    r.res.wind = S.wind t ∧ r.res.pv = S.pv t

/-- The optimiser respects the equations and bounds posted for the hour it is asked about (the one after
`hour`), with some value of the tank's capacity. -/
def Spec.Obeys (S : MpcIn N) (g : ℕ → ℕ → Except PyErr Point) : Prop :=
  ∀ hour a p, g hour a = .ok p → ∃ cap, Posted S (hour + 1) cap p

namespace Mpc.Samples

/-- Demand and generation that change from hour to hour, no tank, an electric heater, a battery. -/
def plain : MpcIn Unit where
  hp := ⟨10, 0, 0⟩
  es := ⟨10, 1/2, 5, 5, 9/10, 9/10, 0⟩
  aux := ⟨true, 1, 0, 0⟩
  tank := ⟨0, (), fun _ _ _ _ => .ok 0, fun _ _ _ _ _ _ => .ok ()⟩
  exportPrice := 10
  horizon := 24
  generation t := (t : ℚ) + 5
  wind t := t
  pv _ := 5
  elecDemand t := (t : ℚ) + 2
  heatDemand t := (t : ℚ) + 6
  importCost t := (t : ℚ) + 100
  perf _ := ⟨3, 9⟩
  peakHeatDemand := 9000

/-- Everything zero. -/
def zero : Point := ⟨0, 0, 0, 0, 0, 0, 0, 0, 0, 0, 0, 0, 0, 0, 0, 0, 0, 0, 0, 0, 0, 0, 0, 0, 0, 0⟩

/-- An answer for `plain`: the renewables meet the electricity demand and put 3 kWh into the heat pump,
which delivers 9 kWh if that much is wanted, or else export; the rest of the heat is from the heater. -/
def answer (hour _a : ℕ) : Except PyErr Point :=
  let hd : ℚ := (hour : ℚ) + 1 + 6
  let h := min hd 9
  if 8760 ≤ hour then .error .other
  else .ok { zero with resEd := (hour : ℚ) + 1 + 2, exp := 3 - h / 3, hptrd := h, hpStatus := 1, hptVar := h, auxD := hd - h, aux := hd - h }

end Mpc.Samples

/-! ## C47: one result per hour -/

/-- C47: whatever the optimiser does, a run of two or more hours that succeeds has one result per hour.
Missing: a run of one hour (`C47_single_hour`). -/
theorem C47_count_partial {S : MpcIn N} {g : ℕ → ℕ → Except PyErr Point} {first n : ℕ}
    {rs : List (MpcResults N)} (hn : 2 ≤ n) (h : movingHorizon S g first n = .ok rs) : rs.length = n :=
  (run_shape hn h).2.1

/-- C47 is false for a run of one hour: it has no results. -/
theorem C47_single_hour (S : MpcIn N) (g : ℕ → ℕ → Except PyErr Point) (first : ℕ) (hf : first + 1 ≤ 8760) :
    movingHorizon S g first 1 = .ok [] := by
  unfold movingHorizon
  rw [if_neg (by omega)]
  rfl

/-- C47: for a run that ends before the last hour of the year, result `i` is about hour `first + i`,
and from the second result on it is complete. -/
theorem C47_in_order_partial {S : MpcIn N} {g : ℕ → ℕ → Except PyErr Point} {first n : ℕ}
    {rs : List (MpcResults N)} (hn : 2 ≤ n) (hy : first + n ≤ 8759)
    (h : movingHorizon S g first n = .ok rs) (i : ℕ) (r : MpcResults N) (hi : rs[i]? = some r) :
    Spec.About S (first + i) r ∧ (1 ≤ i → Spec.Complete S (first + i) r) := by
  obtain ⟨_, hl, h0, _, hs⟩ := run_shape hn h
  have hlt : i < n := by
    rw [← hl]
    exact (List.getElem?_eq_some_iff.mp hi).1
  rcases Nat.eq_zero_or_pos i with rfl | hpos
  · rw [h0] at hi
    injection hi with hi
    subst hi
    exact ⟨⟨rfl, rfl, rfl, rfl⟩, by omega⟩
  · obtain ⟨hour, a, p, prev, f, nodes, _, _, _, _, rfl⟩ := (hs i r hpos hi).1 (Or.inl (by omega))
    exact ⟨⟨rfl, rfl, rfl, rfl⟩, fun _ => ⟨⟨rfl, rfl, rfl, rfl⟩, rfl, rfl, rfl, rfl⟩⟩

/-- Both theorems apply to a real run: three hours of `plain` give three results. -/
example : ∃ rs, movingHorizon Samples.plain Samples.answer 10 3 = .ok rs ∧
    rs.map (fun r => r.heatDemand.heatDemand) = [16, 17, 18] := by
  apply exists_of_checks
  decide +kernel

/-- C47 is false for a run that ends with the year: its last result is the opening one again, with the
data of the *first* hour of the run, while the ones between are in order. -/
theorem C47_year_end {S : MpcIn N} {g : ℕ → ℕ → Except PyErr Point} {first n : ℕ}
    {rs : List (MpcResults N)} (hn : 3 ≤ n) (hy : first + n = 8760)
    (h : movingHorizon S g first n = .ok rs) :
    (∃ r, rs[n - 1]? = some r ∧ rs[0]? = some r ∧ Spec.About S first r ∧ r.elecDemand.elecDemand = 0 ∧ r.res.generationTotal = 0) ∧
    ∀ i r, 1 ≤ i → i < n - 1 → rs[i]? = some r → Spec.Complete S (first + i) r := by
  obtain ⟨_, hl, h0, _, hs⟩ := run_shape (by omega) h
  constructor
  · have hlast : rs[n - 1]? = some (rs[n - 1]'(by omega)) := List.getElem?_eq_getElem _
    have := (hs (n - 1) _ (by omega) hlast).2 (by omega) (by omega)
    exact ⟨opening S first, by rw [hlast, this], h0, ⟨rfl, rfl, rfl, rfl⟩, rfl, rfl⟩
  · intro i r h1 h2 hi
    obtain ⟨hour, a, p, prev, f, nodes, _, _, _, _, rfl⟩ := (hs i r h1 hi).1 (Or.inl (by omega))
    exact ⟨⟨rfl, rfl, rfl, rfl⟩, rfl, rfl, rfl, rfl⟩

/-- Concretely: the last three hours of the year. The last result claims the heat demand of hour 8757. -/
theorem C47_last_hour_wrong : ∃ rs, movingHorizon Samples.plain Samples.answer 8757 3 = .ok rs ∧
    rs.map (fun r => r.heatDemand.heatDemand) = [8763, 8764, 8763] ∧ Samples.plain.heatDemand 8759 = 8765 := by
  apply exists_of_checks
  decide +kernel

/-- The three hours between the first and the last of that year's end. -/
example : ∃ rs, movingHorizon Samples.plain Samples.answer 8755 5 = .ok rs ∧
    ∀ i r, 1 ≤ i → i < 4 → rs[i]? = some r → Spec.Complete Samples.plain (8755 + i) r := by
  obtain ⟨rs, h, -⟩ : ∃ rs, movingHorizon Samples.plain Samples.answer 8755 5 = .ok rs ∧ rs.length = 5 :=
    exists_of_checks (p := fun rs => decide (rs.length = 5)) (by decide +kernel) |>.imp
      fun _ h => ⟨h.1, of_decide_eq_true h.2⟩
  exact ⟨rs, h, (C47_year_end (by norm_num) (by norm_num) h).2⟩

/-- C47: the first result never reports the electricity demand or the generation of its hour: they are
zero, whatever the inputs. -/
theorem C47_first_result_empty {S : MpcIn N} {g : ℕ → ℕ → Except PyErr Point} {first n : ℕ}
    {rs : List (MpcResults N)} (hn : 2 ≤ n) (h : movingHorizon S g first n = .ok rs) :
    ∃ r, rs[0]? = some r ∧ r.elecDemand.elecDemand = 0 ∧ r.res.generationTotal = 0 ∧ r.grid.totalImport = 0 ∧
      r.hp.heatTotalOutput + r.aux.demand = S.heatDemand first := by
  refine ⟨_, (run_shape hn h).2.2.1, rfl, rfl, rfl, ?_⟩
  unfold opening
  dsimp only
  split_ifs <;> ring

/-- C47: the run of the last two hours of the year always fails, whatever the optimiser answers: the
horizon is cut to one hour. -/
theorem C47_last_two_hours_fail (S : MpcIn N) (g : ℕ → ℕ → Except PyErr Point) (rs : List (MpcResults N)) :
    movingHorizon S g 8758 2 ≠ .ok rs := by
  intro h
  have := (run_shape (by omega) h).2.2.2.1
  have := (horizonEnd_le S 8758).1
  omega

/-- C47: with a horizon of one hour (or none) every run of two or more hours fails. -/
theorem C47_short_horizon_fails {S : MpcIn N} (g : ℕ → ℕ → Except PyErr Point) (first n : ℕ) (hn : 2 ≤ n)
    (hh : S.horizon ≤ 1) (rs : List (MpcResults N)) : movingHorizon S g first n ≠ .ok rs := by
  intro h
  have := (run_shape hn h).2.2.2.1
  have := (horizonEnd_le S first).2
  omega

example : ∃ S : MpcIn Unit, S.horizon ≤ 1 := ⟨{ Samples.plain with horizon := 1 }, le_refl _⟩

/-- C47: a run past the end of the year is refused. -/
theorem C47_beyond_year (S : MpcIn N) (g : ℕ → ℕ → Except PyErr Point) (first n : ℕ) (h : 8760 < first + n) :
    movingHorizon S g first n = .error .valueError := by
  unfold movingHorizon
  rw [if_pos h]

example : movingHorizon Samples.plain Samples.answer 8000 761 = .error .valueError :=
  C47_beyond_year _ _ _ _ (by norm_num)

/-- C47: with a horizon of two or more hours, a working tank and an electric heater (or no tank) a run
that starts before hour 8758 succeeds as long as the optimiser solves the first hour at once and every
later hour before 8758 at one of two attempts. `Q` says for which node temperatures the tank works. -/
theorem C47_succeeds_partial {S : MpcIn N} {g : ℕ → ℕ → Except PyErr Point} {first n : ℕ} {Q : N → Prop}
    (hm : ∀ i t s nodes, Q nodes → ∃ v, S.tank.maxInOut i t s nodes = .ok v)
    (hnn : S.tank.capacity ≠ 0 → ∀ i t s nodes c d, Q nodes → ∃ v, S.tank.newNodes i t s nodes c d = .ok v ∧ Q v)
    (h0 : Q S.tank.initTemps) (he : S.aux.electric = true ∨ S.tank.capacity = 0) (hh : 2 ≤ S.horizon)
    (hg0 : ∃ p, g first 0 = .ok p)
    (hg : ∀ hour, first < hour → hour < first + n - 1 → hour ≤ 8757 → (∃ p, g hour 0 = .ok p) ∨ (∃ p, g hour 1 = .ok p))
    (hn : 2 ≤ n) (hf : first ≤ 8757) (hy : first + n ≤ 8760) :
    ∃ rs, movingHorizon S g first n = .ok rs ∧ rs.length = n := by
  have hend : first + 2 ≤ horizonEnd S first := by
    unfold horizonEnd
    split_ifs <;> omega
  obtain ⟨r, c, hok, hq⟩ := solve_succeeds hm hnn he hend hg0 (prev := fresh S) h0
  obtain ⟨k, rfl⟩ : ∃ k, n = k + 2 := ⟨n - 2, by omega⟩
  have hstep : hourStep S g first first ⟨[], []⟩ = .ok ⟨[opening S first, r], [fresh S, c]⟩ := by
    unfold hourStep
    rw [if_pos (Or.inl rfl), if_pos rfl, hok]
    rfl
  obtain ⟨L, hL⟩ := hours_succeeds hm hnn h0 he hh hg (first := first) k (first + 1)
    ⟨[opening S first, r], [fresh S, c]⟩ (by omega) (by omega) (by omega) (by simp)
    (by simp only [List.forall_mem_cons, List.not_mem_nil, false_implies, implies_true, and_true]; exact ⟨h0, hq⟩)
  have hrun : movingHorizon S g first (k + 2) = .ok L.results := by
    unfold movingHorizon
    rw [if_neg (by omega), show k + 2 - 1 = k + 1 by omega]
    unfold hours
    rw [hstep]
    dsimp only
    rw [hL]
  exact ⟨_, hrun, C47_count_partial hn hrun⟩

/-- The hypotheses hold of `plain` for the whole year. -/
example : ∃ rs, movingHorizon Samples.plain (fun _ _ => .ok Samples.zero) 0 8760 = .ok rs ∧ rs.length = 8760 :=
  C47_succeeds_partial (Q := fun _ => True) (fun _ _ _ _ _ => ⟨0, rfl⟩)
    (fun _ _ _ _ _ _ _ _ => ⟨(), rfl, trivial⟩) trivial (Or.inl rfl) (by decide)
    ⟨_, rfl⟩ (fun _ _ _ _ => Or.inl ⟨_, rfl⟩) (by norm_num) (by norm_num) (by norm_num)

/-- C47: with a boiler that burns a fuel and a tank, every run of two or more hours fails, whatever the
optimiser answers. -/
theorem C47_fuel_and_tank_fail {S : MpcIn N} (he : S.aux.electric = false) (hc : S.tank.capacity ≠ 0)
    (g : ℕ → ℕ → Except PyErr Point) (first n : ℕ) (hn : 2 ≤ n) (rs : List (MpcResults N)) :
    movingHorizon S g first n ≠ .ok rs := by
  intro h
  obtain ⟨_, hl, _, _, hs⟩ := run_shape hn h
  have h1 : rs[1]? = some (rs[1]'(by omega)) := List.getElem?_eq_getElem _
  obtain ⟨hour, a, p, prev, f, nodes, _, _, _, hf, _⟩ := (hs 1 _ (le_refl _) h1).1 (Or.inr rfl)
  unfold finalNodes at hf
  rw [if_neg hc, he] at hf
  simp at hf

example : ∃ S : MpcIn Unit, S.aux.electric = false ∧ S.tank.capacity ≠ 0 :=
  ⟨{ Samples.plain with aux := ⟨false, 1, 40, 10⟩, tank := { Samples.plain.tank with capacity := 1000 } }, rfl,
    by show (1000 : ℚ) ≠ 0; norm_num⟩

/-! ## C48: the pre-calculation -/

/-- C48: outside a band near the end of the year the pre-calculation succeeds, with one entry for every
hour the run looks at, and the entry of hour `t` is the capacity of the tank at that hour. Missing: the
band (`C48_band_fails`). -/
theorem C48_in_range_partial {cap : ℕ → Except PyErr ℚ} (hc : ∀ t < 8760, ∃ v, cap t = .ok v)
    {first n horizon : ℕ}
    (hb : first + n + horizon + horizon < 8759 ∨ 8759 ≤ first + n + horizon) :
    ∃ xs, maxCapacity cap first n horizon = .ok xs ∧ xs.length = n + horizon ∧
      ∀ t, first ≤ t → t < first + n + horizon → t < 8759 → ∃ v, cap t = .ok v ∧ xs[t - first]? = some v := by
  have hend : fillEnd first n horizon ≤ 8759 ∧ fillEnd first n horizon - first ≤ n + horizon ∧
      ∀ t, t < first + n + horizon → t < 8759 → t < fillEnd first n horizon := by
    unfold fillEnd
    dsimp only
    split_ifs with hif
    · exact ⟨le_refl _, by omega, fun t _ h => h⟩
    · exact ⟨by omega, by omega, fun t h _ => by omega⟩
  by_cases hfe : first ≤ fillEnd first n horizon
  · obtain ⟨ys, hys⟩ := fill_succeeds hc (first := first) (fillEnd first n horizon - first) first
      (List.replicate (n + horizon) 0) (le_refl _) (by omega) (by simpa using hend.2.1)
    refine ⟨ys, hys, by rw [(fill_length _ _ _ _ hys).1]; simp, ?_⟩
    intro t h1 h2 h3
    have h4 := hend.2.2 t h2 h3
    exact (fill_get _ _ _ _ (le_refl _) hys).2.1 t h1 (by omega)
  · refine ⟨List.replicate (n + horizon) 0, ?_, by simp, fun t h1 h2 h3 => ?_⟩
    · unfold maxCapacity
      rw [show fillEnd first n horizon - first = 0 by omega]
      rfl
    · have := hend.2.2 t h2 h3
      omega

example : ∃ xs, maxCapacity (fun t => .ok (t : ℚ)) 0 8760 24 = .ok xs ∧ xs.length = 8784 := by
  obtain ⟨xs, h1, h2, _⟩ := C48_in_range_partial (cap := fun t => .ok (t : ℚ)) (fun t _ => ⟨_, rfl⟩)
    (first := 0) (n := 8760) (horizon := 24) (Or.inr (by norm_num))
  exact ⟨xs, h1, h2⟩

/-- C48 is false in the band: the run fails, whatever the tank. -/
theorem C48_band_fails (cap : ℕ → Except PyErr ℚ) {first n horizon : ℕ}
    (h1 : 8759 ≤ first + n + horizon + horizon) (h2 : first + n + horizon < 8759) (xs : List ℚ) :
    maxCapacity cap first n horizon ≠ .ok xs := by
  intro h
  have hend : fillEnd first n horizon = 8759 := by
    unfold fillEnd
    dsimp only
    rw [if_pos (by omega)]
  unfold maxCapacity at h
  have := (fill_length _ _ _ _ h).2
  rw [hend, List.length_replicate] at this
  omega

/-- C48: a run from the first of January for 8712 hours with a horizon of 24 fails. -/
theorem C48_example_fails (cap : ℕ → Except PyErr ℚ) (xs : List ℚ) : maxCapacity cap 0 8712 24 ≠ .ok xs :=
  C48_band_fails cap (by norm_num) (by norm_num) xs

end Verif
