import Verif.Lemmas.RoundedKpi
import Verif.Props.Kpi
import Verif.Props.Rounded

/-!
# The indicators in the arithmetic of the computer (C124)
-/

set_option autoImplicit false

namespace Verif
open FixedOrder Kpi Spec Rounding
open RoundedKpi (Numpy)
variable {N : Type} {R : Rounding} {u η : ℚ}

/-- The sum of the amounts, whatever their sign. -/
def Spec.amounts (C : Calcs N) (f : Results N → ℚ) : ℚ := (C.results.map fun r => |f r|).sum

/-- A sum over the hours without rounding. -/
def Spec.exactly (C : Calcs N) (f : Results N → ℚ) : ℚ := (C.results.map f).sum

theorem amounts_map (C : Calcs N) (f : Results N → ℚ) : ((C.results.map f).map fun x => |x|).sum = amounts C f := by
  unfold amounts
  rw [List.map_map]
  rfl

theorem amounts_nonneg (C : Calcs N) (f : Results N → ℚ) : 0 ≤ amounts C f := by
  rw [← amounts_map]; exact RoundedKpi.abs_sum_nonneg _

theorem amounts_eq {C : Calcs N} {f : Results N → ℚ} (h : ∀ r ∈ C.results, 0 ≤ f r) : amounts C f = exactly C f := by
  unfold amounts exactly
  rw [List.map_congr_left fun r hr => abs_of_nonneg (h r hr)]

/-- Addition from left to right: one of the ways in which sums may be taken. -/
def Spec.leftToRight : ℕ → RoundedKpi.Adding
  | 0 => .one 0
  | 1 => .one 0
  | n + 2 => .both (leftToRight (n + 1)) (.one (n + 1))

/-- NumPy, if it added from left to right. -/
def Spec.oneByOne : Numpy where
  order := leftToRight
  all n hn := by
    obtain ⟨n, rfl⟩ : ∃ m, n = m + 1 := ⟨n - 1, by omega⟩
    have h : (leftToRight (n + 1)).places = List.range (n + 1) := by
      clear hn
      induction n with
      | zero => rfl
      | succ n ih =>
        rw [leftToRight, RoundedKpi.Adding.places, ih, RoundedKpi.Adding.places, ← List.range_succ]
    rw [h]

/-- An hour in which most of the wind is sold. -/
def Spec.windyHour1 : Results Unit :=
  { res := { generationTotal := 6 }, grid := { totalExport := 5, cashflow := 1 / 8 },
    hp := { heatTotalOutput := 3, elecTotalUsage := 1 } }

/-- An hour in which electricity is bought and fuel is burnt. -/
def Spec.windyHour2 : Results Unit :=
  { res := { generationTotal := 1 / 3 }, grid := { totalExport := 1 / 10, cashflow := -7 / 10 }, aux := { cost := 100 / 7 } }

/-- An hour in which the heat pump takes some of the wind. -/
def Spec.windyHour3 : Results Unit :=
  { res := { generationTotal := 2 }, hp := { heatTotalOutput := 5 / 2, elecTotalUsage := 9 / 10 } }

/-- The three hours. -/
def Spec.windyHours : Calcs Unit :=
  { sampleCalcs [windyHour1, windyHour2, windyHour3] 3 with electric := false }

/-! ## Sums -/

/-- **The error of a total**, in any arithmetic whose roundings are off by at most `u` of the result or `η`, and in
whatever order NumPy adds. -/
theorem C124_total (ha : Accurate R u η) (hu : 0 ≤ u) (hη : 0 ≤ η) (np : Numpy) {C : Calcs N} (h : AllHours C)
    (f : Results N → ℚ) :
    ∃ x, RoundedKpi.total R np C f = .ok x ∧ |x - exactly C f| ≤
      ((1 + u) ^ C.timesteps - 1) * amounts C f + C.timesteps * η * (1 + u) ^ C.timesteps := by
  refine ⟨_, RoundedKpi.total_ok h np f, ?_⟩
  have h1 := RoundedKpi.npSum_error ha hu hη np (C.results.map f)
  rw [amounts_map, List.length_map, show C.results.length = C.timesteps from h] at h1
  exact h1

example : ∃ x, RoundedKpi.total double oneByOne windyHours (fun r => r.grid.cashflow) = .ok x ∧
    |x - exactly windyHours fun r => r.grid.cashflow| ≤ ((1 + 1 / 2 ^ 53) ^ 3 - 1) * amounts windyHours (fun r => r.grid.cashflow) +
      (3 : ℕ) * (1 / 2 ^ 1075) * (1 + 1 / 2 ^ 53) ^ 3 :=
  C124_total double_accurate (by norm_num) (by positivity) oneByOne (C := windyHours) rfl _

/-- **A total over a year is right to one part in a million million** of the sum of the amounts. -/
theorem C124_year (np : Numpy) {C : Calcs N} (h : AllHours C) (hn : C.timesteps ≤ 8784) (f : Results N → ℚ) :
    ∃ x, RoundedKpi.total double np C f = .ok x ∧ |x - exactly C f| ≤ 1 / 10 ^ 12 * amounts C f + 1 / 10 ^ 300 := by
  refine ⟨_, RoundedKpi.total_ok h np f, ?_⟩
  have h1 := RoundedKpi.npSum_year np (xs := C.results.map f) (by
    rw [List.length_map, show C.results.length = C.timesteps from h]; exact hn)
  rwa [amounts_map] at h1

example : ∃ x, RoundedKpi.total double oneByOne windyHours (fun r => r.res.generationTotal) = .ok x ∧
    |x - exactly windyHours fun r => r.res.generationTotal| ≤
      1 / 10 ^ 12 * amounts windyHours (fun r => r.res.generationTotal) + 1 / 10 ^ 300 :=
  C124_year oneByOne (C := windyHours) rfl (by decide) _

/-- **Whole numbers are added without error**, of whatever unit `2 ^ l`, if the amounts add up to at most `2 ^ 53` units. -/
theorem C124_whole (np : Numpy) {C : Calcs N} (h : AllHours C) {f : Results N → ℚ} {l : ℤ} (hl : -1074 ≤ l)
    (hf : ∀ r ∈ C.results, ∃ k : ℤ, f r = k * 2 ^ l) (hs : amounts C f ≤ 2 ^ 53 * 2 ^ l) :
    RoundedKpi.total double np C f = .ok (exactly C f) := by
  rw [RoundedKpi.total_ok h np f, RoundedKpi.npSum_whole np hl (fun x hx => by
    obtain ⟨r, hr, rfl⟩ := List.mem_map.mp hx; exact hf r hr) (by rw [amounts_map]; exact hs)]
  rfl

example : RoundedKpi.total double oneByOne (sampleCalcs (N := Unit) [{ res := { generationTotal := 13 / 2 } },
      { res := { generationTotal := 1 / 4 } }] 2) (fun r => r.res.generationTotal) = .ok (27 / 4) :=
  (C124_whole oneByOne (C := sampleCalcs (N := Unit) [{ res := { generationTotal := 13 / 2 } },
      { res := { generationTotal := 1 / 4 } }] 2) rfl (l := -2) (by norm_num) (fun r hr => by
    simp only [sampleCalcs, List.mem_cons, List.not_mem_nil, or_false] at hr
    rcases hr with rfl | rfl
    · exact ⟨26, by norm_num⟩
    · exact ⟨1, by norm_num⟩) (by decide +kernel)).trans (by decide +kernel)

/-- **Order is kept.** Of two quantities, or of one quantity for two combinations, the one that is larger or equal in every
hour has the larger or equal total, exactly. -/
theorem C124_order_kept (hr : Rounds R) (np : Numpy) {C D : Calcs N} (hC : AllHours C) (hD : AllHours D) {f g : Results N → ℚ}
    (h : List.Forall₂ (fun a b => f a ≤ g b) C.results D.results) :
    ∃ x y, RoundedKpi.total R np C f = .ok x ∧ RoundedKpi.total R np D g = .ok y ∧ x ≤ y :=
  ⟨_, _, RoundedKpi.total_ok hC np f, RoundedKpi.total_ok hD np g, RoundedKpi.npSum_mono hr np
    (List.forall₂_map_left_iff.mpr (List.forall₂_map_right_iff.mpr h))⟩

example : ∃ x y, RoundedKpi.total double oneByOne windyHours (fun r => r.grid.totalExport) = .ok x ∧
    RoundedKpi.total double oneByOne windyHours (fun r => r.res.generationTotal) = .ok y ∧ x ≤ y :=
  C124_order_kept double_rounds oneByOne (C := windyHours) (D := windyHours) rfl rfl
    (.cons (by decide +kernel) (.cons (by decide +kernel) (.cons (by decide +kernel) .nil)))

/-- **Signs are kept.** -/
theorem C124_not_negative (hr : Rounds R) (np : Numpy) {C : Calcs N} (hC : AllHours C) {f : Results N → ℚ}
    (h : ∀ r ∈ C.results, 0 ≤ f r) : ∃ x, RoundedKpi.total R np C f = .ok x ∧ 0 ≤ x :=
  ⟨_, RoundedKpi.total_ok hC np f, RoundedKpi.npSum_nonneg hr np fun x hx => by
    obtain ⟨r, hr, rfl⟩ := List.mem_map.mp hx; exact h r hr⟩

theorem windyHours_sold : ∀ r ∈ windyHours.results, 0 ≤ r.grid.totalExport ∧ r.grid.totalExport ≤ r.res.generationTotal := by
  intro r hr
  simp only [windyHours, sampleCalcs, List.mem_cons, List.not_mem_nil, or_false] at hr
  rcases hr with rfl | rfl | rfl <;> constructor <;> norm_num [windyHour1, windyHour2, windyHour3]

example : ∃ x, RoundedKpi.total double oneByOne windyHours (fun r => r.grid.totalExport) = .ok x ∧ 0 ≤ x :=
  C124_not_negative double_rounds oneByOne (C := windyHours) rfl fun r hr => (windyHours_sold r hr).1

/-! ## Self-consumption -/

theorem forall₂_self {α : Type} {p : α → α → Prop} {l : List α} (h : ∀ a ∈ l, p a a) : List.Forall₂ p l l := by
  induction l with
  | nil => exact .nil
  | cons a l ih => exact .cons (h a (by simp)) (ih fun b hb => h b (by simp [hb]))

/-- **Self-consumption is a percentage, exactly**: with rounding too it is between 0 and 100, if in no hour more is sold
than generated. -/
theorem C124_percentage (hr : Rounds R) (h1 : IsFloat R 1) (h100 : IsFloat R 100) (np : Numpy) {C : Calcs N} (h : AllHours C)
    (he : ∀ r ∈ C.results, 0 ≤ r.grid.totalExport ∧ r.grid.totalExport ≤ r.res.generationTotal) :
    ∃ x, RoundedKpi.resSelfConsumption R np C = .ok x ∧ 0 ≤ x ∧ x ≤ 100 := by
  have h0 := RoundedKpi.rounds_zero hr
  have hE : 0 ≤ RoundedKpi.npSum R np (C.results.map fun r => r.grid.totalExport) :=
    RoundedKpi.npSum_nonneg hr np fun x hx => by obtain ⟨r, hr, rfl⟩ := List.mem_map.mp hx; exact (he r hr).1
  have hEG : RoundedKpi.npSum R np (C.results.map fun r => r.grid.totalExport) ≤
      RoundedKpi.npSum R np (C.results.map fun r => r.res.generationTotal) :=
    RoundedKpi.npSum_mono hr np (List.forall₂_map_left_iff.mpr (List.forall₂_map_right_iff.mpr
      (forall₂_self fun r hr => (he r hr).2)))
  unfold RoundedKpi.resSelfConsumption RoundedKpi.sumRes RoundedKpi.sumExport
  rw [RoundedKpi.total_ok h np, RoundedKpi.total_ok h np]
  refine ⟨_, rfl, ?_⟩
  generalize RoundedKpi.npSum R np (C.results.map fun r => r.grid.totalExport) = E at hE hEG
  generalize RoundedKpi.npSum R np (C.results.map fun r => r.res.generationTotal) = G at hEG
  have key : 0 ≤ (if G > 0 then R.sub 1 (R.div E G) else 0) ∧ (if G > 0 then R.sub 1 (R.div E G) else 0) ≤ 1 := by
    split
    · rename_i hg
      have d1 : 0 ≤ R.div E G := by
        have := hr.mono _ _ (div_nonneg hE hg.le); rwa [h0] at this
      have d2 : R.div E G ≤ 1 := by
        have := hr.mono _ _ ((div_le_one hg).mpr hEG); rwa [show R.rnd 1 = 1 from h1] at this
      constructor
      · have := hr.mono 0 (1 - R.div E G) (by linarith); rwa [h0] at this
      · have := hr.mono (1 - R.div E G) 1 (by linarith); rwa [show R.rnd 1 = 1 from h1] at this
    · exact ⟨le_rfl, zero_le_one⟩
  constructor
  · have := hr.mono 0 ((if G > 0 then R.sub 1 (R.div E G) else 0) * 100) (by linarith [key.1])
    rwa [h0] at this
  · have := hr.mono ((if G > 0 then R.sub 1 (R.div E G) else 0) * 100) 100 (by linarith [key.2])
    rwa [show R.rnd 100 = 100 from h100] at this

example : ∃ x, RoundedKpi.resSelfConsumption double oneByOne windyHours = .ok x ∧ 0 ≤ x ∧ x ≤ 100 :=
  C124_percentage double_rounds (show double.rnd 1 = 1 by decide +kernel) (show double.rnd 100 = 100 by decide +kernel) oneByOne (C := windyHours) rfl windyHours_sold

theorem close_div {E E' G G' δ τ : ℚ} (hδ : δ = 1 / 10 ^ 12) (hτ : τ = 1 / 10 ^ 300) (hG : 1 / 10 ^ 100 ≤ G) (hE0 : 0 ≤ E)
    (hE : |E' - E| ≤ δ * E + τ) (hG' : |G' - G| ≤ δ * G + τ) :
    0 < G' ∧ |E' / G' - E / G| ≤ 3 / 10 ^ 12 * (E / G) + 2 / 10 ^ 200 := by
  have hGp : 0 < G := lt_of_lt_of_le (by norm_num) hG
  have hτG : τ ≤ 1 / 10 ^ 200 * G := by
    rw [hτ]
    have := mul_le_mul_of_nonneg_left hG (by norm_num : (0 : ℚ) ≤ 1 / 10 ^ 200)
    refine le_trans ?_ this
    decide +kernel
  obtain ⟨g1, g2⟩ := abs_le.mp hG'
  have hlow : (1 - 2 / 10 ^ 12) * G ≤ G' := by
    have : (1 : ℚ) / 10 ^ 200 ≤ 1 / 10 ^ 12 := by norm_num
    have := mul_le_mul_of_nonneg_right this hGp.le
    rw [hδ] at g1
    linarith
  have hG'p : 0 < G' := lt_of_lt_of_le (mul_pos (by norm_num) hGp) hlow
  refine ⟨hG'p, ?_⟩
  have e : E' / G' - E / G = ((E' - E) * G - E * (G' - G)) / (G' * G) := by
    field_simp
    ring
  rw [e, abs_div, abs_of_pos (mul_pos hG'p hGp), div_le_iff₀ (mul_pos hG'p hGp)]
  have n1 : |(E' - E) * G - E * (G' - G)| ≤ (δ * E + τ) * G + E * (δ * G + τ) := by
    refine (abs_sub _ _).trans ?_
    rw [abs_mul, abs_mul, abs_of_pos hGp, abs_of_nonneg hE0]
    exact add_le_add (mul_le_mul_of_nonneg_right hE hGp.le) (mul_le_mul_of_nonneg_left hG' hE0)
  refine n1.trans ?_
  have s : (3 / 10 ^ 12 * (E / G) + 2 / 10 ^ 200) * (G' * G) = 3 / 10 ^ 12 * E * G' + 2 / 10 ^ 200 * G * G' := by
    field_simp
  rw [s]
  have a1 : 3 / 10 ^ 12 * E * ((1 - 2 / 10 ^ 12) * G) ≤ 3 / 10 ^ 12 * E * G' :=
    mul_le_mul_of_nonneg_left hlow (by positivity)
  have a2 : 2 / 10 ^ 200 * G * ((1 - 2 / 10 ^ 12) * G) ≤ 2 / 10 ^ 200 * G * G' :=
    mul_le_mul_of_nonneg_left hlow (by positivity)
  have b1 : τ * G ≤ 1 / 10 ^ 200 * G * G := mul_le_mul_of_nonneg_right hτG hGp.le
  have b2 : E * τ ≤ E * (1 / 10 ^ 200 * G) := mul_le_mul_of_nonneg_left hτG hE0
  have hEG : 0 ≤ E * G := mul_nonneg hE0 hGp.le
  have hGG : 0 ≤ G * G := mul_nonneg hGp.le hGp.le
  have c1 : (1 : ℚ) / 10 ^ 200 * (E * G) ≤ 1 / 10 ^ 13 * (E * G) := mul_le_mul_of_nonneg_right (by norm_num) hEG
  have c2 : (0 : ℚ) ≤ (2 / 10 ^ 200 * (1 - 2 / 10 ^ 12) - 1 / 10 ^ 200) * (G * G) := mul_nonneg (by norm_num) hGG
  have c3 : (0 : ℚ) ≤ (3 / 10 ^ 12 * (1 - 2 / 10 ^ 12) - 2 / 10 ^ 12 - 1 / 10 ^ 13) * (E * G) :=
    mul_nonneg (by norm_num) hEG
  rw [hδ]
  linarith

theorem double_err (x : ℚ) : |double.rnd x - x| ≤ 1 / 10 ^ 15 * |x| + 1 / 10 ^ 300 := by
  have h := double_accurate x
  have h1 : (1 : ℚ) / 2 ^ 53 * |x| ≤ 1 / 10 ^ 15 * |x| := mul_le_mul_of_nonneg_right (by norm_num) (abs_nonneg x)
  have h2 : (1 : ℚ) / 2 ^ 1075 ≤ 1 / 10 ^ 300 := by decide +kernel
  linarith

/-- **Self-consumption is right to a thousand-millionth of a percentage point**, over at most a year with any generation
worth the name, if in no hour more is sold than generated. -/
theorem C124_self_consumption (np : Numpy) {C : Calcs N} (h : AllHours C) (hn : C.timesteps ≤ 8784)
    (he : ∀ r ∈ C.results, 0 ≤ r.grid.totalExport ∧ r.grid.totalExport ≤ r.res.generationTotal)
    (hg : 1 / 10 ^ 100 ≤ generated C.results) :
    ∃ x, RoundedKpi.resSelfConsumption double np C = .ok x ∧
      |x - 100 * (1 - exported C.results / generated C.results)| ≤ 1 / 10 ^ 9 := by
  obtain ⟨G', g1, g2⟩ := C124_year np h hn fun r => r.res.generationTotal
  obtain ⟨E', e1, e2⟩ := C124_year np h hn fun r => r.grid.totalExport
  obtain ⟨E'', G'', k1, k2, k3⟩ := C124_order_kept double_rounds np h h (f := fun r => r.grid.totalExport)
    (g := fun r => r.res.generationTotal) (forall₂_self fun r hr => (he r hr).2)
  obtain ⟨E3, m1, m2⟩ := C124_not_negative double_rounds np h (f := fun r => r.grid.totalExport) fun r hr => (he r hr).1
  rw [e1] at k1 m1; cases k1; cases m1
  rw [g1] at k2; cases k2
  rw [amounts_eq fun r hr => (he r hr).1] at e2
  rw [amounts_eq fun r hr => (he r hr).1.trans (he r hr).2] at g2
  have hE0 : 0 ≤ exported C.results := List.sum_nonneg fun x hx => by
    obtain ⟨r, hr, rfl⟩ := List.mem_map.mp hx; exact (he r hr).1
  have hEG : exported C.results ≤ generated C.results := sum_le_sum_map fun r hr => (he r hr).2
  have hGp : 0 < generated C.results := lt_of_lt_of_le (by norm_num) hg
  obtain ⟨c1, c2⟩ := close_div rfl rfl hg hE0 e2 g2
  have hq : exported C.results / generated C.results ≤ 1 := (div_le_one hGp).mpr hEG
  have hq0 : 0 ≤ exported C.results / generated C.results := div_nonneg hE0 hGp.le
  have hd : E' / G' ≤ 1 := (div_le_one c1).mpr k3
  have hd0 : 0 ≤ E' / G' := div_nonneg m2 c1.le
  unfold RoundedKpi.resSelfConsumption RoundedKpi.sumRes RoundedKpi.sumExport
  rw [e1, g1]
  refine ⟨_, rfl, ?_⟩
  rw [if_pos (show G' > 0 from c1)]
  change |double.rnd (double.rnd (1 - double.rnd (E' / G')) * 100) - 100 * (1 - _)| ≤ _
  generalize exported C.results / generated C.results = q at *
  generalize E' / G' = d at *
  have t300 : (1 : ℚ) / 10 ^ 300 ≤ 1 / 10 ^ 15 := by decide +kernel
  have t200 : (2 : ℚ) / 10 ^ 200 ≤ 1 / 10 ^ 15 := by norm_num
  have r1 := double_err d
  rw [abs_of_nonneg hd0] at r1
  have r2 := double_err (1 - double.rnd d)
  have r3 := double_err (double.rnd (1 - double.rnd d) * 100)
  obtain ⟨a1, a2⟩ := abs_le.mp r1
  have b : |1 - double.rnd d| ≤ 2 := abs_le.mpr ⟨by linarith, by linarith⟩
  obtain ⟨b1, b2⟩ := abs_le.mp r2
  obtain ⟨b3, b4⟩ := abs_le.mp b
  have c : |double.rnd (1 - double.rnd d) * 100| ≤ 300 := abs_le.mpr ⟨by linarith, by linarith⟩
  obtain ⟨d1, d2⟩ := abs_le.mp r3
  obtain ⟨f1, f2⟩ := abs_le.mp c2
  refine abs_le.mpr ⟨?_, ?_⟩ <;> linarith

example : ∃ x, RoundedKpi.resSelfConsumption double oneByOne windyHours = .ok x ∧
    |x - 100 * (1 - exported windyHours.results / generated windyHours.results)| ≤ 1 / 10 ^ 9 :=
  C124_self_consumption oneByOne (C := windyHours) rfl (by decide) windyHours_sold (by decide +kernel)

/-- One hour: 0.1 kWh of wind, no electric demand, 30 kWh of heat demand; the heat pump takes the wind, the rest is sold. -/
def Spec.breezeRun : RunIn Unit :=
  { sampleRun with
    windUser := [double.rnd (1 / 10)], windData := [0], pv := [0], elecDemand := [0], heatDemand := [30],
    importPrice := [100], perf := [⟨3, 12⟩], orderAbove := [4, 13], orderBelow := [4, 13] }

/-- **Self-consumption above 100 %.** In exact arithmetic a run shows at most 100 % (C44). With Python's floats the heat pump
can draw a little more than the wind gives, the export is then negative (C108), and the share shown is 100.00000000000003 %. -/
theorem C124_over_hundred : ∃ rs,
    Rounded.runFrom double breezeRun [Rounded.splitHour double (double.rnd (1 / 10)) 0] 0 1 () 9 = .ok rs ∧
    ∃ x, RoundedKpi.resSelfConsumption double oneByOne (sampleCalcs rs 1) = .ok x ∧ 100 < x := by
  obtain ⟨rs, h, hc⟩ := exists_of_checks
    (x := Rounded.runFrom double breezeRun [Rounded.splitHour double (double.rnd (1 / 10)) 0] 0 1 () 9)
    (p := fun rs => checks (RoundedKpi.resSelfConsumption double oneByOne (sampleCalcs rs 1)) (fun x => decide (100 < x)) = true)
    (by decide +kernel)
  exact ⟨rs, h, exists_of_checks hc⟩

/-- **But never far above**: over any run with floats, where `B` bounds the energies of an hour and `K` the coefficients of
performance, self-consumption is at most 100 and a thousand-millionth, and a millionth of `n * K * B` over the generation. -/
theorem C124_run_at_most (np : Numpy) {S : RunIn N} (H : RunOk S) (ho : TidyOrders S) {B K : ℚ} (Z : SizedRun double S B)
    (hB : IsFloat double B) (hcap : IsFloat double S.es.capacity) {first n : ℕ} {C : Calcs N}
    (h : Rounded.runTimesteps double S first n = .ok C.results) (hC : AllHours C) (hn : C.timesteps ≤ 8784)
    (hK : ∀ p ∈ S.perf, p.cop ≤ K) {G : ℚ} (hG : RoundedKpi.sumRes double np C = .ok G) (hG0 : 0 < G) :
    ∃ x, RoundedKpi.resSelfConsumption double np C = .ok x ∧
      x ≤ 100 + 1 / 10 ^ 9 + C.timesteps * K * B / G / 10 ^ 6 := by
  have hB1 := Z.one_le
  have hK : ∀ r ∈ C.results, r.hp.cop ≤ K := fun r hr => by
    obtain ⟨p, hp, e⟩ := (double_run H ho Z hB hcap h hr).2.2.2.2.1
    rw [e]
    exact hK p hp
  have hlen : C.results.length = C.timesteps := hC
  have hne : C.results ≠ [] := by
    intro e
    have : RoundedKpi.sumRes double np C = .ok 0 := by
      unfold RoundedKpi.sumRes
      rw [RoundedKpi.total_ok hC, e]
      rfl
    rw [hG] at this
    cases this
    exact lt_irrefl _ hG0
  have hn1 : (1 : ℚ) ≤ C.timesteps := by
    rw [← hlen]
    exact_mod_cast List.length_pos_iff.mpr hne
  have hK1 : 1 ≤ K := by
    obtain ⟨r, hr⟩ := List.exists_mem_of_ne_nil _ hne
    exact ((double_run H ho Z hB hcap h hr).2.2.2.1).trans (hK r hr)
  have hKB : 0 ≤ K * B := by positivity
  have lo := RoundedKpi.npSum_mono double_rounds np (xs := C.results.map fun _ => -(K * B / 10 ^ 9))
    (ys := C.results.map fun r => r.grid.totalExport)
    (List.forall₂_map_left_iff.mpr (List.forall₂_map_right_iff.mpr (forall₂_self fun r hr => by
      have h1 := (C109_run_flows H ho Z hB hcap h r hr).grid.2.2.2.2
      have h2 : r.hp.cop * B ≤ K * B := mul_le_mul_of_nonneg_right (hK r hr) (by linarith)
      linarith)))
  have er := RoundedKpi.npSum_year np (xs := C.results.map fun _ => -(K * B / 10 ^ 9)) (by
    rw [List.length_map, hlen]; exact hn)
  rw [List.map_map] at er
  have c1 : (C.results.map fun _ => -(K * B / 10 ^ 9)).sum = -(C.timesteps * K * B / 10 ^ 9) := by
    rw [List.map_const', List.sum_replicate, hlen, nsmul_eq_mul]
    ring
  have c2 : (C.results.map ((fun x : ℚ => |x|) ∘ fun _ => -(K * B / 10 ^ 9))).sum = C.timesteps * K * B / 10 ^ 9 := by
    have : ((fun x : ℚ => |x|) ∘ fun _ : Results N => -(K * B / 10 ^ 9)) = fun _ => K * B / 10 ^ 9 := by
      funext r
      show |-(K * B / 10 ^ 9)| = _
      rw [abs_neg, abs_of_nonneg (by positivity)]
    rw [this, List.map_const', List.sum_replicate, hlen, nsmul_eq_mul]
    ring
  rw [c1, c2] at er
  have hM : 1 ≤ C.timesteps * K * B := by
    have := mul_le_mul hn1 hK1 zero_le_one (by linarith)
    have := mul_le_mul this hB1 zero_le_one (by positivity)
    linarith
  have e0 : RoundedKpi.sumExport double np C = .ok (RoundedKpi.npSum double np (C.results.map fun r => r.grid.totalExport)) :=
    RoundedKpi.total_ok hC np _
  unfold RoundedKpi.resSelfConsumption
  rw [hG, e0]
  refine ⟨_, rfl, ?_⟩
  rw [if_pos (show G > 0 from hG0)]
  change double.rnd (double.rnd (1 - double.rnd (_ / G)) * 100) ≤ _
  generalize RoundedKpi.npSum double np (C.results.map fun r => r.grid.totalExport) = E at *
  generalize RoundedKpi.npSum double np (C.results.map fun _ => -(K * B / 10 ^ 9)) = E0 at *
  generalize (C.timesteps : ℚ) * K * B = M at *
  have t300 : (1 : ℚ) / 10 ^ 300 ≤ 1 / 10 ^ 15 := by decide +kernel
  have t0 : (0 : ℚ) ≤ 1 / 10 ^ 300 := by positivity
  obtain ⟨er1, -⟩ := abs_le.mp er
  have hE : -(2 * M / 10 ^ 9) ≤ E := by linarith
  have hq : -(2 * (M / G) / 10 ^ 9) ≤ E / G := by
    rw [le_div_iff₀ hG0]
    refine le_trans (le_of_eq ?_) hE
    field_simp
  have hT : 0 ≤ M / G := div_nonneg (by linarith) hG0.le
  generalize M / G = T at *
  have d1 := double_rounds.mono _ _ hq
  have d2 := double_err (-(2 * T / 10 ^ 9))
  rw [abs_neg, abs_of_nonneg (by positivity : 0 ≤ 2 * T / 10 ^ 9)] at d2
  obtain ⟨d3, -⟩ := abs_le.mp d2
  generalize double.rnd (E / G) = d at *
  generalize double.rnd (-(2 * T / 10 ^ 9)) = d' at *
  have u1 := double_rounds.mono (1 - d) (1 + 3 * T / 10 ^ 9 + 1 / 10 ^ 15) (by linarith)
  have u2 := double_err (1 + 3 * T / 10 ^ 9 + 1 / 10 ^ 15)
  rw [abs_of_nonneg (by positivity : 0 ≤ 1 + 3 * T / 10 ^ 9 + 1 / 10 ^ 15)] at u2
  obtain ⟨-, u3⟩ := abs_le.mp u2
  generalize double.rnd (1 - d) = e at *
  generalize double.rnd (1 + 3 * T / 10 ^ 9 + 1 / 10 ^ 15) = e' at *
  have v1 := double_rounds.mono (e * 100) (100 + 400 * T / 10 ^ 9 + 1 / 10 ^ 12) (by linarith)
  have v2 := double_err (100 + 400 * T / 10 ^ 9 + 1 / 10 ^ 12)
  rw [abs_of_nonneg (by positivity : 0 ≤ 100 + 400 * T / 10 ^ 9 + 1 / 10 ^ 12)] at v2
  obtain ⟨-, v3⟩ := abs_le.mp v2
  linarith

/-- The sample year in floats: never more than 100.003 %. -/
example : ∃ rs, Rounded.runTimesteps double sampleRun 0 8760 = .ok rs ∧
    ∃ x, RoundedKpi.resSelfConsumption double oneByOne (sampleCalcs rs 8760) = .ok x ∧ x ≤ 100003 / 1000 := by
  have h64 : IsFloat double 64 := by unfold IsFloat; decide +kernel
  have h10 : IsFloat double sampleRun.es.capacity := by unfold IsFloat; decide +kernel
  obtain ⟨rs, h, hl⟩ := C109_runs double sampleRun_fullYear
    ⟨show ∀ n ∈ sampleRun.orderAbove, 1 ≤ n ∧ n ≤ 13 by decide, show ∀ n ∈ sampleRun.orderBelow, 1 ≤ n ∧ n ≤ 15 by decide⟩
    (fun _ _ _ => ⟨_, rfl⟩) (fun _ _ _ _ _ => ⟨_, rfl⟩) (first := 0) (n := 8760) le_rfl
  have g5 : ∀ r ∈ rs, r.res.generationTotal = 5 := fun r hr => by
    have hg := (double_run sampleRun_ok sampleRun_tidy sampleRun_sized h64 h10 h hr).2.2.2.2.2
    unfold Rounded.generation Rounded.wind sampleRun at hg
    dsimp only at hg
    rw [List.zipWith_replicate', List.zipWith_replicate'] at hg
    exact (List.eq_of_mem_replicate hg).trans (by decide +kernel)
  have g1 : ∀ f : ℚ → ℚ, (rs.map fun r => f r.res.generationTotal).sum = 8760 * f 5 := fun f => by
    rw [List.map_congr_left fun r hr => by rw [g5 r hr], List.map_const', List.sum_replicate, hl, nsmul_eq_mul]
    norm_num
  have hG := C124_whole oneByOne (C := sampleCalcs rs 8760) hl (f := fun r => r.res.generationTotal) (l := 0) (by norm_num)
    (fun r hr => ⟨5, by rw [show r.res.generationTotal = 5 from g5 r hr]; norm_num⟩)
    (by rw [show amounts (sampleCalcs rs 8760) (fun r => r.res.generationTotal) = 8760 * |5| from g1 fun x => |x|]; norm_num)
  rw [show exactly (sampleCalcs rs 8760) (fun r => r.res.generationTotal) = 8760 * 5 from g1 fun x => x] at hG
  obtain ⟨x, hx, hx1⟩ := C124_run_at_most oneByOne sampleRun_ok sampleRun_tidy (K := 3) sampleRun_sized h64 h10
    (C := sampleCalcs rs 8760) h hl (show 8760 ≤ 8784 by norm_num)
    (fun p hp => by rw [List.eq_of_mem_replicate hp]) hG (by norm_num)
  refine ⟨rs, h, x, hx, hx1.trans ?_⟩
  rw [show ((sampleCalcs rs 8760).timesteps : ℚ) = 8760 by show ((8760 : ℕ) : ℚ) = 8760; norm_num]
  norm_num

/-! ## Use of the heat pump -/

/-- **The use of the heat pump is a percentage, exactly**, if in no hour it makes more heat than is asked for. -/
theorem C124_utilisation (hr : Rounds R) (h1 : IsFloat R 1) (h100 : IsFloat R 100) (np : Numpy) {C : Calcs N}
    (h : AllHours C) (he : ∀ r ∈ C.results, 0 ≤ r.hp.heatTotalOutput ∧ r.hp.heatTotalOutput ≤ r.heatDemand.heatDemand) :
    ∃ x, RoundedKpi.hpUtilisation R np C = .ok x ∧ ∀ y, x = some y → 0 ≤ y ∧ y ≤ 100 := by
  have h0 := RoundedKpi.rounds_zero hr
  have up : ∀ x, 0 ≤ x → 0 ≤ R.rnd x := fun x hx => by have := hr.mono 0 x hx; rwa [h0] at this
  have hE : 0 ≤ RoundedKpi.npSum R np (C.results.map fun r => r.hp.heatTotalOutput) :=
    RoundedKpi.npSum_nonneg hr np fun x hx => by obtain ⟨r, hr, rfl⟩ := List.mem_map.mp hx; exact (he r hr).1
  have hEG : RoundedKpi.npSum R np (C.results.map fun r => r.hp.heatTotalOutput) ≤
      RoundedKpi.npSum R np (C.results.map fun r => r.heatDemand.heatDemand) :=
    RoundedKpi.npSum_mono hr np (List.forall₂_map_left_iff.mpr (List.forall₂_map_right_iff.mpr
      (forall₂_self fun r hr => (he r hr).2)))
  unfold RoundedKpi.hpUtilisation RoundedKpi.sumHpOutput RoundedKpi.sumHd
  rw [RoundedKpi.total_ok h np, RoundedKpi.total_ok h np]
  refine ⟨_, rfl, fun y hy => ?_⟩
  generalize RoundedKpi.npSum R np (C.results.map fun r => r.hp.heatTotalOutput) = E at hE hEG hy
  generalize RoundedKpi.npSum R np (C.results.map fun r => r.heatDemand.heatDemand) = G at hEG hy
  unfold RoundedKpi.npDiv at hy
  split at hy
  · cases hy
  · rename_i hG
    cases hy
    have hGp : 0 < G := lt_of_le_of_ne (hE.trans hEG) (Ne.symm hG)
    have d0 : 0 ≤ R.div E G := up _ (div_nonneg hE hGp.le)
    have d1 : R.div E G ≤ 1 := by
      have := hr.mono _ _ ((div_le_one hGp).mpr hEG); rwa [show R.rnd 1 = 1 from h1] at this
    have p0 : 0 ≤ R.round (R.div E G) 2 := up _ (pyRound_nonneg d0 2)
    have p1 : R.round (R.div E G) 2 ≤ 1 := by
      have := hr.mono _ _ (pyRound_mono d1 2)
      rwa [show pyRound 1 2 = 1 by decide +kernel, show R.rnd 1 = 1 from h1] at this
    refine ⟨up _ (mul_nonneg p0 (by norm_num)), ?_⟩
    have := hr.mono (R.round (R.div E G) 2 * 100) 100 (by linarith)
    rwa [show R.rnd 100 = 100 from h100] at this

/-- 58 of 100 kWh of heat from the heat pump. -/
def Spec.mostlyPump : Calcs Unit :=
  sampleCalcs [{ hp := { heatTotalOutput := 58 }, heatDemand := { heatDemand := 100 } }] 1

example : ∃ x, RoundedKpi.hpUtilisation double oneByOne mostlyPump = .ok x ∧ ∀ y, x = some y → 0 ≤ y ∧ y ≤ 100 :=
  C124_utilisation double_rounds (show double.rnd 1 = 1 by decide +kernel) (show double.rnd 100 = 100 by decide +kernel) oneByOne (C := mostlyPump) rfl (by
    intro r hr
    simp only [mostlyPump, sampleCalcs, List.mem_cons, List.not_mem_nil, or_false] at hr
    rcases hr with rfl; constructor <;> norm_num)

/-- **A whole percentage is not always shown as one**: 58 kWh out of 100 kWh show as 57.99999999999999 %, because the
ratio is rounded before it is multiplied by 100. -/
theorem C124_utilisation_not_whole : Kpi.hpUtilisation mostlyPump = .ok (some 58) ∧
    ∃ x, RoundedKpi.hpUtilisation double oneByOne mostlyPump = .ok (some x) ∧ x < 58 ∧ 58 - 1 / 10 ^ 13 < x :=
  ⟨by decide +kernel, double.mul (double.round (double.div 58 100) 2) 100, by decide +kernel, by decide +kernel, by decide +kernel⟩

/-! ## Seasonal performance -/

/-- **The seasonal coefficient of performance is right to one part in a hundred thousand million**, over at most a year in
which the heat pump uses any electricity worth the name. -/
theorem C124_scop (np : Numpy) {C : Calcs N} (h : AllHours C) (hn : C.timesteps ≤ 8784)
    (he : ∀ r ∈ C.results, 0 ≤ r.hp.heatTotalOutput ∧ 0 ≤ r.hp.elecTotalUsage)
    (hg : 1 / 10 ^ 100 ≤ exactly C fun r => r.hp.elecTotalUsage) :
    ∃ x, RoundedKpi.calcScop double np C = .ok (some x) ∧
      |x - (exactly C fun r => r.hp.heatTotalOutput) / exactly C fun r => r.hp.elecTotalUsage| ≤
        1 / 10 ^ 11 * ((exactly C fun r => r.hp.heatTotalOutput) / exactly C fun r => r.hp.elecTotalUsage) + 1 / 10 ^ 199 := by
  obtain ⟨G', g1, g2⟩ := C124_year np h hn fun r => r.hp.elecTotalUsage
  obtain ⟨E', e1, e2⟩ := C124_year np h hn fun r => r.hp.heatTotalOutput
  rw [amounts_eq fun r hr => (he r hr).1] at e2
  rw [amounts_eq fun r hr => (he r hr).2] at g2
  have hE0 : 0 ≤ exactly C fun r => r.hp.heatTotalOutput := List.sum_nonneg fun x hx => by
    obtain ⟨r, hr, rfl⟩ := List.mem_map.mp hx; exact (he r hr).1
  obtain ⟨c1, c2⟩ := close_div rfl rfl hg hE0 e2 g2
  have hGp : 0 < exactly C fun r => r.hp.elecTotalUsage := lt_of_lt_of_le (by norm_num) hg
  have hq0 := div_nonneg hE0 hGp.le
  unfold RoundedKpi.calcScop RoundedKpi.sumHpOutput RoundedKpi.sumHpUsage
  rw [e1, g1]
  refine ⟨double.rnd (E' / G'), by show Except.ok (RoundedKpi.npDiv double E' G') = _; unfold RoundedKpi.npDiv; rw [if_neg (ne_of_gt c1)]; rfl, ?_⟩
  generalize (exactly C fun r => r.hp.heatTotalOutput) / (exactly C fun r => r.hp.elecTotalUsage) = q at *
  generalize E' / G' = d at *
  have r1 := double_err d
  have t300 : (1 : ℚ) / 10 ^ 300 ≤ 1 / 10 ^ 200 := by decide +kernel
  have hd : |d| ≤ 2 * q + 2 / 10 ^ 200 := by
    obtain ⟨f1, f2⟩ := abs_le.mp c2
    exact abs_le.mpr ⟨by linarith, by linarith⟩
  obtain ⟨f1, f2⟩ := abs_le.mp c2
  obtain ⟨a1, a2⟩ := abs_le.mp r1
  have t : (4 : ℚ) / 10 ^ 200 ≤ 1 / 10 ^ 199 := by norm_num
  refine abs_le.mpr ⟨?_, ?_⟩ <;> linarith

example : ∃ x, RoundedKpi.calcScop double oneByOne windyHours = .ok (some x) ∧
    |x - (exactly windyHours fun r => r.hp.heatTotalOutput) / exactly windyHours fun r => r.hp.elecTotalUsage| ≤
      1 / 10 ^ 11 * ((exactly windyHours fun r => r.hp.heatTotalOutput) / exactly windyHours fun r => r.hp.elecTotalUsage) +
        1 / 10 ^ 199 :=
  C124_scop oneByOne (C := windyHours) rfl (by decide) (by
    intro r hr
    simp only [windyHours, sampleCalcs, List.mem_cons, List.not_mem_nil, or_false] at hr
    rcases hr with rfl | rfl | rfl <;> constructor <;> norm_num [windyHour1, windyHour2, windyHour3]) (by decide +kernel)

/-! ## Operating cost -/

theorem rounded_sum (xs : List ℚ) : |(xs.map double.rnd).sum - xs.sum| ≤ 1 / 10 ^ 15 * (xs.map fun x => |x|).sum + xs.length / 10 ^ 300 ∧
    ((xs.map double.rnd).map fun x => |x|).sum ≤
      (1 + 1 / 10 ^ 15) * (xs.map fun x => |x|).sum + xs.length / 10 ^ 300 := by
  induction xs with
  | nil => simp
  | cons x xs ih =>
    have h := double_err x
    have hx : |double.rnd x| ≤ |x| + (1 / 10 ^ 15 * |x| + 1 / 10 ^ 300) := by
      have := abs_sub_abs_le_abs_sub (double.rnd x) x
      linarith
    simp only [List.map_cons, List.sum_cons, List.length_cons]
    push_cast
    rw [add_div]
    generalize (1 : ℚ) / 10 ^ 300 = τ at *
    generalize (xs.length : ℚ) / 10 ^ 300 = L at *
    refine ⟨?_, by linarith [ih.2]⟩
    rw [add_sub_add_comm]
    refine (abs_add_le _ _).trans ?_
    linarith [ih.1]

/-- The amounts of money that the operating cost is made of, pounds. -/
def Spec.money (C : Calcs N) : ℚ :=
  amounts C (fun r => r.grid.cashflow) + if C.electric then 0 else amounts C (fun r => r.aux.cost) / 1000

/-- **The operating cost is right to two parts in a million million** of the amounts of money that it is made of. -/
theorem C124_operating_cost (np : Numpy) {C : Calcs N} (h : AllHours C) (hn : C.timesteps ≤ 8784) :
    ∃ x, RoundedKpi.operatingCost double np C = .ok x ∧
      |x - runningCost C.electric C.results / 1000| ≤ 2 / 10 ^ 12 * (money C / 1000) + 1 / 10 ^ 290 := by
  have hlen : C.results.length ≤ 8784 := by rw [show C.results.length = C.timesteps from h]; exact hn
  have hL : (C.results.length : ℚ) / 10 ^ 300 ≤ 1 / 10 ^ 295 := by
    have h1 : (C.results.length : ℚ) ≤ 8784 := by exact_mod_cast hlen
    have h2 : (C.results.length : ℚ) / 10 ^ 300 ≤ 8784 / 10 ^ 300 := div_le_div_of_nonneg_right h1 (by positivity)
    exact h2.trans (by decide +kernel)
  have a := RoundedKpi.npSum_year np (xs := C.results.map fun r => -r.grid.cashflow) (by rwa [List.length_map])
  have a' : ((C.results.map fun r => -r.grid.cashflow).map fun x => |x|).sum = amounts C fun r => r.grid.cashflow := by
    unfold amounts
    rw [List.map_map]
    congr 1
    exact List.map_congr_left fun r _ => abs_neg _
  rw [a'] at a
  have b := RoundedKpi.npSum_year np (xs := (C.results.map fun r => r.aux.cost / 1000).map double.rnd) (by
    rwa [List.length_map, List.length_map])
  have b' := rounded_sum (C.results.map fun r => r.aux.cost / 1000)
  have b2 : ((C.results.map fun r => r.aux.cost / 1000).map fun x => |x|).sum = amounts C (fun r => r.aux.cost) / 1000 := by
    unfold amounts
    rw [List.map_map, div_eq_mul_inv, ← List.sum_map_mul_right]
    congr 1
    refine List.map_congr_left fun r _ => ?_
    show |r.aux.cost / 1000| = _
    rw [abs_div, div_eq_mul_inv]
    norm_num
  have b3 : (C.results.map fun r => r.aux.cost / 1000).sum = (C.results.map fun r => r.aux.cost).sum / 1000 := by
    rw [div_eq_mul_inv, ← List.sum_map_mul_right]
    simp only [div_eq_mul_inv]
  rw [b2, b3, List.length_map] at b'
  have nA := amounts_nonneg C fun r => r.grid.cashflow
  have nB : 0 ≤ amounts C (fun r => r.aux.cost) / 1000 := div_nonneg (amounts_nonneg _ _) (by norm_num)
  have e : RoundedKpi.operatingCost double np C = .ok (double.div (if C.electric then
      RoundedKpi.npSum double np (C.results.map fun r => -r.grid.cashflow) else
      double.add (RoundedKpi.npSum double np (C.results.map fun r => -r.grid.cashflow))
        (RoundedKpi.npSum double np ((C.results.map fun r => r.aux.cost / 1000).map double.rnd))) 1000) := by
    unfold RoundedKpi.operatingCost
    rw [series_ok h, series_ok h]
    show Except.ok (double.div (if C.electric then
      RoundedKpi.npSum double np ((C.results.map fun r => r.grid.cashflow).map (- ·)) else
      double.add (RoundedKpi.npSum double np ((C.results.map fun r => r.grid.cashflow).map (- ·)))
        (RoundedKpi.npSum double np (C.results.map fun r => double.rnd (r.aux.cost / 1000)))) 1000) = _
    rw [List.map_map, List.map_map]
    rfl
  refine ⟨_, e, ?_⟩
  have sA : |(C.results.map fun r => -r.grid.cashflow).sum| ≤ amounts C fun r => r.grid.cashflow := by
    rw [← a']; exact RoundedKpi.abs_sum_le _
  have sB : |(C.results.map fun r => r.aux.cost).sum / 1000| ≤ amounts C (fun r => r.aux.cost) / 1000 := by
    rw [← b2, ← b3]; exact RoundedKpi.abs_sum_le _
  unfold runningCost money
  generalize RoundedKpi.npSum double np (C.results.map fun r => -r.grid.cashflow) = A' at *
  generalize RoundedKpi.npSum double np ((C.results.map fun r => r.aux.cost / 1000).map double.rnd) = B' at *
  generalize (C.results.map fun r => -r.grid.cashflow).sum = A at *
  generalize (C.results.map fun r => r.aux.cost).sum / 1000 = B at *
  generalize (((C.results.map fun r => r.aux.cost / 1000).map double.rnd).map fun x => |x|).sum = BR at *
  generalize ((C.results.map fun r => r.aux.cost / 1000).map double.rnd).sum = B1 at *
  generalize (amounts C fun r => r.grid.cashflow) = MA at *
  generalize (amounts C fun r => r.aux.cost) / 1000 = MB at *
  generalize (C.results.length : ℚ) / 10 ^ 300 = L at *
  have t1 : (1 : ℚ) / 10 ^ 300 ≤ 1 / 10 ^ 295 := by decide +kernel
  have t2 : (1 : ℚ) / 10 ^ 290 = 100000 * (1 / 10 ^ 295) := by decide +kernel
  have t0 : (0 : ℚ) < 1 / 10 ^ 295 := by positivity
  obtain ⟨b1, b2⟩ := b'
  rw [t2]
  have derr : ∀ x, |double.rnd x - x| ≤ 1 / 10 ^ 15 * |x| + 1 / 10 ^ 300 := double_err
  generalize (1 : ℚ) / 10 ^ 300 = σ at *
  generalize (1 : ℚ) / 10 ^ 295 = τ at *
  obtain ⟨p1, p2⟩ := abs_le.mp a
  obtain ⟨q1, q2⟩ := abs_le.mp b
  obtain ⟨r1, r2⟩ := abs_le.mp b1
  obtain ⟨s1, s2⟩ := abs_le.mp sA
  obtain ⟨v1, v2⟩ := abs_le.mp sB
  have fin : ∀ X Y M : ℚ, |X - Y| ≤ 3 / 2 / 10 ^ 12 * M + 100 * τ → |Y| ≤ M → 0 ≤ M →
      |double.div X 1000 - Y / 1000| ≤ 2 / 10 ^ 12 * (M / 1000) + 100000 * τ := by
    intro X Y M h1 h2 h3
    have h4 := derr (X / 1000)
    have h5 : |X / 1000| ≤ (2 * M + 100 * τ) / 1000 := by
      rw [abs_div, show |(1000 : ℚ)| = 1000 by norm_num]
      refine div_le_div_of_nonneg_right ?_ (by norm_num)
      have := abs_sub_abs_le_abs_sub X Y
      linarith
    change |double.rnd (X / 1000) - Y / 1000| ≤ _
    obtain ⟨k1, k2⟩ := abs_le.mp h4
    obtain ⟨k3, k4⟩ := abs_le.mp h1
    refine abs_le.mpr ⟨?_, ?_⟩ <;> linarith
  cases C.electric with
  | true =>
    simp only [if_true, add_zero]
    exact fin _ _ _ (abs_le.mpr ⟨by linarith, by linarith⟩) sA nA
  | false =>
    simp only [Bool.false_eq_true, if_false]
    refine fin _ _ _ ?_ (abs_le.mpr ⟨by linarith, by linarith⟩) (by linarith)
    have h4 := derr (A' + B')
    have h5 : |A' + B'| ≤ 2 * (MA + MB) + 4 * τ := abs_le.mpr ⟨by linarith, by linarith⟩
    change |double.rnd (A' + B') - (A + B)| ≤ _
    obtain ⟨k1, k2⟩ := abs_le.mp h4
    refine abs_le.mpr ⟨?_, ?_⟩ <;> linarith

example : ∃ x, RoundedKpi.operatingCost double oneByOne windyHours = .ok x ∧
    |x - runningCost false windyHours.results / 1000| ≤ 2 / 10 ^ 12 * (money windyHours / 1000) + 1 / 10 ^ 290 :=
  C124_operating_cost oneByOne (C := windyHours) rfl (by decide)

/-- **The cost of electricity is right to two parts in a million million** of the amounts paid and earned. -/
theorem C124_electricity_cost (np : Numpy) {C : Calcs N} (h : AllHours C) (hn : C.timesteps ≤ 8784) :
    ∃ x, RoundedKpi.costElec double np C = .ok x ∧
      |x - exactly C (fun r => -r.grid.cashflow) / 1000| ≤
        2 / 10 ^ 12 * (amounts C (fun r => r.grid.cashflow) / 1000) + 1 / 10 ^ 290 := by
  have hlen : C.results.length ≤ 8784 := by rw [show C.results.length = C.timesteps from h]; exact hn
  have hL : (C.results.length : ℚ) / 10 ^ 300 ≤ 1 / 10 ^ 295 := by
    have h1 : (C.results.length : ℚ) ≤ 8784 := by exact_mod_cast hlen
    have h2 : (C.results.length : ℚ) / 10 ^ 300 ≤ 8784 / 10 ^ 300 := div_le_div_of_nonneg_right h1 (by positivity)
    exact h2.trans (by decide +kernel)
  have b := RoundedKpi.npSum_year np (xs := (C.results.map fun r => -r.grid.cashflow / 1000).map double.rnd) (by
    rwa [List.length_map, List.length_map])
  have b' := rounded_sum (C.results.map fun r => -r.grid.cashflow / 1000)
  have b2 : ((C.results.map fun r => -r.grid.cashflow / 1000).map fun x => |x|).sum =
      amounts C (fun r => r.grid.cashflow) / 1000 := by
    unfold amounts
    rw [List.map_map, div_eq_mul_inv, ← List.sum_map_mul_right]
    congr 1
    refine List.map_congr_left fun r _ => ?_
    show |-r.grid.cashflow / 1000| = _
    rw [abs_div, abs_neg, div_eq_mul_inv]
    norm_num
  have b3 : (C.results.map fun r => -r.grid.cashflow / 1000).sum = exactly C (fun r => -r.grid.cashflow) / 1000 := by
    unfold exactly
    rw [div_eq_mul_inv, ← List.sum_map_mul_right]
    simp only [div_eq_mul_inv]
  rw [b2, b3, List.length_map] at b'
  have nB : 0 ≤ amounts C (fun r => r.grid.cashflow) / 1000 := div_nonneg (amounts_nonneg _ _) (by norm_num)
  refine ⟨_, RoundedKpi.total_ok h np _, ?_⟩
  change |RoundedKpi.npSum double np (C.results.map fun r => double.rnd (-r.grid.cashflow / 1000)) - _| ≤ _
  rw [show (C.results.map fun r => double.rnd (-r.grid.cashflow / 1000)) =
    (C.results.map fun r => -r.grid.cashflow / 1000).map double.rnd by rw [List.map_map]; rfl]
  have t1 : (1 : ℚ) / 10 ^ 300 ≤ 1 / 10 ^ 295 := by decide +kernel
  have t2 : (1 : ℚ) / 10 ^ 290 = 100000 * (1 / 10 ^ 295) := by decide +kernel
  have t0 : (0 : ℚ) < 1 / 10 ^ 295 := by positivity
  rw [t2]
  generalize RoundedKpi.npSum double np ((C.results.map fun r => -r.grid.cashflow / 1000).map double.rnd) = B' at *
  generalize exactly C (fun r => -r.grid.cashflow) / 1000 = B at *
  generalize (((C.results.map fun r => -r.grid.cashflow / 1000).map double.rnd).map fun x => |x|).sum = BR at *
  generalize ((C.results.map fun r => -r.grid.cashflow / 1000).map double.rnd).sum = B1 at *
  generalize (amounts C fun r => r.grid.cashflow) / 1000 = MB at *
  generalize (C.results.length : ℚ) / 10 ^ 300 = L at *
  generalize (1 : ℚ) / 10 ^ 300 = σ at *
  generalize (1 : ℚ) / 10 ^ 295 = τ at *
  obtain ⟨b1, b2⟩ := b'
  obtain ⟨q1, q2⟩ := abs_le.mp b
  obtain ⟨r1, r2⟩ := abs_le.mp b1
  refine abs_le.mpr ⟨?_, ?_⟩ <;> linarith

example : ∃ x, RoundedKpi.costElec double oneByOne windyHours = .ok x ∧
    |x - exactly windyHours (fun r => -r.grid.cashflow) / 1000| ≤
      2 / 10 ^ 12 * (amounts windyHours (fun r => r.grid.cashflow) / 1000) + 1 / 10 ^ 290 :=
  C124_electricity_cost oneByOne (C := windyHours) rfl (by decide)

/-- **The cost of heat is not shown as negative**, if in no hour less is bought than goes to the electric demand, and prices
and fuel costs are not negative; and it is 0 if nothing is bought beyond the electric demand and no fuel is burnt. -/
theorem C124_heat_cost (hr : Rounds R) (np : Numpy) {C : Calcs N} (h : AllHours C)
    (hb : ∀ r ∈ C.results, r.grid.importForElecDemand ≤ r.grid.totalImport ∧ 0 ≤ r.grid.importPrice ∧ 0 ≤ r.aux.cost) :
    ∃ x, RoundedKpi.heatCost R np C = .ok x ∧ 0 ≤ x ∧
      ((∀ r ∈ C.results, r.grid.totalImport = r.grid.importForElecDemand ∧ r.aux.cost = 0) → x = 0) := by
  have h0 := RoundedKpi.rounds_zero hr
  have up : ∀ x, 0 ≤ x → 0 ≤ R.rnd x := fun x hx => by have := hr.mono 0 x hx; rwa [h0] at this
  have zero : ∀ f : Results N → ℚ, (∀ r ∈ C.results, f r = 0) → RoundedKpi.npSum R np (C.results.map f) = 0 := fun f hf => by
    refine le_antisymm ?_ (RoundedKpi.npSum_nonneg hr np fun x hx => by
      obtain ⟨r, hr, rfl⟩ := List.mem_map.mp hx; exact (hf r hr).ge)
    have h1 := RoundedKpi.adding_mono hr (xs := C.results.map f) (ys := []) (fun i => by
      rw [List.getElem?_map, List.getElem?_nil]
      cases h2 : C.results[i]? with
      | none => exact le_rfl
      | some r => exact (hf r (List.mem_of_getElem? h2)).le) (np.order (C.results.map f).length)
    have h2 : ∀ a : RoundedKpi.Adding, a.sum R [] = 0 := fun a => by
      induction a with
      | one i => rfl
      | both a b iha ihb => rw [RoundedKpi.Adding.sum, iha, ihb]; show R.rnd (0 + 0) = 0; rw [add_zero, h0]
    rw [h2] at h1
    unfold RoundedKpi.npSum
    split
    · exact le_rfl
    · exact h1
  have c1 : ∀ r ∈ C.results, 0 ≤ R.div (R.mul (R.sub r.grid.totalImport r.grid.importForElecDemand) r.grid.importPrice) 1000 :=
    fun r hr => up _ (div_nonneg (up _ (mul_nonneg (up _ (by linarith [(hb r hr).1])) (hb r hr).2.1)) (by norm_num))
  have c2 : ∀ r ∈ C.results, 0 ≤ R.div r.aux.cost 1000 := fun r hr => up _ (div_nonneg (hb r hr).2.2 (by norm_num))
  have z1 : ∀ r : Results N, r.grid.totalImport = r.grid.importForElecDemand →
      R.div (R.mul (R.sub r.grid.totalImport r.grid.importForElecDemand) r.grid.importPrice) 1000 = 0 := fun r e => by
    show R.rnd (R.rnd (R.rnd (r.grid.totalImport - r.grid.importForElecDemand) * r.grid.importPrice) / 1000) = 0
    rw [e, sub_self, h0, zero_mul, h0, zero_div, h0]
  have z2 : ∀ r : Results N, r.aux.cost = 0 → R.div r.aux.cost 1000 = 0 := fun r e => by
    show R.rnd (r.aux.cost / 1000) = 0
    rw [e, zero_div, h0]
  unfold RoundedKpi.heatCost
  split
  · refine ⟨_, RoundedKpi.total_ok h np _, RoundedKpi.npSum_nonneg hr np fun x hx => ?_, fun hz => zero _ fun r hr => ?_⟩
    · obtain ⟨r, hr, rfl⟩ := List.mem_map.mp hx
      exact c1 r hr
    · exact z1 r (hz r hr).1
  · refine ⟨_, RoundedKpi.total_ok h np _, RoundedKpi.npSum_nonneg hr np fun x hx => ?_, fun hz => zero _ fun r hr => ?_⟩
    · obtain ⟨r, hr, rfl⟩ := List.mem_map.mp hx
      exact up _ (add_nonneg (c1 r hr) (c2 r hr))
    · show R.rnd (_ + _) = 0
      rw [z1 r (hz r hr).1, z2 r (hz r hr).2, add_zero, h0]

example : ∃ x, RoundedKpi.heatCost double oneByOne windyHours = .ok x ∧ 0 ≤ x := by
  obtain ⟨x, h1, h2, -⟩ := C124_heat_cost double_rounds oneByOne (C := windyHours) rfl (by
    intro r hr
    simp only [windyHours, sampleCalcs, List.mem_cons, List.not_mem_nil, or_false] at hr
    rcases hr with rfl | rfl | rfl <;> refine ⟨?_, ?_, ?_⟩ <;> norm_num [windyHour1, windyHour2, windyHour3])
  exact ⟨x, h1, h2⟩

end Verif
