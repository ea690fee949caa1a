import Verif.Model.Checks
import Verif.Lemmas.FixedOrder

/-!
# Hourly matching, monthly totals, balance checks: C08, C09, C64
-/

set_option autoImplicit false

namespace Verif
open Tools

/-! ## C08 surplus and deficit -/

/-- What the property says of one hour. -/
structure Spec.SplitOk (gen dem : ℚ) (r : Row) : Prop where
  mtch : r.mtch = gen - dem
  balance : gen - dem = r.surplus - r.deficit
  surplus_nonneg : 0 ≤ r.surplus
  deficit_nonneg : 0 ≤ r.deficit
  exclusive : r.surplus = 0 ∨ r.deficit = 0
  generation : r.resUsed + r.surplus = gen
  demand : r.resUsed + r.deficit = dem

theorem splitHour_ok (gen dem : ℚ) : Spec.SplitOk gen dem (splitHour gen dem) := by
  unfold splitHour
  dsimp only
  split_ifs with h
  · have hm : min gen dem = gen := min_eq_left (by linarith)
    constructor <;> simp only [hm] <;> first | linarith | (left; trivial)
  · have hm : min gen dem = dem := min_eq_right (by linarith)
    constructor <;> simp only [hm] <;> first | linarith | (right; trivial)

/-- A full year of generation and demand is always accepted, and gives 8760 rows. -/
theorem C08_accepts_full_year (gen dem : List ℚ) (hg : gen.length = 8760)
    (hd : dem.length = 8760) : ∃ rows, surplusDeficit gen dem = .ok rows ∧ rows.length = 8760 := by
  refine ⟨_, by rw [surplusDeficit, if_neg (by omega), if_neg (by omega)], ?_⟩
  simp [hg, hd]

/-- Every hour of an accepted year satisfies the balance. -/
theorem C08_split_exact {gen dem : List ℚ} {rows : List Row}
    (h : surplusDeficit gen dem = .ok rows) (t : ℕ) (ht : t < 8760) :
    ∃ g d r, gen[t]? = some g ∧ dem[t]? = some d ∧ rows[t]? = some r ∧ Spec.SplitOk g d r := by
  unfold surplusDeficit at h
  split_ifs at h with h1 h2
  cases h
  have hg : t < gen.length := by omega
  have hd : t < dem.length := by omega
  refine ⟨gen[t], dem[t], splitHour gen[t] dem[t], by simp, by simp, ?_, splitHour_ok _ _⟩
  simp [hg, hd]

/-- Hour 5000 of a year with generation 3 and demand 5. -/
example : ∃ rows r, surplusDeficit (List.replicate 8760 3) (List.replicate 8760 5) = .ok rows ∧
    rows[(5000 : ℕ)]? = some r ∧ Spec.SplitOk 3 5 r := by
  obtain ⟨rows, h, -⟩ := C08_accepts_full_year (List.replicate 8760 (3 : ℚ)) (List.replicate 8760 5)
    List.length_replicate List.length_replicate
  obtain ⟨g, d, r, h1, h2, h3, h4⟩ := C08_split_exact h 5000 (by norm_num)
  rw [List.getElem?_replicate_of_lt (by norm_num)] at h1 h2
  cases h1
  cases h2
  exact ⟨rows, r, h, h3, h4⟩

/-- A series of any other length is rejected: short ones with `KeyError`, long ones with
`ValueError`. -/
theorem C08_rejects_other_lengths (gen dem : List ℚ) :
    (gen.length < 8760 ∨ dem.length < 8760 → surplusDeficit gen dem = .error .keyError) ∧
    (8760 ≤ gen.length → 8760 ≤ dem.length → 8760 < gen.length ∨ 8760 < dem.length →
      surplusDeficit gen dem = .error .valueError) := by
  constructor
  · intro h
    rw [surplusDeficit, if_pos h]
  · intro h1 h2 h3
    rw [surplusDeficit, if_neg (by omega), if_pos (by omega)]

/-- The fixed order controller's copy and the predictive controller's copy agree. -/
theorem C08_versions_agree (gen dem : List ℚ) :
    surplusDeficitFixed gen dem = surplusDeficit gen dem := rfl

example : splitHour 3 5 = ⟨-2, 2, 0, 3⟩ ∧ splitHour 5 3 = ⟨2, 0, 2, 3⟩ := by decide +kernel

example : ∃ rows, surplusDeficit (List.replicate 8760 3) (List.replicate 8760 5) = .ok rows ∧
    rows.length = 8760 :=
  C08_accepts_full_year _ _ List.length_replicate List.length_replicate

/-! ## C09 months -/

/-- Days of the months of a 365-day year. -/
def Spec.monthDays : List ℕ := [31, 28, 31, 30, 31, 30, 31, 31, 30, 31, 30, 31]

theorem slice_append {α : Type} (l : List α) {a b c : ℕ} (hab : a ≤ b) (hbc : b ≤ c) :
    slice l a b ++ slice l b c = slice l a c := by
  unfold slice
  have h : l.take b = (l.take c).take b := by rw [List.take_take, min_eq_left hbc]
  rw [h]
  generalize l.take c = m
  conv_rhs => rw [← List.take_append_drop b m]
  rw [List.drop_append]
  by_cases hb : b ≤ m.length
  · rw [List.length_take, min_eq_left hb, Nat.sub_eq_zero_of_le hab, List.drop_zero]
  · push Not at hb
    rw [List.drop_eq_nil_of_le hb.le]
    simp

/-- Every hour is in exactly one month, in order: the months put end to end are the year. -/
theorem C09_months_partition {α : Type} (year : List α) (h : year.length ≤ 8760) :
    ((monthSplit year).map Prod.snd).flatten = year := by
  have e : slice year 0 8760 = year := by
    unfold slice
    rw [List.take_of_length_le h, List.drop_zero]
  simp only [monthSplit, List.map, List.flatten_cons, List.flatten_nil, List.append_nil]
  repeat rw [slice_append _ (by omega) (by omega)]
  exact e

example : ((monthSplit (List.range 8760)).map Prod.snd).flatten = List.range 8760 :=
  C09_months_partition _ List.length_range.le

/-- Each month has the length of the calendar month. -/
theorem C09_month_lengths {α : Type} (year : List α) (h : year.length = 8760) :
    (monthSplit year).map (fun m => m.2.length) = Spec.monthDays.map (· * 24) := by
  simp [monthSplit, slice, h, Spec.monthDays]

example : (monthSplit (List.range 8760)).map (fun m => m.2.length) = Spec.monthDays.map (· * 24) :=
  C09_month_lengths _ List.length_range

/-- Months come in calendar order under their names. -/
theorem C09_month_names {α : Type} (year : List α) : (monthSplit year).map Prod.fst =
    ["jan", "feb", "mar", "apr", "may", "jun", "jul", "aug", "sep", "oct", "nov", "dec"] := rfl

/-- `sum_monthly` is the sum of the hours of each month of `month_split`, in MWh. -/
theorem C09_sum_monthly_is_sum_of_months (year : List ℚ) :
    sumMonthly year = (monthSplit year).map (fun m => (m.1, m.2.sum / 1000)) := rfl

/-- The twelve monthly totals add up to the annual total in MWh. -/
theorem C09_monthly_totals_add_up (year : List ℚ) (h : year.length ≤ 8760) :
    ((sumMonthly year).map Prod.snd).sum = year.sum / 1000 := by
  have hp := congrArg List.sum (C09_months_partition year h)
  rw [C09_sum_monthly_is_sum_of_months]
  rw [← hp, List.sum_flatten]
  simp only [monthSplit, List.map, List.sum_cons, List.sum_nil]
  ring

/-- Monthly means weighted with the length of the month give the annual total. -/
theorem C09_monthly_means_add_up (year : List ℚ) (h : year.length = 8760) :
    (List.zipWith (fun (m : String × ℚ) (d : ℕ) => m.2 * (d * 24)) (meanMonthly year)
      Spec.monthDays).sum = year.sum := by
  have hp := congrArg List.sum (C09_months_partition year h.le)
  rw [← hp, List.sum_flatten]
  have hm : ∀ a b : ℕ, a < b → b ≤ 8760 → mean (slice year a b) * ((b : ℚ) - a)
      = (slice year a b).sum := by
    intro a b hab hb
    have hl : ((slice year a b).length : ℚ) = (b : ℚ) - a := by
      have : (slice year a b).length = b - a := by simp [slice, h]; omega
      rw [this, Nat.cast_sub hab.le]
    have hne : (b : ℚ) - a ≠ 0 := by
      have : (a : ℚ) < b := by exact_mod_cast hab
      exact (sub_pos.mpr this).ne'
    rw [mean, hl, div_mul_cancel₀ _ hne]
  have e1 := hm 0 744 (by norm_num) (by norm_num)
  have e2 := hm 744 1416 (by norm_num) (by norm_num)
  have e3 := hm 1416 2160 (by norm_num) (by norm_num)
  have e4 := hm 2160 2880 (by norm_num) (by norm_num)
  have e5 := hm 2880 3624 (by norm_num) (by norm_num)
  have e6 := hm 3624 4344 (by norm_num) (by norm_num)
  have e7 := hm 4344 5088 (by norm_num) (by norm_num)
  have e8 := hm 5088 5832 (by norm_num) (by norm_num)
  have e9 := hm 5832 6552 (by norm_num) (by norm_num)
  have e10 := hm 6552 7296 (by norm_num) (by norm_num)
  have e11 := hm 7296 8016 (by norm_num) (by norm_num)
  have e12 := hm 8016 8760 (by norm_num) (by norm_num)
  simp only [monthSplit, meanMonthly, Spec.monthDays, List.map, List.zipWith, List.sum_cons,
    List.sum_nil, ← e1, ← e2, ← e3, ← e4, ← e5, ← e6, ← e7, ← e8, ← e9, ← e10, ← e11, ← e12]
  push_cast
  ring

example : ((sumMonthly (List.replicate 8760 2)).map Prod.snd).sum = 17520 / 1000 := by
  rw [C09_monthly_totals_add_up _ List.length_replicate.le]
  rw [List.sum_replicate]
  norm_num

/-- `sum_year` is the total of the twelve months, which are in thousands. -/
theorem C09_sum_year (year : List ℚ) (h : year.length ≤ 8760) :
    sumYear year = 1000 * ((sumMonthly year).map Prod.snd).sum := by
  rw [C09_monthly_totals_add_up year h]
  unfold sumYear
  ring

/-- `mean_year` is the mean of the monthly means weighted with the days of the months. -/
theorem C09_mean_year (year : List ℚ) (h : year.length = 8760) :
    meanYear year = (List.zipWith (fun (m : String × ℚ) (d : ℕ) => m.2 * d) (meanMonthly year) Spec.monthDays).sum / 365 := by
  have key := C09_monthly_means_add_up year h
  unfold meanYear mean
  rw [← key, h]
  simp only [meanMonthly, Spec.monthDays, List.zipWith, List.sum_cons, List.sum_nil]
  push_cast
  ring

example : meanYear (List.replicate 8760 7) = 7 ∧ sumYear (List.replicate 8760 7) = 61320 := by
  unfold meanYear mean sumYear
  rw [List.length_replicate, List.sum_replicate]
  norm_num

/-- A year longer than 8760 hours loses its end. -/
theorem C09_longer_year_truncated {α : Type} (year : List α) :
    ((monthSplit year).map Prod.snd).flatten = year.take 8760 := by
  have e : slice year 0 8760 = year.take 8760 := by
    unfold slice
    rw [List.drop_zero]
  simp only [monthSplit, List.map, List.flatten_cons, List.flatten_nil, List.append_nil]
  repeat rw [slice_append _ (by omega) (by omega)]
  exact e

/-! ## C64 balance checks -/

theorem pyRound_close (x : ℚ) (n : ℕ) : |pyRound x n - x| ≤ 1 / 2 / 10 ^ n := by
  obtain ⟨h1, h2⟩ := FixedOrder.pyRound_bounds x n
  rw [abs_le]
  constructor <;> linarith

/-- The heat check says 'met' only if supply and demand differ by at most 0.06 kWh, and 'not met'
only if supply falls short by at least 0.04 kWh. It fails only if supply exceeds demand by at
least 0.04 kWh. -/
theorem C64_heat_check_sound (demand supply : ℚ) :
    (heatDemandCheck demand supply = .ok (some true) → |demand - supply| ≤ 6 / 100) ∧
    (heatDemandCheck demand supply = .ok (some false) → supply + 4 / 100 ≤ demand) ∧
    (∀ e, heatDemandCheck demand supply = .error e →
      e = .systemExit ∧ demand + 4 / 100 ≤ supply) := by
  have a := FixedOrder.pyRound_bounds demand 2
  have b := FixedOrder.pyRound_bounds supply 2
  have c := FixedOrder.pyRound_bounds (pyRound demand 2 - pyRound supply 2) 1
  -- a rounded value is a multiple of 1/10
  have hz : ∀ q : ℚ, (0 < pyRound q 1 → 1 / 10 ≤ pyRound q 1) ∧
      (pyRound q 1 < 0 → pyRound q 1 ≤ -(1 / 10)) := by
    intro q
    unfold pyRound
    constructor
    · intro h
      have h' : 0 < roundHalfEven (q * 10 ^ 1) := by
        by_contra hh
        push Not at hh
        have : ((roundHalfEven (q * 10 ^ 1) : ℤ) : ℚ) ≤ 0 := by exact_mod_cast hh
        have := div_nonpos_of_nonpos_of_nonneg this (by norm_num : (0:ℚ) ≤ 10 ^ 1)
        linarith
      have : (1 : ℚ) ≤ roundHalfEven (q * 10 ^ 1) := by exact_mod_cast h'
      rw [le_div_iff₀ (by norm_num)]
      norm_num at this ⊢
      linarith
    · intro h
      have h' : roundHalfEven (q * 10 ^ 1) < 0 := by
        by_contra hh
        push Not at hh
        have : (0 : ℚ) ≤ roundHalfEven (q * 10 ^ 1) := by exact_mod_cast hh
        have := div_nonneg this (by norm_num : (0:ℚ) ≤ 10 ^ 1)
        linarith
      have : ((roundHalfEven (q * 10 ^ 1) : ℤ) : ℚ) ≤ -1 := by exact_mod_cast Int.le_sub_one_of_lt h'
      rw [div_le_iff₀ (by norm_num)]
      norm_num at this ⊢
      linarith
  have hz := hz (pyRound demand 2 - pyRound supply 2)
  norm_num at a b c
  unfold heatDemandCheck
  dsimp only
  refine ⟨?_, ?_, ?_⟩
  · intro h
    split_ifs at h with h1 h2
    · rw [h1] at c
      rw [abs_le]; constructor <;> linarith
    · cases h
  · intro h
    split_ifs at h with h1 h2
    · cases h
    · have := hz.1 h2
      linarith
  · intro e h
    split_ifs at h with h1 h2
    cases h
    have := hz.2 (lt_of_le_of_ne (not_lt.mp h2) h1)
    exact ⟨rfl, by linarith⟩

/-- The two versions differ only in what happens when there is too much: one stops the program,
the other returns nothing. -/
theorem C64_versions (demand supply : ℚ) :
    heatDemandCheckTools demand supply = (match heatDemandCheck demand supply with
      | .ok b => .ok b
      | .error _ => .ok none) ∧
    leftoverCheckTools demand supply = (match leftoverCheck demand supply with
      | .ok b => .ok b
      | .error _ => .ok none) := by
  unfold heatDemandCheckTools heatDemandCheck leftoverCheckTools leftoverCheck
  dsimp only
  constructor <;> split_ifs <;> rfl

/-- Surplus and deficit checks: 'left over' means more than nothing up to a cent of a kWh,
'nothing left' means within a cent. -/
theorem C64_leftover_check_sound (total used : ℚ) :
    (leftoverCheck total used = .ok (some true) → used - 1 / 100 ≤ total) ∧
    (leftoverCheck total used = .ok (some false) → |total - used| ≤ 15 / 1000) ∧
    (∀ e, leftoverCheck total used = .error e → e = .systemExit ∧ total ≤ used + 1 / 100) := by
  have a := FixedOrder.pyRound_bounds total 2
  have b := FixedOrder.pyRound_bounds used 2
  have c := FixedOrder.pyRound_bounds (pyRound total 2 - pyRound used 2) 2
  have hn := @FixedOrder.pyRound_nonneg
  norm_num at a b c
  have hpos : 0 < pyRound (pyRound total 2 - pyRound used 2) 2 →
      0 ≤ pyRound total 2 - pyRound used 2 := by
    intro h
    by_contra hh
    push Not at hh
    have : roundHalfEven ((pyRound total 2 - pyRound used 2) * 10 ^ 2) ≤ 0 := by
      have h1 : ⌊(pyRound total 2 - pyRound used 2) * 10 ^ 2⌋ < 0 :=
        Int.floor_lt.mpr (by push_cast; nlinarith)
      unfold roundHalfEven
      dsimp only
      split_ifs <;> omega
    have h2 : ((roundHalfEven ((pyRound total 2 - pyRound used 2) * 10 ^ 2) : ℤ) : ℚ) ≤ 0 := by
      exact_mod_cast this
    have := div_nonpos_of_nonpos_of_nonneg h2 (by norm_num : (0:ℚ) ≤ 10 ^ 2)
    rw [pyRound] at h
    linarith
  have hneg : pyRound (pyRound total 2 - pyRound used 2) 2 < 0 →
      pyRound total 2 - pyRound used 2 ≤ 0 := by
    intro h
    by_contra hh
    push Not at hh
    have := hn hh.le 2
    linarith
  unfold leftoverCheck
  dsimp only
  refine ⟨?_, ?_, ?_⟩
  · intro h
    split_ifs at h with h1 h2
    · have := hpos h1
      linarith
    · cases h
  · intro h
    split_ifs at h with h1 h2
    · cases h
    · rw [h2] at c
      rw [abs_le]; constructor <;> linarith
  · intro e h
    split_ifs at h with h1 h2
    cases h
    have := hneg (lt_of_le_of_ne (not_lt.mp h1) h2)
    exact ⟨rfl, by linarith⟩

example : heatDemandCheck 10 (997 / 100) = .ok (some true) ∧
    heatDemandCheck 10 9 = .ok (some false) ∧ heatDemandCheck 9 10 = .error .systemExit := by
  decide +kernel

/-- A shortfall below 0.05 kWh is reported as met. -/
theorem C64_small_shortfall_accepted :
    heatDemandCheck 10 (997 / 100) = .ok (some true) := by decide +kernel

end Verif
