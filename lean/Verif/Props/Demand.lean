import Verif.Model.Demand
import Verif.Lemmas.ListM
import Verif.Lemmas.Run
import Mathlib.Algebra.BigOperators.Group.List.Basic
import Mathlib.Algebra.Order.BigOperators.Group.List
import Mathlib.Tactic.IntervalCases

/-!
# Properties of the demand profiles (C58, C60, C77, C78, C79)
-/

set_option autoImplicit false

namespace Verif
open Demand

/-! ## C58: seasons and kinds of day -/

/-- The first days (from 0, 1 January) of the seasons. -/
def Spec.seasonStarts : List (ℕ × Season) :=
  [(0, .wtr), (90, .spr), (167, .smr), (237, .hsr), (281, .aut), (345, .wtr)]

/-- The season of a day is that of the last start not after it. -/
def Spec.seasonOfDay (day : ℕ) : Option Season :=
  ((Spec.seasonStarts.filter fun x => decide (x.1 ≤ day)).getLast?).map (·.2)

/-- C58: every hour of the year is in the season of its day, as given by the first days of the
seasons; so no day is in two seasons and no hour in none. -/
theorem C58_seasons (hour : ℕ) (h : hour < 8760) : Spec.seasonOfDay (hour / 24) = some (timeOfYear hour) := by
  have key : ∀ d < 365, Spec.seasonOfDay d = some (timeOfYear (24 * d : ℕ)) := by decide +kernel
  rw [key (hour / 24) (by omega)]
  have same : timeOfYear (24 * (hour / 24)) = timeOfYear hour := by
    unfold timeOfYear
    split_ifs <;> first | rfl | omega
  exact congrArg some same

example : Spec.seasonOfDay (6744 / 24) = some .aut ∧ timeOfYear 6744 = .aut :=
  ⟨(C58_seasons 6744 (by norm_num)).trans (by decide +kernel), by decide +kernel⟩

/-- C58: each season has the number of days its comment gives: 77 of spring, 70 of summer, 44 of high
summer, 64 of autumn, and the other 110 are winter. -/
theorem C58_lengths (s : Season) :
    ((List.range 365).filter fun d => decide (timeOfYear (24 * d : ℕ) = s)).length =
      match s with | .wtr => 110 | .spr => 77 | .smr => 70 | .hsr => 44 | .aut => 64 := by
  cases s <;> decide +kernel

/-- C58 is false of the documented dates of autumn, 25 August to 27 October: 1 September is high
summer and 1 December is autumn. -/
theorem C58_autumn_dates :
    timeOfYear (24 * Tariff.daysBeforeMonth 2019 9 : ℕ) = .hsr ∧
    timeOfYear (24 * Tariff.daysBeforeMonth 2019 12 : ℕ) = .aut := by decide +kernel

/-- C58: the kind of day repeats every week, Sunday follows Saturday and a weekday follows Sunday,
whatever the year. -/
theorem C58_week (year hour : ℕ) :
    (hour + 168 < 8760 → dayOfWeek year (hour + 168) = dayOfWeek year hour) ∧
    (hour + 24 < 8760 → dayOfWeek year hour = .ok .sat → dayOfWeek year (hour + 24) = .ok .sun) ∧
    (hour + 24 < 8760 → dayOfWeek year hour = .ok .sun → dayOfWeek year (hour + 24) = .ok .wd) := by
  have e7 : (hour + 168) / 24 = hour / 24 + 7 := by omega
  have e1 : (hour + 24) / 24 = hour / 24 + 1 := by omega
  have hw : ∀ n, Tariff.weekdayOfNumber (n + 7) = Tariff.weekdayOfNumber n := by
    intro n
    unfold Tariff.weekdayOfNumber
    rw [Nat.add_mod_right]
  refine ⟨fun h => ?_, fun h hs => ?_, fun h hs => ?_⟩
  · unfold dayOfWeek weekdayAt
    rw [if_pos h, if_pos (by omega), e7]
    rw [show Tariff.toOrdinal year 1 1 + (hour / 24 + 7) + 6 = Tariff.toOrdinal year 1 1 + hour / 24 + 6 + 7 by ring, hw]
  all_goals
    unfold dayOfWeek weekdayAt at hs ⊢
    rw [if_pos (by omega)] at hs
    rw [if_pos h, e1]
    rw [show Tariff.toOrdinal year 1 1 + (hour / 24 + 1) + 6 = Tariff.toOrdinal year 1 1 + hour / 24 + 6 + 1 by ring]
    generalize Tariff.toOrdinal year 1 1 + hour / 24 + 6 = m at hs ⊢
    have h7 : m % 7 < 7 := Nat.mod_lt _ (by norm_num)
    unfold Tariff.weekdayOfNumber at hs ⊢
    rw [Nat.add_mod]
    generalize m % 7 = k at hs h7 ⊢
    interval_cases k <;> first | rfl | (exfalso; revert hs; decide)

example : dayOfWeek 2017 (24 * 6) = .ok .sat ∧ dayOfWeek 2017 0 = .ok .sun := by decide +kernel

/-- C58: with a table of 24 values in every column the electricity profile of a year has 8760 values,
that of an hour being the value of its hour of day in the column of its season and kind of day. -/
theorem C58_year_series {table : Season → DayType → List ℚ} (ht : ∀ s d, (table s d).length = 24) (year : ℕ) :
    ∃ ys, yearTimeSeries table year = .ok ys ∧ ys.length = 8760 ∧
      ∀ hour < 8760, ∃ s d, Spec.seasonOfDay (hour / 24) = some s ∧ dayOfWeek year hour = .ok d ∧
        ys[hour]? = (table s d)[hour % 24]? := by
  have hone : ∀ hour < 8760, ∃ d x, dayOfWeek year hour = .ok d ∧ seriesHour table year hour = .ok x ∧
      (table (timeOfYear hour) d)[hour % 24]? = some x := by
    intro hour hh
    have hd : ∃ d, dayOfWeek year hour = .ok d := by
      unfold dayOfWeek
      rw [if_pos hh]
      exact ⟨_, rfl⟩
    obtain ⟨d, hd⟩ := hd
    have hget : (table (timeOfYear hour) d)[hour % 24]? =
        some ((table (timeOfYear hour) d)[hour % 24]'(by rw [ht]; omega)) := List.getElem?_eq_getElem _
    refine ⟨d, _, hd, ?_, hget⟩
    unfold seriesHour
    rw [hd]
    show tableAt table (timeOfYear hour) d (hour % 24) = _
    unfold tableAt
    rw [hget]
  obtain ⟨ys, hys⟩ := mapM_total (f := seriesHour table year) (xs := List.range 8760) (by
    intro x hx
    obtain ⟨_, y, _, hy, _⟩ := hone x (List.mem_range.mp hx)
    exact ⟨y, hy⟩)
  refine ⟨ys, hys, by rw [mapM_length hys, List.length_range], fun hour hh => ?_⟩
  obtain ⟨d, x, hd, hx, hg⟩ := hone hour hh
  obtain ⟨y, h1, h2⟩ := mapM_range_get hys hh
  rw [hx] at h2
  rw [Except.ok.inj h2] at hg
  exact ⟨timeOfYear hour, d, C58_seasons hour hh, hd, by rw [h1, hg]⟩

example : ∃ table : Season → DayType → List ℚ, ∀ s d, (table s d).length = 24 :=
  ⟨fun s d => (List.range 24).map fun h => (h : ℚ) + (if s = .wtr then 1 else 0) + if d = .sun then 1/2 else 0, by simp⟩

/-! ## C60: the length and the alignment of the smoothed profile -/

theorem movingAverage_length {w : ℕ} (y : List ℚ) : (movingAverage w y).length = y.length + 1 - w := by
  unfold movingAverage; simp

theorem movingAverage_get {w : ℕ} {y : List ℚ} {i : ℕ} (h : i < y.length + 1 - w) :
    (movingAverage w y)[i]? = some (((y.drop i).take w).sum / w) := by
  unfold movingAverage
  rw [List.getElem?_map, List.getElem?_range h]
  rfl

theorem insertAt1_length {xs ys : List ℚ} (h : xs ≠ []) : (insertAt1 xs ys).length = xs.length + ys.length := by
  cases xs with
  | nil => exact absurd rfl h
  | cons a t => simp [insertAt1]; ring

/-- C60: the smoothed electricity profile is as long as the original, if that has at least 12
values. -/
theorem C60_electricity_length {y ps : List ℚ} (hl : 12 ≤ y.length) (h : predictedElec y = .ok ps) :
    ps.length = y.length := by
  unfold predictedElec at h
  dsimp only at h
  split_ifs at h with h1 h2
  have hne : movingAverage 7 y ≠ [] := by
    intro hh
    have := movingAverage_length (w := 7) y
    rw [hh] at this
    simp at this
    omega
  rw [← Except.ok.inj h, insertAt1_length hne, List.length_map, List.length_take, movingAverage_length]
  omega

example : ∃ ps, predictedElec [1, 2, 3, 4, 5, 6, 7, 8, 9, 8, 7, 6, 5] = .ok ps ∧ ps.length = 13 := by
  obtain ⟨ps, h, -⟩ : ∃ ps, predictedElec [1, 2, 3, 4, 5, 6, 7, 8, 9, 8, 7, 6, 5] = .ok ps ∧ True :=
    exists_of_checks (by decide +kernel)
  exact ⟨ps, h, C60_electricity_length (by decide) h⟩

/-- C60: the same for heat, from 4 values on. -/
theorem C60_heat_length {y ps : List ℚ} (h : predictedHeat y = .ok ps) : ps.length = y.length := by
  unfold predictedHeat at h
  dsimp only at h
  split_ifs at h with h1 h2
  have hne : movingAverage 4 y ≠ [] := by
    intro hh
    have := movingAverage_length (w := 4) y
    rw [hh] at this
    simp at this
    omega
  rw [← Except.ok.inj h, insertAt1_length hne, List.length_map, List.length_take, movingAverage_length]
  omega

example : ∃ ps, predictedHeat [1, 2, 3, 4, 5, 6] = .ok ps ∧ ps.length = 6 := by
  apply exists_of_checks; decide +kernel

/-- C60 is false of the electricity profile for short originals: 8 values become 4. -/
theorem C60_short_electricity : ∃ ps, predictedElec [1, 2, 3, 4, 5, 6, 7, 8] = .ok ps ∧ ps.length = 4 := by
  apply exists_of_checks; decide +kernel

theorem insert_get {xs ys : List ℚ} {k : ℕ} (hy : ys.length = k) (hx : xs ≠ []) {i : ℕ} (hi : k + 1 ≤ i) :
    (insertAt1 xs ys)[i]? = xs[i - k]? := by
  cases xs with
  | nil => exact absurd rfl hx
  | cons a t =>
    unfold insertAt1
    obtain ⟨j, rfl⟩ : ∃ j, i = k + 1 + j := ⟨i - (k + 1), by omega⟩
    rw [List.getElem?_append_right (by simp [hy])]
    simp only [List.take_succ_cons, List.take_zero, List.drop_succ_cons, List.drop_zero,
      List.length_append, List.length_cons, List.length_nil, hy]
    rw [show k + 1 + j - (0 + 1 + k) = j by omega, show k + 1 + j - k = j + 1 by omega, List.getElem?_cons_succ]

/-- C60: apart from the first seven hours every value of the smoothed electricity profile is the mean of its hour
and the six hours before. -/
theorem C60_electricity_mean {y ps : List ℚ} (hl : 12 ≤ y.length) (h : predictedElec y = .ok ps)
    {i : ℕ} (h7 : 7 ≤ i) (hi : i < y.length) : ps[i]? = some (((y.drop (i - 6)).take 7).sum / 7) := by
  unfold predictedElec at h
  dsimp only at h
  split_ifs at h with h1 h2
  have hlen := movingAverage_length (w := 7) y
  have hne : movingAverage 7 y ≠ [] := by
    intro hh
    rw [hh] at hlen
    simp at hlen
    omega
  rw [← Except.ok.inj h, insert_get (k := 6) (by rw [List.length_map, List.length_take, hlen]; omega) hne (by omega),
    movingAverage_get (by omega)]
  norm_num

example : ∃ ps, predictedElec [1, 2, 3, 4, 5, 6, 7, 8, 9, 8, 7, 6, 5] = .ok ps ∧ ps[8]? = some 6 := by
  obtain ⟨ps, h, -⟩ : ∃ ps, predictedElec [1, 2, 3, 4, 5, 6, 7, 8, 9, 8, 7, 6, 5] = .ok ps ∧ True :=
    exists_of_checks (by decide +kernel)
  exact ⟨ps, h, (C60_electricity_mean (by decide) h (i := 8) (by norm_num) (by decide)).trans (by decide +kernel)⟩

/-- C60: the same for heat, with four hours. -/
theorem C60_heat_mean {y ps : List ℚ} (h : predictedHeat y = .ok ps)
    {i : ℕ} (h4 : 4 ≤ i) (hi : i < y.length) : ps[i]? = some (((y.drop (i - 3)).take 4).sum / 4) := by
  unfold predictedHeat at h
  dsimp only at h
  split_ifs at h with h1 h2
  have hlen := movingAverage_length (w := 4) y
  have hne : movingAverage 4 y ≠ [] := by
    intro hh
    rw [hh] at hlen
    simp at hlen
    omega
  rw [← Except.ok.inj h, insert_get (k := 3) (by rw [List.length_map, List.length_take]; omega) hne (by omega),
    movingAverage_get (by omega)]
  norm_num

example : ∃ ps, predictedHeat [1, 2, 3, 4, 5, 6] = .ok ps ∧ ps[5]? = some (9 / 2) := by
  obtain ⟨ps, h, -⟩ : ∃ ps, predictedHeat [1, 2, 3, 4, 5, 6] = .ok ps ∧ True :=
    exists_of_checks (by decide +kernel)
  exact ⟨ps, h, (C60_heat_mean h (i := 5) (by norm_num) (by decide)).trans (by decide +kernel)⟩

/-! ## C77: the peak of the smoothed profile -/

theorem sum_le_of_le {xs : List ℚ} {m : ℚ} (h : ∀ x ∈ xs, x ≤ m) : xs.sum ≤ xs.length * m := by
  have := List.sum_le_card_nsmul xs m h
  rwa [nsmul_eq_mul] at this

theorem movingAverage_le {w : ℕ} (hw : 0 < w) {y : List ℚ} {m : ℚ} (hm : 0 ≤ m) (h : ∀ x ∈ y, x ≤ m) :
    ∀ a ∈ movingAverage w y, a ≤ m := by
  intro a ha
  unfold movingAverage at ha
  obtain ⟨i, _, rfl⟩ := List.mem_map.mp ha
  have hw' : (0 : ℚ) < w := by exact_mod_cast hw
  rw [div_le_iff₀ hw']
  have h1 := sum_le_of_le (xs := (y.drop i).take w) (m := m)
    (fun x hx => h x (List.mem_of_mem_drop (List.mem_of_mem_take hx)))
  have h2 : (((y.drop i).take w).length : ℚ) ≤ w := by exact_mod_cast List.length_take_le _ _
  have h3 := mul_le_mul_of_nonneg_right h2 hm
  linarith

theorem movingAverage_nonneg {w : ℕ} {y : List ℚ} (h : ∀ x ∈ y, 0 ≤ x) : ∀ a ∈ movingAverage w y, 0 ≤ a := by
  intro a ha
  unfold movingAverage at ha
  obtain ⟨i, _, rfl⟩ := List.mem_map.mp ha
  refine div_nonneg (List.sum_nonneg fun x hx => h x (List.mem_of_mem_drop (List.mem_of_mem_take hx))) ?_
  exact_mod_cast Nat.zero_le w

theorem listMax_nonneg {y : List ℚ} (h : ∀ x ∈ y, 0 ≤ x) : 0 ≤ FixedOrder.listMax y := by
  cases y with
  | nil => exact le_refl _
  | cons a t => exact le_trans (h a (List.mem_cons_self ..)) (le_listMax (List.mem_cons_self ..))

theorem foldl_max_le {m : ℚ} : ∀ (xs : List ℚ) (a : ℚ), a ≤ m → (∀ x ∈ xs, x ≤ m) → xs.foldl max a ≤ m
  | [], _, h, _ => h
  | x :: xs, a, h, hs => foldl_max_le xs (max a x) (max_le h (hs x (List.mem_cons_self ..)))
      (fun z hz => hs z (List.mem_cons_of_mem _ hz))

theorem listMax_le {y : List ℚ} {m : ℚ} (hne : y ≠ []) (h : ∀ x ∈ y, x ≤ m) : FixedOrder.listMax y ≤ m := by
  cases y with
  | nil => exact absurd rfl hne
  | cons a t => exact foldl_max_le t a (h a (List.mem_cons_self ..)) (fun z hz => h z (List.mem_cons_of_mem _ hz))

/-- C77: smoothing an electricity profile without negative values gives no negative values and none
above the highest of the original. -/
theorem C77_electricity_range {y ps : List ℚ} (hy : ∀ x ∈ y, 0 ≤ x) (h : predictedElec y = .ok ps) :
    ∀ p ∈ ps, 0 ≤ p ∧ p ≤ FixedOrder.listMax y := by
  unfold predictedElec at h
  dsimp only at h
  split_ifs at h with h1 h2
  have hM := listMax_nonneg hy
  have hup := movingAverage_le (w := 7) (by norm_num) hM (fun x hx => le_listMax hx)
  have hlo := movingAverage_nonneg (w := 7) hy
  have hm : 0 < FixedOrder.listMax (movingAverage 7 y) := lt_of_le_of_ne (listMax_nonneg hlo) (Ne.symm h2)
  intro p hp
  rw [← Except.ok.inj h] at hp
  unfold insertAt1 at hp
  simp only [List.mem_append] at hp
  rcases hp with (hp | hp) | hp
  · exact ⟨hlo p (List.mem_of_mem_take hp), hup p (List.mem_of_mem_take hp)⟩
  · obtain ⟨a, ha, rfl⟩ := List.mem_map.mp hp
    have ha' := List.mem_of_mem_take ha
    refine ⟨mul_nonneg (div_nonneg hM hm.le) (hlo a ha'), ?_⟩
    rw [div_mul_eq_mul_div, div_le_iff₀ hm]
    exact mul_le_mul_of_nonneg_left (le_listMax ha') hM
  · exact ⟨hlo p (List.mem_of_mem_drop hp), hup p (List.mem_of_mem_drop hp)⟩

example : ∃ ps, predictedElec [1, 2, 3, 4, 5, 6, 7, 8, 9, 8, 7, 6, 5] = .ok ps ∧ ps.length = 13 := by
  apply exists_of_checks; decide +kernel

/-- A year (or more) with one hour of demand, the first. -/
def Spec.spike (n : ℕ) : List ℚ := 10 :: List.replicate n 0

/-- C77 is false of heat: a year whose first hour has the highest demand, 10 kWh, gets a peak of 40 kWh by
smoothing. -/
theorem C77_heat_peak_exceeded (n : ℕ) (hn : 3 ≤ n) :
    (∀ x ∈ Spec.spike n, x ≤ 10) ∧ ∃ ps, predictedHeat (Spec.spike n) = .ok ps ∧ 40 ∈ ps := by
  have hle : ∀ x ∈ Spec.spike n, x ≤ 10 := by
    intro x hx
    rcases List.mem_cons.mp hx with rfl | hx
    · exact le_refl _
    · rw [List.eq_of_mem_replicate hx]; norm_num
  refine ⟨hle, ?_⟩
  have hlen : (Spec.spike n).length = n + 1 := by simp [Spec.spike]
  have hmaxy : FixedOrder.listMax (Spec.spike n) = 10 := by
    refine le_antisymm ?_ (le_listMax (List.mem_cons_self ..))
    exact listMax_le (by simp [Spec.spike]) hle
  have hsum : ∀ i, (((Spec.spike n).drop i).take 4).sum = if i = 0 then 10 else 0 := by
    intro i
    cases i with
    | zero =>
      obtain ⟨m, rfl⟩ : ∃ m, n = m + 3 := ⟨n - 3, by omega⟩
      simp [Spec.spike, List.replicate_succ]
    | succ i => simp [Spec.spike, List.drop_replicate, List.take_replicate, List.sum_replicate]
  have hma : FixedOrder.listMax (movingAverage 4 (Spec.spike n)) = 5/2 := by
    refine le_antisymm (listMax_le ?_ ?_) (le_listMax ?_)
    · intro hh
      have := movingAverage_length (w := 4) (Spec.spike n)
      rw [hh, hlen] at this
      simp at this
      omega
    · intro a ha
      unfold movingAverage at ha
      obtain ⟨i, _, rfl⟩ := List.mem_map.mp ha
      rw [hsum]
      split_ifs <;> norm_num
    · apply List.mem_of_getElem? (i := 0)
      rw [movingAverage_get (by omega), hsum]
      norm_num
  refine ⟨insertAt1 (movingAverage 4 (Spec.spike n)) (((Spec.spike n).take 3).map (10 / (5/2) * ·)), ?_, ?_⟩
  · unfold predictedHeat
    dsimp only
    rw [if_neg (by omega), if_neg (by rw [hma]; norm_num), hma, hmaxy]
  · unfold insertAt1
    simp only [List.mem_append]
    refine Or.inl (Or.inr ?_)
    refine List.mem_map.mpr ⟨10, ?_, by norm_num⟩
    simp [Spec.spike]

example : ∃ ps, predictedHeat (Spec.spike 8759) = .ok ps ∧ 40 ∈ ps :=
  (C77_heat_peak_exceeded 8759 (by norm_num)).2

/-! ## C78, C79: heat by house and day -/

/-- The name of the sheet of a temperature: `N3` for three degrees below zero. -/
def Spec.sheetCalled (t : ℤ) : String := if t < 0 then "N" ++ toString (-t) else toString t

theorem sheetName_eq (t : ℤ) : sheetName t = Spec.sheetCalled t := by
  unfold sheetName Spec.sheetCalled
  rw [show (-1 : ℤ) * t = -t by ring]

/-- The standard profiles are complete: every sheet from -3 to 14 degrees has 24 values for every
type and age of house. -/
def Spec.CompleteSheets (S : Sheets) : Prop :=
  ∀ t : ℤ, -3 ≤ t → t ≤ 14 → ∃ sheet, S (Spec.sheetCalled t) = some sheet ∧
    ∀ type age, (sheet type age).length = 24

/-- The temperature of the sheet used for a day: the nearest of -3, …, 14 to the rounded mean. -/
def Spec.nearestSheet (mean : ℚ) : ℤ := max (-3) (min 14 (roundHalfEven mean))

/-- The floor area in m² of the house a standard profile is for. -/
def Spec.usualArea (h : House) : ℚ := if h = .detached then 130 else if h = .midTerrace then 70 else 90

/-- The heat of a group of houses in an hour, by the sheet `sheet`. -/
def Spec.groupHeat (sheet : House → ℕ → List ℚ) (r : HouseRow) (area : ℚ) (hourOfDay : ℕ) : ℚ :=
  (sheet r.type r.age).getD hourOfDay 0 * pyRound (area / Spec.usualArea r.type) 2 * r.number

theorem standardArea_eq (h : House) : standardArea h = Spec.usualArea h := by
  cases h <;> decide +kernel

theorem clampTemp_eq (t : ℤ) : clampTemp t = max (-3) (min 14 t) := by
  unfold clampTemp
  split_ifs <;> omega

/-- C78: whatever the temperatures, the sheet used exists. -/
theorem C78_sheet_exists (t : ℤ) : sheetName (clampTemp t) ∈ sheets := by
  have h1 : -3 ≤ clampTemp t := by rw [clampTemp_eq]; omega
  have h2 : clampTemp t ≤ 14 := by rw [clampTemp_eq]; omega
  generalize clampTemp t = c at h1 h2
  interval_cases c <;> decide +kernel

theorem dayProfile_ok {S : Sheets} (hS : Spec.CompleteSheets S) (air : List ℚ) {r : HouseRow} {a : ℚ}
    (ha : floorArea r.bedrooms = some a) (day : ℕ) :
    ∃ sheet xs, S (Spec.sheetCalled (Spec.nearestSheet (((air.drop (24 * day)).take 24).sum / 24))) = some sheet ∧
      dayProfile S air r day = .ok xs ∧ xs.length = 24 ∧
      ∀ h < 24, xs[h]? = some (Spec.groupHeat sheet r a h) := by
  have hc : clampTemp (dayTemp air day) = Spec.nearestSheet (((air.drop (24 * day)).take 24).sum / 24) := by
    rw [clampTemp_eq]; rfl
  obtain ⟨sheet, h1, h2⟩ := hS (clampTemp (dayTemp air day)) (by rw [clampTemp_eq]; omega) (by rw [clampTemp_eq]; omega)
  have h1' : S (sheetName (clampTemp (dayTemp air day))) = some sheet := by
    rw [sheetName_eq, h1]
  refine ⟨sheet, (sheet r.type r.age).map fun x => x * pyRound (a / Spec.usualArea r.type) 2 * r.number,
    by rw [← hc, h1], ?_, by rw [List.length_map, h2], fun h hh => ?_⟩
  · unfold dayProfile floorFactor
    rw [h1', ha, standardArea_eq]
    dsimp only
    rw [if_pos (h2 _ _)]
  · have hlt : h < (sheet r.type r.age).length := by rw [h2]; exact hh
    rw [List.getElem?_map, List.getElem?_eq_getElem hlt]
    unfold Spec.groupHeat
    rw [List.getD_eq_getElem?_getD, List.getElem?_eq_getElem hlt]
    rfl

theorem flatten_length_of {xss : List (List ℚ)} {k : ℕ} (h : ∀ xs ∈ xss, xs.length = k) :
    xss.flatten.length = xss.length * k := by
  induction xss with
  | nil => simp
  | cons x t ih =>
    rw [List.flatten_cons, List.length_append, h x (List.mem_cons_self ..),
      ih (fun z hz => h z (List.mem_cons_of_mem _ hz)), List.length_cons]
    ring

theorem flatten_div_mod_get {k : ℕ} (hk : 0 < k) : ∀ {xss : List (List ℚ)}, (∀ xs ∈ xss, xs.length = k) →
    ∀ i, xss.flatten[i]? = (xss[i / k]?).bind fun xs => xs[i % k]?
  | [], _, i => by simp
  | x :: t, h, i => by
    have hx := h x (List.mem_cons_self ..)
    have ht : ∀ xs ∈ t, xs.length = k := fun z hz => h z (List.mem_cons_of_mem _ hz)
    rw [List.flatten_cons]
    by_cases hi : i < k
    · rw [List.getElem?_append_left (by omega), Nat.div_eq_of_lt hi, Nat.mod_eq_of_lt hi]
      rfl
    · rw [List.getElem?_append_right (by omega), hx, flatten_div_mod_get hk ht,
        show i / k = (i - k) / k + 1 by rw [Nat.div_eq_sub_div hk (by omega)], List.getElem?_cons_succ,
        show i % k = (i - k) % k by rw [Nat.mod_eq_sub_mod (by omega)]]

/-- The sheet of an hour of the year. -/
def Spec.sheetOfHour (S : Sheets) (air : List ℚ) (hour : ℕ) : Option (House → ℕ → List ℚ) :=
  S (Spec.sheetCalled (Spec.nearestSheet (((air.drop (24 * (hour / 24))).take 24).sum / 24)))

theorem houseProfile_ok {S : Sheets} (hS : Spec.CompleteSheets S) (air : List ℚ) {r : HouseRow} {a : ℚ}
    (ha : floorArea r.bedrooms = some a) :
    ∃ xs, houseProfile S air r = .ok xs ∧ xs.length = 8760 ∧
      ∀ hour < 8760, ∃ sheet, Spec.sheetOfHour S air hour = some sheet ∧
        xs[hour]? = some (Spec.groupHeat sheet r a (hour % 24)) := by
  obtain ⟨days, hd⟩ := mapM_total (f := dayProfile S air r) (xs := List.range 365) (by
    intro d _
    obtain ⟨_, xs, _, h, _⟩ := dayProfile_ok hS air ha d
    exact ⟨xs, h⟩)
  have hl : ∀ xs ∈ days, xs.length = 24 := by
    intro xs hxs
    obtain ⟨d, hdlt, hdx⟩ := List.getElem_of_mem hxs
    have hdlt' : d < 365 := by rw [mapM_length hd, List.length_range] at hdlt; exact hdlt
    obtain ⟨y, hy1, hy2⟩ := mapM_range_get hd hdlt'
    rw [List.getElem?_eq_getElem hdlt, hdx] at hy1
    obtain ⟨_, zs, _, h, h24, _⟩ := dayProfile_ok hS air ha d
    rw [hy2] at h
    rw [Option.some.inj hy1, Except.ok.inj h, h24]
  refine ⟨days.flatten, ?_, ?_, fun hour hh => ?_⟩
  · unfold houseProfile
    rw [hd]
    rfl
  · rw [flatten_length_of hl, mapM_length hd, List.length_range]
  · obtain ⟨y, hy1, hy2⟩ := mapM_range_get hd (t := hour / 24) (by omega)
    obtain ⟨sheet, zs, hs, h, _, hz⟩ := dayProfile_ok hS air ha (hour / 24)
    refine ⟨sheet, hs, ?_⟩
    rw [hy2] at h
    rw [flatten_div_mod_get (by norm_num) hl, hy1, Except.ok.inj h]
    exact hz _ (Nat.mod_lt _ (by norm_num))

theorem foldl_add_eq {α : Type} (f : α → ℚ) : ∀ (xs : List α) (a : ℚ), xs.foldl (fun acc x => acc + f x) a = a + (xs.map f).sum
  | [], a => by simp
  | x :: xs, a => by rw [List.foldl_cons, foldl_add_eq f xs, List.map_cons, List.sum_cons]; ring

/-- The floor area by the number of bedrooms: 70 m² for one and 20 m² more for each further one. -/
def Spec.areaOf (bedrooms : ℕ) : ℚ := 50 + 20 * bedrooms

theorem floorArea_eq {b : ℕ} (h1 : 1 ≤ b) (h5 : b ≤ 5) : floorArea b = some (Spec.areaOf b) := by
  interval_cases b <;> decide +kernel

/-- C78: with complete standard profiles and one to five bedrooms, the heat demand can be computed
whatever the temperatures; it has 8760 values, and that of an hour is the sum over the groups of houses,
of the standard value for the hour of day and the day's temperature, scaled by floor area and the number of
houses, with one and a half persons' hot water for every bedroom. -/
theorem C78_heat_demand {S : Sheets} (hS : Spec.CompleteSheets S) (air : List ℚ) {rows : List HouseRow}
    (hb : ∀ r ∈ rows, 1 ≤ r.bedrooms ∧ r.bedrooms ≤ 5) (hotWater : ℚ) :
    ∃ ys, aggregate S air rows hotWater = .ok ys ∧ ys.length = 8760 ∧
      ∀ hour < 8760, ∃ sheet, Spec.sheetOfHour S air hour = some sheet ∧
        ys[hour]? = some ((rows.map fun r => Spec.groupHeat sheet r (Spec.areaOf r.bedrooms) (hour % 24)).sum +
          (rows.map fun r => (r.bedrooms : ℚ) * r.number).sum * (3/2) * (hotWater / 24)) := by
  have hrow : ∀ r ∈ rows, ∃ xs, houseProfile S air r = .ok xs := by
    intro r hr
    obtain ⟨xs, h, _⟩ := houseProfile_ok hS air (floorArea_eq (hb r hr).1 (hb r hr).2)
    exact ⟨xs, h⟩
  obtain ⟨ps, hps⟩ := mapM_total hrow
  refine ⟨(List.range 8760).map fun hour => ps.foldl (fun acc p => acc + p.getD hour 0) 0 + hotWaterHour rows hotWater,
    ?_, by rw [List.length_map, List.length_range], fun hour hh => ?_⟩
  · unfold aggregate profilesFromInputs
    rw [hps]
    rfl
  · obtain ⟨sheet, hs, _⟩ := hS (Spec.nearestSheet (((air.drop (24 * (hour / 24))).take 24).sum / 24))
      (by unfold Spec.nearestSheet; omega) (by unfold Spec.nearestSheet; omega)
    have hs' : Spec.sheetOfHour S air hour = some sheet := hs
    refine ⟨sheet, hs', ?_⟩
    rw [List.getElem?_map, List.getElem?_range hh, Option.map_some, foldl_add_eq]
    have hsum : (ps.map fun p => p.getD hour 0) =
        rows.map fun r => Spec.groupHeat sheet r (Spec.areaOf r.bedrooms) (hour % 24) := by
      have h2 := mapM_ok_iff.1 hps
      clear hps hrow
      induction h2 with
      | nil => rfl
      | cons h1 _ ih =>
        rename_i r xs _ _ _
        rw [List.map_cons, List.map_cons, ih (fun z hz => hb z (List.mem_cons_of_mem _ hz))]
        have hr := hb r (List.mem_cons_self ..)
        obtain ⟨zs, hz, _, hz2⟩ := houseProfile_ok hS air (floorArea_eq hr.1 hr.2)
        obtain ⟨sheet', hs2, hz3⟩ := hz2 hour hh
        rw [h1] at hz
        rw [hs'] at hs2
        rw [List.getD_eq_getElem?_getD, Except.ok.inj hz, hz3, Option.some.inj hs2]
        rfl
    rw [hsum]
    unfold hotWaterHour
    rw [foldl_add_eq]
    exact congrArg some (by ring)

/-- The sheets of a made-up data file. -/
def Samples.sheets : Sheets := fun _ => some fun type age =>
  (List.range 24).map fun h => (h : ℚ) + age + if type = .detached then 1 else 0

example : Spec.CompleteSheets Samples.sheets := fun _ _ _ => ⟨_, rfl, fun _ _ => by simp⟩

/-- C78 is false without the bound on bedrooms: six bedrooms, or a studio, give an error. -/
theorem C78_bedrooms (S : Sheets) (air : List ℚ) (r : HouseRow) (rows : List HouseRow) (hotWater : ℚ)
    (hb : r.bedrooms = 0 ∨ 6 ≤ r.bedrooms) (ys : List ℚ) : aggregate S air (r :: rows) hotWater ≠ .ok ys := by
  intro h
  unfold aggregate profilesFromInputs at h
  rw [FixedOrder.except_bind_ok] at h
  obtain ⟨ps, hps, _⟩ := h
  obtain ⟨xs, _, hx⟩ := mapM_get hps (i := 0) (x := r) rfl
  unfold houseProfile at hx
  rw [FixedOrder.except_bind_ok] at hx
  obtain ⟨ds, hds, _⟩ := hx
  obtain ⟨d, _, hd⟩ := mapM_range_get hds (t := 0) (by norm_num)
  unfold dayProfile floorFactor at hd
  have hf : floorArea r.bedrooms = none := by
    unfold floorArea
    split <;> first | rfl | omega
  rw [hf] at hd
  cases hS : S (sheetName (clampTemp (dayTemp air 0))) with
  | none => rw [hS] at hd; exact absurd hd (by intro h; cases h)
  | some s => rw [hS] at hd; exact absurd hd (by intro h; cases h)

example (air ys : List ℚ) : aggregate Samples.sheets air [⟨.midFloorFlat, 1, 6, 4⟩, ⟨.detached, 0, 3, 12⟩] 3 ≠ .ok ys :=
  C78_bedrooms _ _ _ _ _ (Or.inr (le_refl 6)) ys

/-- C79: the heat demand of two settlements under the same weather is the sum of their demands. -/
theorem C79_additive {S : Sheets} {air : List ℚ} {rows rows' : List HouseRow} {hotWater : ℚ} {ys zs : List ℚ}
    (h1 : aggregate S air rows hotWater = .ok ys) (h2 : aggregate S air rows' hotWater = .ok zs) :
    ∃ ws, aggregate S air (rows ++ rows') hotWater = .ok ws ∧
      ∀ hour < 8760, ∃ y z, ys[hour]? = some y ∧ zs[hour]? = some z ∧ ws[hour]? = some (y + z) := by
  unfold aggregate profilesFromInputs at h1 h2
  rw [FixedOrder.except_bind_ok] at h1 h2
  obtain ⟨ps, hps, h1⟩ := h1
  obtain ⟨qs, hqs, h2⟩ := h2
  refine ⟨(List.range 8760).map fun hour => (ps ++ qs).foldl (fun acc p => acc + p.getD hour 0) 0 + hotWaterHour (rows ++ rows') hotWater, ?_, fun hour hh => ?_⟩
  · unfold aggregate profilesFromInputs
    rw [List.mapM_append, hps, hqs]
    rfl
  · rw [← Except.ok.inj h1, ← Except.ok.inj h2]
    refine ⟨_, _, by rw [List.getElem?_map, List.getElem?_range hh]; rfl, by rw [List.getElem?_map, List.getElem?_range hh]; rfl, ?_⟩
    rw [List.getElem?_map, List.getElem?_range hh]
    refine congrArg some ?_
    unfold hotWaterHour
    simp only [foldl_add_eq, List.map_append, List.sum_append]
    ring

example (air : List ℚ) : ∃ ys zs ws, aggregate Samples.sheets air [⟨.detached, 0, 3, 12⟩] 3 = .ok ys ∧
    aggregate Samples.sheets air [⟨.midTerrace, 1, 2, 5⟩] 3 = .ok zs ∧
    aggregate Samples.sheets air [⟨.detached, 0, 3, 12⟩, ⟨.midTerrace, 1, 2, 5⟩] 3 = .ok ws ∧
    ∃ y z, ys[8759]? = some y ∧ zs[8759]? = some z ∧ ws[8759]? = some (y + z) := by
  obtain ⟨ys, h1, -⟩ := C78_heat_demand (S := Samples.sheets) (fun _ _ _ => ⟨_, rfl, fun _ _ => by simp⟩) air
    (rows := [⟨.detached, 0, 3, 12⟩]) (by decide) 3
  obtain ⟨zs, h2, -⟩ := C78_heat_demand (S := Samples.sheets) (fun _ _ _ => ⟨_, rfl, fun _ _ => by simp⟩) air
    (rows := [⟨.midTerrace, 1, 2, 5⟩]) (by decide) 3
  obtain ⟨ws, h3, h⟩ := C79_additive h1 h2
  exact ⟨ys, zs, ws, h1, h2, h3, h 8759 (by norm_num)⟩

/-- C79: the heat demand is never negative if the standard profiles, the numbers of houses and the hot
water are not. -/
theorem C79_never_negative {S : Sheets} (hS : ∀ name sheet, S name = some sheet → ∀ type age, ∀ x ∈ sheet type age, 0 ≤ x)
    {air : List ℚ} {rows : List HouseRow} {hotWater : ℚ} {ys : List ℚ} (hn : ∀ r ∈ rows, 0 ≤ r.number) (hw : 0 ≤ hotWater)
    (h : aggregate S air rows hotWater = .ok ys) : ∀ y ∈ ys, 0 ≤ y := by
  unfold aggregate profilesFromInputs at h
  rw [FixedOrder.except_bind_ok] at h
  obtain ⟨ps, hps, h⟩ := h
  have hp : ∀ p ∈ ps, ∀ x ∈ p, 0 ≤ x := by
    intro p hp x hx
    have h2 := mapM_ok_iff.1 hps
    obtain ⟨r, hr, hrp⟩ : ∃ r ∈ rows, houseProfile S air r = .ok p := by
      clear hps h hn
      induction h2 with
      | nil => cases hp
      | cons h1 _ ih =>
        rcases List.mem_cons.mp hp with rfl | hp
        · exact ⟨_, List.mem_cons_self .., h1⟩
        · obtain ⟨r, hr, hrp⟩ := ih hp
          exact ⟨r, List.mem_cons_of_mem _ hr, hrp⟩
    unfold houseProfile at hrp
    rw [FixedOrder.except_bind_ok] at hrp
    obtain ⟨ds, hds, hrp⟩ := hrp
    rw [← Except.ok.inj hrp] at hx
    obtain ⟨d, hd, hx⟩ := List.mem_flatten.mp hx
    obtain ⟨i, hi, rfl⟩ := List.getElem_of_mem hd
    have hi' : i < 365 := by rw [mapM_length hds, List.length_range] at hi; exact hi
    obtain ⟨d', hd1, hd2⟩ := mapM_range_get hds hi'
    rw [List.getElem?_eq_getElem hi] at hd1
    rw [Option.some.inj hd1] at hx
    unfold dayProfile at hd2
    split at hd2
    · cases hd2
    · rename_i sheet hsheet
      unfold floorFactor at hd2
      split at hd2
      · cases hd2
      · rename_i f hf
        split_ifs at hd2
        rw [← Except.ok.inj hd2] at hx
        obtain ⟨x0, hx0, rfl⟩ := List.mem_map.mp hx
        have hx0' := hS _ _ hsheet _ _ x0 hx0
        have hf0 : 0 ≤ f := by
          split at hf
          · rename_i a ha
            rw [← Except.ok.inj hf]
            refine FixedOrder.pyRound_nonneg (div_nonneg ?_ ?_) _
            · unfold floorArea at ha
              split at ha <;> first | (rw [← Option.some.inj ha]; norm_num) | cases ha
            · unfold standardArea
              split <;> norm_num
          · cases hf
        exact mul_nonneg (mul_nonneg hx0' hf0) (hn r hr)
  intro y hy
  rw [← Except.ok.inj h] at hy
  obtain ⟨hour, _, rfl⟩ := List.mem_map.mp hy
  refine add_nonneg ?_ ?_
  · rw [foldl_add_eq, zero_add]
    refine List.sum_nonneg fun x hx => ?_
    obtain ⟨p, hpp, rfl⟩ := List.mem_map.mp hx
    rw [List.getD_eq_getElem?_getD]
    cases hg : p[hour]? with
    | none => exact le_refl _
    | some v => exact hp p hpp v (List.mem_of_getElem? hg)
  · unfold hotWaterHour
    rw [foldl_add_eq, zero_add]
    have : 0 ≤ (rows.map fun r => (r.bedrooms : ℚ) * r.number).sum := by
      refine List.sum_nonneg fun x hx => ?_
      obtain ⟨r, hr, rfl⟩ := List.mem_map.mp hx
      exact mul_nonneg (by exact_mod_cast Nat.zero_le _) (hn r hr)
    positivity

example (air : List ℚ) : ∃ ys, aggregate Samples.sheets air [⟨.detached, 0, 3, 12⟩] 3 = .ok ys ∧ ∀ y ∈ ys, 0 ≤ y := by
  obtain ⟨ys, h, -⟩ := C78_heat_demand (S := Samples.sheets) (fun _ _ _ => ⟨_, rfl, fun _ _ => by simp⟩) air
    (rows := [⟨.detached, 0, 3, 12⟩]) (by decide) 3
  refine ⟨ys, h, C79_never_negative ?_ (by decide) (by norm_num) h⟩
  rintro name sheet hs type age x hx
  cases hs
  obtain ⟨i, hi, rfl⟩ := List.mem_map.mp hx
  have h1 : (0 : ℚ) ≤ i := by
    obtain ⟨k, -, hk⟩ := List.mem_flatMap.mp hi
    rw [List.mem_singleton.mp hk]
    exact_mod_cast Nat.zero_le _
  have h2 : (0 : ℚ) ≤ age := by exact_mod_cast Nat.zero_le _
  split_ifs <;> linarith

theorem sum_map_mul (x : ℚ) : ∀ xs : List ℚ, (xs.map fun n => x * n).sum = x * xs.sum
  | [] => by simp
  | y :: ys => by rw [List.map_cons, List.sum_cons, List.sum_cons, sum_map_mul x ys]; ring

/-- C79: the electricity profile of a settlement is the standard one times its number of houses. -/
theorem C79_electricity {table : Season → DayType → List ℚ} {year : ℕ} {counts ys zs : List ℚ}
    (h : profileFromInput table year counts = .ok ys) (hz : yearTimeSeries table year = .ok zs) :
    ys = zs.map (· * counts.sum) := by
  unfold profileFromInput at h
  rw [hz] at h
  cases counts with
  | nil => cases h
  | cons c cs =>
    rw [← Except.ok.inj h]
    refine List.map_congr_left fun x _ => ?_
    rw [foldl_add_eq (fun n => x * n), zero_add, sum_map_mul x]

example : ∃ table ys zs, profileFromInput table 2017 [3, 4] = .ok ys ∧ yearTimeSeries table 2017 = .ok zs ∧
    ys = zs.map (· * 7) := by
  obtain ⟨zs, hz, -⟩ := C58_year_series (table := fun s d => (List.range 24).map fun h =>
    (h : ℚ) + (if s = .wtr then 1 else 0) + if d = .sun then 1/2 else 0) (by simp) 2017
  obtain ⟨ys, hy⟩ : ∃ ys, profileFromInput (fun s d => (List.range 24).map fun h =>
      (h : ℚ) + (if s = .wtr then 1 else 0) + if d = .sun then 1/2 else 0) 2017 [3, 4] = .ok ys := by
    unfold profileFromInput
    rw [hz]
    exact ⟨_, rfl⟩
  exact ⟨_, ys, zs, hy, hz, (C79_electricity hy hz).trans (by norm_num)⟩

end Verif
