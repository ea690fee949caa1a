import Verif.Spec.Grid
import Verif.Lemmas.ListM
import Mathlib.Tactic.IntervalCases
import Mathlib.Data.List.GetD

/-!
# Lemmas on the calendar and the tariffs
-/

set_option autoImplicit false

namespace Verif
open Tariff Spec FixedOrder

/-! ## Calendar -/

theorem isLeap_iff (y : ℕ) : isLeap y = true ↔ LeapYear y := by
  unfold isLeap LeapYear
  simp only [decide_eq_true_eq, Nat.dvd_iff_mod_eq_zero]

theorem daysBeforeYear_succ {y : ℕ} (hy : 1 ≤ y) :
    daysBeforeYear (y + 1) = daysBeforeYear y + (if LeapYear y then 366 else 365) := by
  unfold daysBeforeYear
  by_cases h : LeapYear y
  · rw [if_pos h]
    obtain ⟨h4, h⟩ := h
    rcases h with h | h <;> omega
  · rw [if_neg h]
    unfold LeapYear at h
    have : ¬ 4 ∣ y ∨ (100 ∣ y ∧ ¬ 400 ∣ y) := by tauto
    rcases this with h | h <;> omega

theorem daysBeforeMonth_succ (y : ℕ) {m : ℕ} (h1 : 1 ≤ m) (h2 : m < 12) :
    daysBeforeMonth y (m + 1) = daysBeforeMonth y m + monthLength y m := by
  unfold daysBeforeMonth monthLength
  simp only [isLeap_iff]
  by_cases h : LeapYear y <;> interval_cases m <;> simp [h]

theorem daysBeforeYear_december (y : ℕ) :
    daysBeforeMonth y 12 + 31 = if LeapYear y then 366 else 365 := by
  unfold daysBeforeMonth
  simp only [isLeap_iff]
  by_cases h : LeapYear y <;> simp [h]

theorem monthLength_pos (y m : ℕ) : 1 ≤ monthLength y m := by
  unfold monthLength; split_ifs <;> omega

theorem nextDay_ok {D : Date} (h : DateOk D) : DateOk (nextDay D) ∧
    toOrdinal (nextDay D).year (nextDay D).month (nextDay D).day
      = toOrdinal D.year D.month D.day + 1 := by
  obtain ⟨y, m, d⟩ := D
  obtain ⟨hy, ⟨hm1, hm2⟩, hd1, hd2⟩ := h
  dsimp only at *
  unfold nextDay
  dsimp only
  split_ifs with h1 h2
  · exact ⟨⟨hy, ⟨hm1, hm2⟩, by dsimp only; omega, by dsimp only; omega⟩, by unfold toOrdinal; dsimp only; omega⟩
  · refine ⟨⟨hy, ⟨by dsimp only; omega, by dsimp only; omega⟩, le_refl _, monthLength_pos _ _⟩, ?_⟩
    unfold toOrdinal; dsimp only
    rw [daysBeforeMonth_succ y hm1 h2]; omega
  · refine ⟨⟨by dsimp only; omega, by dsimp only; omega, le_refl _, monthLength_pos _ _⟩, ?_⟩
    have h12 : m = 12 := by omega
    subst h12
    have hd : d = 31 := by
      have : monthLength y 12 = 31 := by simp [monthLength]
      omega
    subst hd
    unfold toOrdinal; dsimp only
    rw [daysBeforeYear_succ hy, ← daysBeforeYear_december]
    have : daysBeforeMonth (y + 1) 1 = 0 := by simp [daysBeforeMonth]
    omega

theorem dateAt_ok (n : ℕ) : DateOk (dateAt n) ∧
    toOrdinal (dateAt n).year (dateAt n).month (dateAt n).day = n + 1 := by
  induction n with
  | zero => exact ⟨⟨by decide, by decide, by decide⟩, by decide⟩
  | succ n ih =>
    have : dateAt (n + 1) = nextDay (dateAt n) := by
      unfold dateAt; rw [Function.iterate_succ_apply']
    rw [this]
    have h := nextDay_ok ih.1
    exact ⟨h.1, by rw [h.2, ih.2]⟩

theorem daysBeforeYear_mono {y z : ℕ} (hy : 1 ≤ y) (h : y < z) :
    daysBeforeYear y + (if LeapYear y then 366 else 365) ≤ daysBeforeYear z := by
  induction z, h using Nat.le_induction with
  | base => rw [daysBeforeYear_succ hy]
  | succ k hk ih => rw [daysBeforeYear_succ (by omega : 1 ≤ k)]; omega

theorem daysBeforeMonth_mono (y : ℕ) {m k : ℕ} (h1 : 1 ≤ m) (h : m < k) (hk : k ≤ 12) :
    daysBeforeMonth y m + monthLength y m ≤ daysBeforeMonth y k := by
  induction k, h using Nat.le_induction with
  | base => rw [daysBeforeMonth_succ y h1 (by omega)]
  | succ j hj ih => rw [daysBeforeMonth_succ y (by omega) (by omega)]; have := ih (by omega); omega

theorem daysBeforeMonth_add_le (y : ℕ) {m : ℕ} (h1 : 1 ≤ m) (h2 : m ≤ 12) :
    daysBeforeMonth y m + monthLength y m ≤ if LeapYear y then 366 else 365 := by
  rcases Nat.lt_or_ge m 12 with h | h
  · have := daysBeforeMonth_mono y h1 h (le_refl _)
    rw [← daysBeforeYear_december]; omega
  · have : m = 12 := by omega
    subst this
    rw [← daysBeforeYear_december]
    simp [monthLength]

theorem ordinal_inj {D E : Date} (hD : DateOk D) (hE : DateOk E)
    (h : toOrdinal D.year D.month D.day = toOrdinal E.year E.month E.day) : D = E := by
  obtain ⟨y, m, d⟩ := D
  obtain ⟨z, k, e⟩ := E
  obtain ⟨hy, ⟨hm1, hm2⟩, hd1, hd2⟩ := hD
  obtain ⟨hz, ⟨hk1, hk2⟩, he1, he2⟩ := hE
  unfold toOrdinal at h
  dsimp only at *
  have a1 := daysBeforeMonth_add_le y hm1 hm2
  have a2 := daysBeforeMonth_add_le z hk1 hk2
  have hyz : y = z := by
    rcases lt_trichotomy y z with hlt | heq | hlt
    · have := daysBeforeYear_mono hy hlt; omega
    · exact heq
    · have := daysBeforeYear_mono hz hlt; omega
  subst hyz
  have hmk : m = k := by
    rcases lt_trichotomy m k with hlt | heq | hlt
    · have := daysBeforeMonth_mono y hm1 hlt hk2; omega
    · exact heq
    · have := daysBeforeMonth_mono y hk1 hlt hm2; omega
  subst hmk
  have : d = e := by omega
  subst this; rfl

/-- Every date of the calendar is reached, on the day `datetime` numbers it. -/
theorem dateAt_ordinal {D : Date} (hD : DateOk D) :
    dateAt (toOrdinal D.year D.month D.day - 1) = D := by
  have h := dateAt_ok (toOrdinal D.year D.month D.day - 1)
  refine ordinal_inj h.1 hD ?_
  rw [h.2]
  have : 1 ≤ toOrdinal D.year D.month D.day := by unfold toOrdinal; have := hD.day.1; omega
  omega

theorem weekdayAt_eq (n : ℕ) : weekdayAt n = weekdayOfNumber n := by
  induction n with
  | zero => rfl
  | succ n ih =>
    have : weekdayAt (n + 1) = nextWeekday (weekdayAt n) := by
      unfold weekdayAt; rw [Function.iterate_succ_apply']
    rw [this, ih]
    unfold weekdayOfNumber
    have h : n % 7 < 7 := Nat.mod_lt _ (by decide)
    have h2 : (n + 1) % 7 = (n % 7 + 1) % 7 := by omega
    rw [h2]
    generalize n % 7 = k at h
    interval_cases k <;> rfl

theorem weekdayAt_add_seven (n k : ℕ) : weekdayAt (n + 7 * k) = weekdayAt n := by
  rw [weekdayAt_eq, weekdayAt_eq]; unfold weekdayOfNumber
  rw [show (n + 7 * k) % 7 = n % 7 by omega]

/-- `strftime` names the weekday of the calendar. -/
theorem dayName_ok {year : ℤ} {m d : ℕ} {w : Weekday} (h : dayName year m d = .ok w) {n : ℕ}
    (hn : dateAt n = ⟨year.toNat, m, d⟩) : w = weekdayAt n := by
  unfold dayName at h
  split_ifs at h with hy
  · cases h
    have := (dateAt_ok n).2
    rw [hn] at this
    dsimp only at this
    rw [this, weekdayAt_eq]
    unfold weekdayOfNumber
    rw [show (n + 1 + 6) % 7 = n % 7 by omega]

theorem dayName_year {year : ℤ} {m d : ℕ} {w : Weekday} (h : dayName year m d = .ok w) :
    1 ≤ year ∧ year ≤ 9999 := by
  unfold dayName at h
  split_ifs at h with hy
  · omega

theorem dayName_total {year : ℤ} (h1 : 1 ≤ year) (h2 : year ≤ 9999) (m d : ℕ) :
    ∃ w, dayName year m d = .ok w := by
  unfold dayName
  rw [if_neg (by omega)]
  exact ⟨_, rfl⟩

/-! ## Rounding -/

theorem roundHalfEven_mono {a b : ℚ} (h : a ≤ b) : roundHalfEven a ≤ roundHalfEven b := by
  have hf : ⌊a⌋ ≤ ⌊b⌋ := Int.floor_le_floor h
  rcases hf.lt_or_eq with hlt | heq
  · have ha : roundHalfEven a ≤ ⌊a⌋ + 1 := by unfold roundHalfEven; dsimp only; split_ifs <;> omega
    have hb : ⌊b⌋ ≤ roundHalfEven b := by unfold roundHalfEven; dsimp only; split_ifs <;> omega
    omega
  · unfold roundHalfEven
    dsimp only
    rw [heq]
    split_ifs <;> first | omega | (exfalso; linarith)

theorem pyRound_mono {a b : ℚ} (h : a ≤ b) (n : ℕ) : pyRound a n ≤ pyRound b n := by
  unfold pyRound
  have h10 : (0 : ℚ) < 10 ^ n := by positivity
  have := roundHalfEven_mono (mul_le_mul_of_nonneg_right h h10.le)
  have : (roundHalfEven (a * 10 ^ n) : ℚ) ≤ roundHalfEven (b * 10 ^ n) := by exact_mod_cast this
  gcongr

theorem roundHalfEven_near {q : ℚ} {j : ℤ} (h1 : (j : ℚ) - 1 / 2 < q) (h2 : q < j + 1 / 2) :
    roundHalfEven q = j := by
  rcases lt_or_ge q j with h | h
  · have hf : ⌊q⌋ = j - 1 := by rw [Int.floor_eq_iff]; push_cast; constructor <;> linarith
    unfold roundHalfEven; dsimp only; rw [hf]; push_cast
    rw [if_neg (by linarith), if_pos (by linarith)]; omega
  · have hf : ⌊q⌋ = j := by rw [Int.floor_eq_iff]; constructor <;> linarith
    unfold roundHalfEven; dsimp only; rw [hf]
    rw [if_pos (by linarith)]

/-! ## Bands -/

theorem intMedian_between {xs : List ℕ} (hs : xs.Pairwise (· < ·)) {m : ℕ}
    (h : intMedian xs = .ok m) : ∃ a ∈ xs, ∃ b ∈ xs, a ≤ m ∧ m ≤ b := by
  unfold intMedian at h
  dsimp only at h
  split_ifs at h with h0 h1
  · cases h
    have hlt : xs.length / 2 < xs.length := by omega
    have hmem : xs.getD (xs.length / 2) 0 ∈ xs := by
      rw [List.getD_eq_getElem _ _ hlt]; exact List.getElem_mem _
    exact ⟨_, hmem, _, hmem, le_refl _, le_refl _⟩
  · cases h
    have hlt : xs.length / 2 < xs.length := by omega
    have hlt' : xs.length / 2 - 1 < xs.length := by omega
    have hle : xs[xs.length / 2 - 1] < xs[xs.length / 2] := by
      rw [List.pairwise_iff_getElem] at hs
      exact hs _ _ hlt' hlt (by omega)
    refine ⟨xs[xs.length / 2 - 1], List.getElem_mem _, xs[xs.length / 2], List.getElem_mem _, ?_, ?_⟩
    · rw [List.getD_eq_getElem _ _ hlt, List.getD_eq_getElem _ _ hlt']; omega
    · rw [List.getD_eq_getElem _ _ hlt, List.getD_eq_getElem _ _ hlt']; omega

theorem intMedian_total {xs : List ℕ} (h : xs ≠ []) : ∃ m, intMedian xs = .ok m := by
  have : xs.length ≠ 0 := by simpa using h
  unfold intMedian; dsimp only
  rw [if_neg this]
  split_ifs <;> exact ⟨_, rfl⟩

theorem mem_matchingIndices {n i : ℕ} {p : Option ℚ} :
    i ∈ matchingIndices n p ↔ i < n ∧ some (pyRound (((i : ℚ) + 1) / n) 2) = p := by
  unfold matchingIndices
  rw [List.mem_filter, List.mem_range, decide_eq_true_iff]

theorem matchingIndices_pairwise (n : ℕ) (p : Option ℚ) : (matchingIndices n p).Pairwise (· < ·) := by
  unfold matchingIndices
  exact List.Pairwise.filter _ List.pairwise_lt_range

/-- The index of a band has the asked exceedance. -/
theorem median_index {n m : ℕ} {p : Option ℚ} (h : intMedian (matchingIndices n p) = .ok m) :
    m < n ∧ some (pyRound (((m : ℚ) + 1) / n) 2) = p := by
  obtain ⟨a, ha, b, hb, h1, h2⟩ := intMedian_between (matchingIndices_pairwise n p) h
  obtain ⟨ha1, ha2⟩ := mem_matchingIndices.1 ha
  obtain ⟨hb1, hb2⟩ := mem_matchingIndices.1 hb
  have hn : (0 : ℚ) < n := by have : 0 < n := by omega
                              exact_mod_cast this
  refine ⟨by omega, ?_⟩
  have h1' : (a : ℚ) ≤ m := by exact_mod_cast h1
  have h2' : (m : ℚ) ≤ b := by exact_mod_cast h2
  have e1 : pyRound (((a : ℚ) + 1) / n) 2 ≤ pyRound (((m : ℚ) + 1) / n) 2 :=
    pyRound_mono (by gcongr) 2
  have e2 : pyRound (((m : ℚ) + 1) / n) 2 ≤ pyRound (((b : ℚ) + 1) / n) 2 :=
    pyRound_mono (by gcongr) 2
  rw [← ha2] at hb2 ⊢
  simp only [Option.some.injEq] at hb2 ⊢
  exact le_antisymm (hb2 ▸ e2) e1

theorem sortDesc_perm (xs : List ℚ) : (sortDesc xs).Perm xs := List.perm_insertionSort _ xs

theorem sortDesc_sorted (xs : List ℚ) : (sortDesc xs).Pairwise (· ≥ ·) :=
  List.pairwise_insertionSort (· ≥ ·) xs

theorem sortDesc_length (xs : List ℚ) : (sortDesc xs).length = xs.length := (sortDesc_perm xs).length_eq

/-- What `band` picks. -/
theorem band_ok {power : List ℚ} {p : Option ℚ} {x : ℚ} (h : band power p = .ok x) :
    ∃ m, m < power.length ∧ some (pyRound (((m : ℚ) + 1) / power.length) 2) = p ∧
      (sortDesc power)[m]? = some x := by
  unfold band at h
  rw [except_bind_ok] at h
  obtain ⟨m, hm, hx⟩ := h
  obtain ⟨h1, h2⟩ := median_index hm
  refine ⟨m, h1, h2, ?_⟩
  unfold position at hx
  split at hx
  · rename_i y hy; cases hx; exact hy
  · cases hx

theorem sorted_get_antitone {xs : List ℚ} (h : xs.Pairwise (· ≥ ·)) {i j : ℕ} {a b : ℚ}
    (hij : i ≤ j) (hi : xs[i]? = some a) (hj : xs[j]? = some b) : b ≤ a := by
  rcases hij.lt_or_eq with hlt | heq
  · obtain ⟨hi', rfl⟩ := List.getElem?_eq_some_iff.1 hi
    obtain ⟨hj', rfl⟩ := List.getElem?_eq_some_iff.1 hj
    rw [List.pairwise_iff_getElem] at h
    exact h _ _ hi' hj' hlt
  · subst heq; rw [hi] at hj; cases hj; exact le_refl _

theorem countP_ge_of_sorted {xs : List ℚ} (h : xs.Pairwise (· ≥ ·)) {m : ℕ} {x : ℚ}
    (hx : xs[m]? = some x) : m + 1 ≤ xs.countP (fun p => x ≤ p) ∧ xs.countP (fun p => x < p) ≤ m := by
  obtain ⟨hm, hx'⟩ := List.getElem?_eq_some_iff.1 hx
  constructor
  · have h1 : (xs.take (m + 1)).countP (fun p => x ≤ p) = (xs.take (m + 1)).length := by
      rw [List.countP_eq_length]
      intro a ha
      obtain ⟨i, hi, rfl⟩ := List.getElem_of_mem ha
      rw [List.length_take] at hi
      rw [List.getElem_take, decide_eq_true_iff]
      exact sorted_get_antitone h (by omega : i ≤ m) (List.getElem?_eq_getElem (by omega)) hx
    have h2 := (List.take_sublist (m + 1) xs).countP_le (p := fun p => decide (x ≤ p))
    rw [h1, List.length_take] at h2
    omega
  · have h1 : (xs.drop m).countP (fun p => x < p) = 0 := by
      rw [List.countP_eq_zero]
      intro a ha
      obtain ⟨i, hi, rfl⟩ := List.getElem_of_mem ha
      rw [List.length_drop] at hi
      rw [List.getElem_drop, decide_eq_true_iff, not_lt]
      exact sorted_get_antitone h (by omega : m ≤ m + i) hx (List.getElem?_eq_getElem (by omega))
    have h2 : xs.countP (fun p => decide (x < p)) =
        (xs.take m).countP (fun p => decide (x < p)) + (xs.drop m).countP (fun p => decide (x < p)) := by
      rw [← List.countP_append, List.take_append_drop]
    have h3 := List.countP_le_length (p := fun p => decide (x < p)) (l := xs.take m)
    rw [List.length_take] at h3
    omega

/-- A whole percentage is met by some hour of a full year. -/
theorem matchingIndices_ne_nil {p : ℚ} (h : WholePercent p) : matchingIndices 8760 (some p) ≠ [] := by
  obtain ⟨j, hj, rfl⟩ := h
  suffices ∃ i, i ∈ matchingIndices 8760 (some ((j : ℚ) / 100)) from
    List.ne_nil_of_mem this.choose_spec
  -- hour `i + 1` is the last before `j` per cent of the year, or the first one
  let i := (876 * j) / 10 - 1
  refine ⟨i, mem_matchingIndices.2 ⟨by show (876 * j) / 10 - 1 < 8760; omega, ?_⟩⟩
  congr 1
  unfold pyRound
  have hi : (8760 : ℕ) * j ≤ 100 * (i + 1) + 99 ∧ 100 * (i + 1) ≤ 8760 * j + 100 := by
    show (8760 : ℕ) * j ≤ 100 * ((876 * j) / 10 - 1 + 1) + 99 ∧
      100 * ((876 * j) / 10 - 1 + 1) ≤ 8760 * j + 100
    omega
  have h1 : (8760 : ℚ) * j ≤ 100 * (i + 1) + 99 := by exact_mod_cast hi.1
  have h2 : 100 * ((i : ℚ) + 1) ≤ 8760 * j + 100 := by exact_mod_cast hi.2
  have : roundHalfEven (((i : ℚ) + 1) / (8760 : ℕ) * 10 ^ 2) = (j : ℤ) := by
    apply roundHalfEven_near
    · push_cast
      have : ((i : ℚ) + 1) / 8760 * 10 ^ 2 = (100 * (i + 1)) / 8760 := by ring
      rw [this, lt_div_iff₀ (by norm_num)]; linarith
    · push_cast
      have : ((i : ℚ) + 1) / 8760 * 10 ^ 2 = (100 * (i + 1)) / 8760 := by ring
      rw [this, div_lt_iff₀ (by norm_num)]; linarith
  rw [this]; push_cast; norm_num

theorem band_total {power : List ℚ} (hp : power.length = 8760) {p : ℚ} (h : WholePercent p) :
    ∃ x, band power (some p) = .ok x := by
  unfold band
  rw [hp]
  obtain ⟨m, hm⟩ := intMedian_total (matchingIndices_ne_nil h)
  have hlt := (median_index hm).1
  refine ⟨(sortDesc power)[m]'(by rw [sortDesc_length]; omega), ?_⟩
  rw [except_bind_ok]
  refine ⟨m, hm, ?_⟩
  unfold position
  rw [List.getElem?_eq_getElem (by rw [sortDesc_length]; omega)]

/-! ## Series -/

theorem need_ok {α : Type} {o : Option α} {x : α} : need o = .ok x ↔ o = some x := by
  cases o with
  | none => simp [need]
  | some y => simp [need]

theorem column_ok {xs : List ℚ} {t : ℕ} {x : ℚ} : column xs t = .ok x ↔ xs[t]? = some x := by
  unfold column
  split
  · rename_i y hy; rw [hy]; constructor <;> (intro h; cases h; rfl)
  · rename_i hy; rw [hy]; constructor <;> (intro h; cases h)

theorem position_ok {xs : List ℚ} {t : ℕ} {x : ℚ} : position xs t = .ok x ↔ xs[t]? = some x := by
  unfold position
  split
  · rename_i y hy; rw [hy]; constructor <;> (intro h; cases h; rfl)
  · rename_i hy; rw [hy]; constructor <;> (intro h; cases h)

theorem flatRates_ok {g : Grid} {xs : List ℚ} :
    flatRatesSeries g = .ok xs ↔ ∃ p, g.flatRate = some p ∧ xs = List.replicate 8760 p := by
  unfold flatRatesSeries
  simp only [except_bind_ok, need_ok, except_pure_ok]
  constructor <;> rintro ⟨p, h, h'⟩ <;> exact ⟨p, h, h'.symm⟩

theorem dayPrices_get {table : Weekday → List ℚ} {d : Weekday} {xs : List ℚ}
    (h : dayPrices table d = .ok xs) {t : ℕ} (ht : t < 24) : xs[t]? = (table d)[t]? := by
  obtain ⟨y, h1, h2⟩ := mapM_range_get h ht
  rw [h1, ← column_ok.1 h2]

theorem dayPrices_length {table : Weekday → List ℚ} {d : Weekday} {xs : List ℚ}
    (h : dayPrices table d = .ok xs) : xs.length = 24 := by
  rw [mapM_length h, List.length_range]

theorem dayPrices_total {table : Weekday → List ℚ} (h : ∀ d, (table d).length = 24) (d : Weekday) :
    ∃ xs, dayPrices table d = .ok xs := by
  apply mapM_total
  intro t ht
  rw [List.mem_range, ← h d] at ht
  exact ⟨(table d)[t], column_ok.2 (List.getElem?_eq_getElem ht)⟩

/-- One week of the loop L159-162. -/
def weekPrices (table : Weekday → List ℚ) (dayList : List Weekday) : Except PyErr (List ℚ) := do
  let days ← dayList.mapM (dayPrices table)
  return days.flatten

theorem weekPrices_ok {table : Weekday → List ℚ} {dayList : List Weekday} {xs : List ℚ}
    (h : weekPrices table dayList = .ok xs) : xs.length = dayList.length * 24 ∧
      ∀ k j, j < 24 → ∀ d, dayList[k]? = some d → xs[k * 24 + j]? = (table d)[j]? := by
  unfold weekPrices at h
  simp only [except_bind_ok, except_pure_ok] at h
  obtain ⟨days, hdays, rfl⟩ := h
  have hlen : ∀ ys ∈ days, ys.length = 24 := by
    intro ys hys
    obtain ⟨d, -, hd⟩ := forall₂_mem_right (mapM_ok_iff.1 hdays) hys
    exact dayPrices_length hd
  refine ⟨by rw [flatten_length hlen, mapM_length hdays], ?_⟩
  intro k j hj d hd
  obtain ⟨ys, hy1, hy2⟩ := mapM_get hdays hd
  rw [flatten_get hlen hj, hy1, Option.bind_some, dayPrices_get hy2 hj]

theorem variablePeriods_ok {g : Grid} {xs : List ℚ} (h : variablePeriodsSeries g = .ok xs) :
    ∃ year table, g.year = some year ∧ g.periods = some table ∧ 1 ≤ year ∧ year ≤ 9999 ∧
      xs.length = 8760 ∧
      (∀ d h, d < 364 → h < 24 → ∀ w, dayName year 1 (d % 7 + 1) = .ok w →
        xs[d * 24 + h]? = (table w)[h]?) ∧
      (∀ h, h < 24 → ∀ w, dayName year 12 31 = .ok w → xs[8736 + h]? = (table w)[h]?) := by
  unfold variablePeriodsSeries at h
  simp only [except_bind_ok, need_ok, except_pure_ok] at h
  obtain ⟨year, hy, dayList, hd, lastDay, hl, table, ht, weeks, hw, last, hlast, rfl⟩ := h
  have hw' : (List.range 52).mapM (fun _ => weekPrices table dayList) = .ok weeks := by
    rw [← hw]; rfl
  have hdl : dayList.length = 7 := by rw [mapM_length hd, List.length_range]
  have hlen : ∀ ys ∈ weeks, ys.length = 168 := by
    intro ys hys
    obtain ⟨_, -, hk⟩ := forall₂_mem_right (mapM_ok_iff.1 hw') hys
    rw [(weekPrices_ok hk).1, hdl]
  have hwl : weeks.length = 52 := by rw [mapM_length hw', List.length_range]
  have hfl : weeks.flatten.length = 8736 := by rw [flatten_length hlen, hwl]
  refine ⟨year, table, hy, ht, (dayName_year hl).1, (dayName_year hl).2, ?_, ?_, ?_⟩
  · rw [List.length_append, hfl, dayPrices_length hlast]
  · intro d h hd364 hh w hdn
    rw [List.getElem?_append_left (by omega)]
    have hd7 : d % 7 < 7 := Nat.mod_lt _ (by decide)
    have e : d * 24 + h = (d / 7) * 168 + ((d % 7) * 24 + h) := by omega
    rw [e, flatten_get hlen (by omega)]
    obtain ⟨ys, h1, h2⟩ := mapM_range_get hw' (show d / 7 < 52 by omega)
    obtain ⟨w', h3, h4⟩ := mapM_range_get hd hd7
    rw [hdn] at h4; cases h4
    rw [h1, Option.bind_some]
    exact (weekPrices_ok h2).2 _ _ hh _ h3
  · intro h hh w hdn
    rw [hl] at hdn; cases hdn
    rw [List.getElem?_append_right (by omega), hfl, show 8736 + h - 8736 = h by omega,
      dayPrices_get hlast hh]

theorem weekPrices_total {table : Weekday → List ℚ} (h : ∀ d, (table d).length = 24)
    (dayList : List Weekday) : ∃ xs, weekPrices table dayList = .ok xs := by
  obtain ⟨days, hd⟩ := mapM_total (f := dayPrices table) (xs := dayList)
    (fun d _ => dayPrices_total h d)
  exact ⟨days.flatten, by unfold weekPrices; rw [hd]; rfl⟩

theorem variablePeriods_total {g : Grid} {year : ℤ} {table : Weekday → List ℚ}
    (hy : g.year = some year) (ht : g.periods = some table) (h1 : 1 ≤ year) (h2 : year ≤ 9999)
    (h : ∀ d, (table d).length = 24) : ∃ xs, variablePeriodsSeries g = .ok xs := by
  obtain ⟨dl, hdl⟩ := mapM_total (f := fun d => dayName year 1 (d + 1)) (xs := List.range 7)
    (fun d _ => dayName_total h1 h2 1 (d + 1))
  obtain ⟨ld, hld⟩ := dayName_total h1 h2 12 31
  obtain ⟨ws, hws⟩ := mapM_total (f := fun (_ : ℕ) => weekPrices table dl) (xs := List.range 52)
    (fun _ _ => weekPrices_total h dl)
  obtain ⟨lp, hlp⟩ := dayPrices_total h ld
  refine ⟨ws.flatten ++ lp, ?_⟩
  unfold variablePeriodsSeries
  simp only [except_bind_ok, need_ok, except_pure_ok]
  exact ⟨year, hy, dl, hdl, ld, hld, table, ht, ws, hws, lp, hlp, rfl⟩

theorem wholesaleHour_ok {g : Grid} {wm : List ℚ} {d h : ℕ} {x : ℚ}
    (hx : wholesaleHour g wm d h = .ok x) : ∃ w mx, wm[h + d * 24]? = some w ∧ g.maximum = some mx ∧
      ((h = 16 ∨ h = 17 ∨ h = 18) → ∃ p, g.premium = some p ∧ x = min (22 / 10 * w + p) mx) ∧
      (¬ (h = 16 ∨ h = 17 ∨ h = 18) → x = min (22 / 10 * w) mx) := by
  unfold wholesaleHour at hx
  by_cases hh : h = 16 ∨ h = 17 ∨ h = 18
  · simp only [if_pos hh, except_bind_ok, column_ok, need_ok, except_pure_ok] at hx
    obtain ⟨w, hw, p, hp, mx, hmx, rfl⟩ := hx
    exact ⟨w, mx, hw, hmx, fun _ => ⟨p, hp, rfl⟩, fun h => absurd hh h⟩
  · simp only [if_neg hh, except_bind_ok, column_ok, need_ok, except_pure_ok] at hx
    obtain ⟨w, hw, mx, hmx, rfl⟩ := hx
    exact ⟨w, mx, hw, hmx, fun h => absurd h hh, fun _ => rfl⟩

theorem wholesaleHour_total {g : Grid} {wm : List ℚ} (hwm : wm.length = 8760) {p mx : ℚ}
    (hp : g.premium = some p) (hmx : g.maximum = some mx) {d h : ℕ} (hd : d < 365) (hh : h < 24) :
    ∃ x, wholesaleHour g wm d h = .ok x := by
  have hget := List.getElem?_eq_getElem (l := wm) (i := h + d * 24) (by omega)
  unfold wholesaleHour
  by_cases h' : h = 16 ∨ h = 17 ∨ h = 18
  · simp only [if_pos h', except_bind_ok, column_ok, need_ok, except_pure_ok]
    exact ⟨_, _, hget, _, hp, _, hmx, rfl⟩
  · simp only [if_neg h', except_bind_ok, column_ok, need_ok, except_pure_ok]
    exact ⟨_, _, hget, _, hmx, rfl⟩

theorem touWm_ok {g : Grid} {xs : List ℚ} (h : touWmSeries g = .ok xs) :
    ∃ wm, g.wholesale = some wm ∧ xs.length = 8760 ∧ ∀ d h, d < 365 → h < 24 →
      ∃ x, xs[d * 24 + h]? = some x ∧ wholesaleHour g wm d h = .ok x := by
  unfold touWmSeries at h
  simp only [except_bind_ok, need_ok, except_pure_ok] at h
  obtain ⟨wm, hwm, days, hd, rfl⟩ := h
  have hlen : ∀ ys ∈ days, ys.length = 24 := by
    intro ys hys
    obtain ⟨_, -, hk⟩ := forall₂_mem_right (mapM_ok_iff.1 hd) hys
    rw [mapM_length hk, List.length_range]
  refine ⟨wm, hwm, by rw [flatten_length hlen, mapM_length hd, List.length_range], ?_⟩
  intro d h hd' hh
  obtain ⟨ys, h1, h2⟩ := mapM_range_get hd hd'
  obtain ⟨x, h3, h4⟩ := mapM_range_get h2 hh
  exact ⟨x, by rw [flatten_get hlen hh, h1, Option.bind_some, h3], h4⟩

theorem touWm_total {g : Grid} {wm : List ℚ} (hw : g.wholesale = some wm) (hwm : wm.length = 8760)
    {p mx : ℚ} (hp : g.premium = some p) (hmx : g.maximum = some mx) :
    ∃ xs, touWmSeries g = .ok xs := by
  obtain ⟨days, hd⟩ := mapM_total
    (f := fun day => (List.range 24).mapM (wholesaleHour g wm day)) (xs := List.range 365)
    (fun d hd => mapM_total (fun h hh =>
      wholesaleHour_total hwm hp hmx (List.mem_range.1 hd) (List.mem_range.1 hh)))
  refine ⟨days.flatten, ?_⟩
  unfold touWmSeries
  simp only [except_bind_ok, need_ok, except_pure_ok]
  exact ⟨wm, hw, days, hd, rfl⟩

theorem ppaHour_ok {g : Grid} {w : WindFarm} {base : List ℚ} {t : ℕ} {x d q : ℚ}
    (hd : g.higherDiscount = some d) (hq : g.lowerPenalty = some q)
    (h : ppaHour g w base t = .ok x) : ∃ p b, w.power[t]? = some p ∧ base[t]? = some b ∧
      x = agreementPrice w.lowerBand w.higherBand d q p b := by
  unfold ppaHour at h
  simp only [except_bind_ok, position_ok] at h
  obtain ⟨p, hp, b, hb, h⟩ := h
  refine ⟨p, b, hp, hb, ?_⟩
  unfold agreementPrice
  split_ifs at h with h1 h2
  · rw [hd] at h
    simp only [except_bind_ok, need_ok, except_pure_ok] at h
    obtain ⟨d', hd', rfl⟩ := h
    cases hd'
    rw [if_pos h1]
  · rw [hq] at h
    simp only [except_bind_ok, need_ok, except_pure_ok] at h
    obtain ⟨d', hd', rfl⟩ := h
    cases hd'
    rw [if_neg h1, if_pos h2]
  · simp only [except_pure_ok] at h
    rw [if_neg h1, if_neg h2]; exact h.symm

theorem ppaSeries_length {g : Grid} {w : WindFarm} {base xs : List ℚ}
    (h : ppaSeries g w base = .ok xs) : xs.length = 8760 := by
  rw [mapM_length h, List.length_range]

theorem ppaSeries_total {g : Grid} {w : WindFarm} {base : List ℚ} {d q : ℚ}
    (hd : g.higherDiscount = some d) (hq : g.lowerPenalty = some q) (hw : w.power.length = 8760)
    (hb : base.length = 8760) : ∃ xs, ppaSeries g w base = .ok xs := by
  apply mapM_total
  intro t ht
  rw [List.mem_range] at ht
  have h1 := List.getElem?_eq_getElem (l := w.power) (i := t) (by omega)
  have h2 := List.getElem?_eq_getElem (l := base) (i := t) (by omega)
  unfold ppaHour
  rw [hd, hq, position_ok.2 h1, position_ok.2 h2]
  simp only [need, bind, Except.bind, pure, Except.pure]
  split_ifs <;> exact ⟨_, rfl⟩

theorem windFarmInfo_ok {g : Grid} {power : List ℚ} {w : WindFarm}
    (h : windFarmInfo g power = .ok w) : band power g.lowerPercent = .ok w.lowerBand ∧
      band power g.higherPercent = .ok w.higherBand ∧ w.power = power := by
  unfold windFarmInfo at h
  simp only [except_bind_ok, except_pure_ok] at h
  obtain ⟨lo, h1, hi, h2, rfl⟩ := h
  exact ⟨h1, h2, rfl⟩

theorem windFarmInfo_total {g : Grid} {power : List ℚ} {l u : ℚ} (hl : g.lowerPercent = some l)
    (hu : g.higherPercent = some u) (hp : power.length = 8760) (h1 : WholePercent l)
    (h2 : WholePercent u) : ∃ w, windFarmInfo g power = .ok w ∧ w.power = power := by
  obtain ⟨a, ha⟩ := band_total hp h1
  obtain ⟨b, hb⟩ := band_total hp h2
  refine ⟨⟨a, b, power⟩, ?_, rfl⟩
  unfold windFarmInfo
  rw [hl, hu, ha, hb]; rfl

end Verif
