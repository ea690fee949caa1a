import Verif.Spec.TimeIndex
import Verif.Props.Grid

/-!
# Which hour an entry of the weather stands for (C127)
-/

set_option autoImplicit false

namespace Verif
open TimeIndex Tariff Spec

theorem monthOf_leap {y y' : ℕ} (h : isLeap y = isLeap y') (d : ℕ) : monthOf y d = monthOf y' d := by
  unfold monthOf daysBeforeMonth
  rw [h]

theorem monthOf_ok (y : ℕ) {d : ℕ} (hd : d < 365) : 1 ≤ monthOf y d ∧ monthOf y d ≤ 12 ∧
    daysBeforeMonth y (monthOf y d) ≤ d ∧ d < daysBeforeMonth y (monthOf y d) + monthLength y (monthOf y d) := by
  have key : ∀ y', isLeap y = isLeap y' → (∀ d < 365, 1 ≤ monthOf y' d ∧ monthOf y' d ≤ 12 ∧
      daysBeforeMonth y' (monthOf y' d) ≤ d ∧
      d < daysBeforeMonth y' (monthOf y' d) + monthLength y' (monthOf y' d)) →
      1 ≤ monthOf y d ∧ monthOf y d ≤ 12 ∧ daysBeforeMonth y (monthOf y d) ≤ d ∧
        d < daysBeforeMonth y (monthOf y d) + monthLength y (monthOf y d) := by
    intro y' h H
    have e1 : ∀ m, daysBeforeMonth y m = daysBeforeMonth y' m := fun m => by unfold daysBeforeMonth; rw [h]
    have e2 : ∀ m, monthLength y m = monthLength y' m := fun m => by
      unfold monthLength
      simp only [← isLeap_iff, h]
    rw [monthOf_leap h, e1, e2]
    exact H d hd
  cases h : isLeap y
  · exact key 2017 (h.trans (by decide)) (by decide +kernel)
  · exact key 2012 (h.trans (by decide)) (by decide +kernel)

/-- The label `t` hours into any year is hour `t` of that year in the calendar. -/
theorem C127_calendar {y n : ℕ} (hn : dateAt n = ⟨y, 1, 1⟩) {t : ℕ} (ht : t < 8760) :
    Shows (stamp y t) (dateAt (n + t / 24)) (t % 24) := by
  refine ⟨?_, rfl⟩
  obtain ⟨h1, h2, h3, h4⟩ := monthOf_ok y (d := t / 24) (by omega)
  have hord := dateAt_ok n
  rw [hn] at hord
  obtain ⟨hok, hord⟩ := hord
  have h := dateAt_ordinal (D := ⟨y, monthOf y (t / 24), t / 24 - daysBeforeMonth y (monthOf y (t / 24)) + 1⟩)
    ⟨hok.year, ⟨h1, h2⟩, by dsimp only; omega, by dsimp only; omega⟩
  have e : toOrdinal y (monthOf y (t / 24)) (t / 24 - daysBeforeMonth y (monthOf y (t / 24)) + 1) - 1 = n + t / 24 := by
    unfold toOrdinal at hord ⊢
    have : daysBeforeMonth y 1 = 0 := by simp [daysBeforeMonth]
    dsimp only at hord
    omega
  dsimp only at h
  rw [e] at h
  exact h.symm

/-- 1 January 2017 in the calendar. -/
theorem newYear2017 : dateAt 736329 = ⟨2017, 1, 1⟩ := by
  have h := dateAt_ordinal (D := ⟨2017, 1, 1⟩) ⟨by decide, by decide, by decide⟩
  have e : toOrdinal 2017 1 1 - 1 = 736329 := by decide
  dsimp only at h
  rw [e] at h; exact h

/-- 1 January 2012 in the calendar. -/
theorem newYear2012 : dateAt 734502 = ⟨2012, 1, 1⟩ := by
  have h := dateAt_ordinal (D := ⟨2012, 1, 1⟩) ⟨by decide, by decide, by decide⟩
  have e : toOrdinal 2012 1 1 - 1 = 734502 := by decide
  dsimp only at h
  rw [e] at h; exact h

theorem index_get {f : ℕ → Stamp} {t : ℕ} (ht : t < 8760) : ((List.range 8760).map f)[t]? = some (f t) := by
  rw [List.getElem?_map, List.getElem?_range ht]
  rfl

/-- Two hours of a year never have the same label. -/
theorem stamp_inj {y : ℕ} (hy : 1 ≤ y) {t t' : ℕ} (ht : t < 8760) (ht' : t' < 8760) (h : stamp y t = stamp y t') :
    t = t' := by
  have hn := dateAt_ordinal (D := ⟨y, 1, 1⟩) ⟨hy, ⟨le_refl _, by norm_num⟩, le_refl _, monthLength_pos _ _⟩
  dsimp only at hn
  obtain ⟨a, -⟩ := C127_calendar hn ht
  obtain ⟨b, -⟩ := C127_calendar hn ht'
  have e : t % 24 = t' % 24 := congrArg Stamp.hour h
  rw [h] at a
  have q := a.symm.trans b
  have o1 := (dateAt_ok (toOrdinal y 1 1 - 1 + t / 24)).2
  have o2 := (dateAt_ok (toOrdinal y 1 1 - 1 + t' / 24)).2
  rw [q] at o1
  omega

/-- C127: the heat pump's weather has each hour of 2017, in order and none twice: entry `t` is hour `t % 24` of the
day `t / 24` days after 1 January. -/
theorem C127_heat_pump : timeindex.length = 8760 ∧ timeindex.Nodup ∧ ∀ t < 8760,
    ∃ s, timeindex[t]? = some s ∧ Shows s (dateAt (736329 + t / 24)) (t % 24) := by
  refine ⟨by simp [timeindex], ?_, fun t ht => ⟨_, index_get ht, C127_calendar newYear2017 ht⟩⟩
  refine List.Nodup.map_on (fun x hx y hy h => ?_) List.nodup_range
  exact stamp_inj (by decide) (List.mem_range.mp hx) (List.mem_range.mp hy) h

/-- C127: the weather of the turbines is labelled with the hours of 2012, which has a 29 February. -/
theorem C127_turbines : windIndex.length = 8760 ∧ ∀ t < 8760,
    ∃ s, windIndex[t]? = some s ∧ Shows s (dateAt (734502 + t / 24)) (t % 24) :=
  ⟨by simp [windIndex], fun t ht => ⟨_, index_get ht, C127_calendar newYear2012 ht⟩⟩

theorem wind_days : (∀ d < 59, monthOf 2012 d = monthOf 2017 d ∧
      d - daysBeforeMonth 2012 (monthOf 2012 d) = d - daysBeforeMonth 2017 (monthOf 2017 d)) ∧
    (∀ d < 365, 59 ≤ d → ¬ (monthOf 2012 d = monthOf 2017 d ∧
      d - daysBeforeMonth 2012 (monthOf 2012 d) = d - daysBeforeMonth 2017 (monthOf 2017 d))) ∧
    (∀ d < 365, ¬ (monthOf 2012 d = 12 ∧ d - daysBeforeMonth 2012 (monthOf 2012 d) + 1 = 31)) :=
  ⟨by decide +kernel, by decide +kernel, by decide +kernel⟩

/-- C127: turbines and heat pump have the same day and month for an entry exactly until the end of February; from then
on the turbines are a day behind, and they have no 31 December. -/
theorem C127_turbines_a_day_behind {t : ℕ} (ht : t < 8760) {s w : Stamp} (hs : timeindex[t]? = some s)
    (hw : windIndex[t]? = some w) :
    ((w.month, w.day) = (s.month, s.day) ↔ t < 59 * 24) ∧ w.hour = s.hour ∧ (w.month, w.day) ≠ (12, 31) := by
  have e1 : stamp 2017 t = s := Option.some.inj ((index_get ht).symm.trans hs)
  have e2 : stamp 2012 t = w := Option.some.inj ((index_get ht).symm.trans hw)
  rw [← e1, ← e2]
  clear hs hw e1 e2
  obtain ⟨a, b, c⟩ := wind_days
  refine ⟨⟨fun h => ?_, fun h => ?_⟩, rfl, fun h => ?_⟩
  · by_contra hlt
    have h1 : monthOf 2012 (t / 24) = monthOf 2017 (t / 24) := congrArg Prod.fst h
    have h2 : t / 24 - daysBeforeMonth 2012 (monthOf 2012 (t / 24)) + 1
      = t / 24 - daysBeforeMonth 2017 (monthOf 2017 (t / 24)) + 1 := congrArg Prod.snd h
    exact b (t / 24) (by omega) (by omega) ⟨h1, by omega⟩
  · obtain ⟨h1, h2⟩ := a (t / 24) (by omega)
    show (monthOf 2012 (t / 24), _ + 1) = (monthOf 2017 (t / 24), _ + 1)
    rw [h2, h1]
  · exact c (t / 24) (by omega) ⟨congrArg Prod.fst h, congrArg Prod.snd h⟩

example : ∃ s w, timeindex[8759]? = some s ∧ windIndex[8759]? = some w ∧ s = ⟨2017, 12, 31, 23⟩ ∧
    w = ⟨2012, 12, 30, 23⟩ :=
  ⟨_, _, index_get (by decide), index_get (by decide), by decide +kernel, by decide +kernel⟩

theorem pv_get {t : ℕ} (ht : t < 8760) : pvIndex[t]? = some (stamp 2017 (t + londonOffset t)) := index_get ht

/-- C127: the clocks go forward in hour 2017, which is 1:00 on the last Sunday of March 2017, and back in hour 7225,
1:00 on the last Sunday of October. -/
theorem C127_summer_time : LastSunday (736329 + 2017 / 24) ∧ LastSunday (736329 + 7225 / 24) ∧
    Shows (stamp 2017 2017) (dateAt (736329 + 2017 / 24)) 1 ∧ (stamp 2017 2017).month = 3 ∧
    Shows (stamp 2017 7225) (dateAt (736329 + 7225 / 24)) 1 ∧ (stamp 2017 7225).month = 10 := by
  have a := C127_calendar newYear2017 (t := 2017) (by decide)
  have b := C127_calendar newYear2017 (t := 7225) (by decide)
  have e1 : (⟨(stamp 2017 2017).year, (stamp 2017 2017).month, (stamp 2017 2017).day⟩ : Date) = ⟨2017, 3, 26⟩ := by
    decide +kernel
  have e2 : (⟨(stamp 2017 7225).year, (stamp 2017 7225).month, (stamp 2017 7225).day⟩ : Date) = ⟨2017, 10, 29⟩ := by
    decide +kernel
  refine ⟨⟨by rw [weekdayAt_eq]; decide, ?_⟩, ⟨by rw [weekdayAt_eq]; decide, ?_⟩, a, by decide +kernel, b,
    by decide +kernel⟩
  · rw [← a.1, e1]; decide
  · rw [← b.1, e2]; decide

/-- C127: the panels' weather has 8760 labels. Entry `t` stands for the instant `t` hours after the start of 2017 in
Greenwich; its label is what the clock in London shows then: the same hour in winter and the next hour in summer. -/
theorem C127_panels : pvIndex.length = 8760 ∧ ∀ t < 8760, ∃ s, pvIndex[t]? = some s ∧
    (¬ (2017 ≤ t ∧ t < 7225) → Shows s (dateAt (736329 + t / 24)) (t % 24)) ∧
    (2017 ≤ t ∧ t < 7225 → Shows s (dateAt (736329 + (t + 1) / 24)) ((t + 1) % 24)) := by
  refine ⟨by simp [pvIndex], fun t ht => ⟨_, pv_get ht, fun h => ?_, fun h => ?_⟩⟩
  · unfold londonOffset
    rw [if_neg h]
    exact C127_calendar newYear2017 ht
  · unfold londonOffset
    rw [if_pos h]
    exact C127_calendar newYear2017 (by omega)

/-- C127: so the panels' labels differ from the heat pump's exactly in summer time. -/
theorem C127_panels_an_hour_ahead {t : ℕ} (ht : t < 8760) : pvIndex[t]? = timeindex[t]? ↔ ¬ (2017 ≤ t ∧ t < 7225) := by
  rw [pv_get ht, show timeindex[t]? = some (stamp 2017 t) from index_get ht]
  unfold londonOffset
  by_cases h : 2017 ≤ t ∧ t < 7225
  · rw [if_pos h]
    refine ⟨fun e => ?_, fun e => absurd h e⟩
    have : (t + 1) % 24 = t % 24 := congrArg Stamp.hour (Option.some.inj e)
    omega
  · rw [if_neg h]
    exact ⟨fun _ => h, fun _ => rfl⟩

/-- C127: one label is missing among the panels', 1:00 on 26 March, and one is there twice, 1:00 on 29 October. -/
theorem C127_panels_missing_and_double : (⟨2017, 3, 26, 1⟩ : Stamp) ∉ pvIndex ∧
    pvIndex[7224]? = some ⟨2017, 10, 29, 1⟩ ∧ pvIndex[7225]? = some ⟨2017, 10, 29, 1⟩ := by
  refine ⟨fun h => ?_, ?_, ?_⟩
  · obtain ⟨t, ht, e⟩ := List.mem_map.mp h
    have ht' : t < 8760 := List.mem_range.mp ht
    have e' : stamp 2017 (t + londonOffset t) = stamp 2017 2017 := e.trans (by decide +kernel)
    have := stamp_inj (by decide) (by unfold londonOffset; split_ifs <;> omega) (by decide) e'
    unfold londonOffset at this
    split_ifs at this <;> omega
  · rw [pv_get (by decide)]; decide +kernel
  · rw [pv_get (by decide)]; decide +kernel

/-- C127: the tariff by weekday and hour takes no notice of summer time. In summer the price of entry `t` is that of
hour `t % 24`, when the clock of the panels shows the next hour. -/
theorem C127_tariff_ignores_summer_time {g : Grid} {power xs : List ℚ} {table : Weekday → List ℚ}
    (ht : g.tariff = "Variable periods") (hy : g.year = some (2017 : ℕ)) (hp : g.periods = some table)
    (h : importCostSeries g power = .ok (some xs)) {t : ℕ} (hs : 2017 ≤ t ∧ t < 7225) :
    xs[t]? = (table (weekdayAt (736329 + t / 24)))[t % 24]? ∧
      ∃ s, pvIndex[t]? = some s ∧ s.hour = (t + 1) % 24 ∧ s.hour ≠ t % 24 := by
  refine ⟨C39_calendar_partial ht hy hp h newYear2017 (by omega) (fun h => absurd h (by decide)), ?_⟩
  obtain ⟨s, h1, -, h3⟩ := C127_panels.2 t (by omega)
  exact ⟨s, h1, (h3 hs).2, by rw [(h3 hs).2]; omega⟩

/-- A cheap hour at noon: in July it is paid when the panels' clock shows 13:00. -/
example : ∃ (g : Grid) (table : Weekday → List ℚ) (xs : List ℚ), g.tariff = "Variable periods" ∧
    g.periods = some table ∧ importCostSeries g [] = .ok (some xs) ∧
    xs[4500]? = (table (weekdayAt (736329 + 4500 / 24)))[12]? ∧ ∃ s, pvIndex[4500]? = some s ∧ s.hour = 13 := by
  let table : Weekday → List ℚ := fun _ => List.replicate 12 120 ++ [50] ++ List.replicate 11 120
  let g : Grid := { tariff := "Variable periods", year := some (2017 : ℕ), periods := some table }
  obtain ⟨xs, hx⟩ := variablePeriods_total (g := g) rfl rfl (by decide) (by decide)
    (table := table) (by intro d; cases d <;> decide)
  have h : importCostSeries g [] = .ok (some xs) := by
    unfold importCostSeries
    rw [if_neg (by decide), if_pos rfl, hx]
    rfl
  obtain ⟨a, s, b, c, -⟩ := C127_tariff_ignores_summer_time rfl rfl rfl h (t := 4500) (by decide)
  exact ⟨g, table, xs, rfl, rfl, h, a, s, b, c⟩

end Verif
