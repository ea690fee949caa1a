import Verif.Spec.Power
import Verif.Props.Ignored
import Verif.Props.Grid

/-!
# Property C94, continued: for which workbooks there are power and prices for the year
-/

set_option autoImplicit false

namespace Verif
open Pandas Workbook InputReader Enums Simulation Spec FixedOrder Programme Tariff

namespace Power
variable {L : Libs} {wb : Pandas.Workbook} {size : ℤ × ℤ}

theorem lastRow_eq {sheet : String} {s : Pandas.Sheet} (hs : wb sheet = some s) :
    lastRow wb sheet = s.height := by
  unfold lastRow
  rw [hs]

theorem entries_length {sheet : String} {s : Pandas.Sheet} (hs : wb sheet = some s) (col : Char) (row : ℕ) :
    (entries wb sheet col row).length = s.height + 1 - row := by
  rw [entries_eq hs, List.length_map, List.length_range]

/-- The weather sheet of made objects. -/
theorem weather_height {o : Objects} (ht : TopRowsEmpty wb) (ho : objects L wb size = .ok o) :
    ∃ s, wb "Weather resources" = some s ∧ s.height = 8765 := by
  obtain ⟨air, -, -, -, ⟨s, hs, l, -⟩, -, -, -, hl, -⟩ := C93_temperatures ht ho
  exact ⟨s, hs, by omega⟩

theorem readable_of {o : Objects} (ht : TopRowsEmpty wb) (ho : objects L wb size = .ok o) : Readable wb := by
  obtain ⟨b, c, hr, -, -⟩ := objects_ok ho
  exact (C92_readable ht).mp ⟨b, hr⟩

theorem yearIndex_ok {n : ℕ} (h : n = 8760) : yearIndex n = .ok () := by
  unfold yearIndex
  rw [if_pos h]

theorem windWeather_made {w : Columns} {a b c d e : List Value} (ha : w.get "wind_speed_10" = .ok a)
    (hb : w.get "wind_speed_50" = .ok b) (hc : w.get "roughness_length" = .ok c)
    (hd : w.get "pressure" = .ok d) (he : w.get "air_temperature" = .ok e) (hl : a.length = 8760) :
    windWeather w = .ok (windSeries a b c d e) := by
  unfold windWeather
  rw [ha, okBind, hb, okBind, hc, okBind, hd, okBind, he, okBind, yearIndex_ok hl, okBind]
  rfl

theorem pvPower_made {m : ℚ} (hm : m ≠ 0) {ac : List (Option ℚ)} :
    (∃ xs, Renewables.pvPower m ac = .ok xs) ↔ 8760 ≤ ac.length := by
  unfold Renewables.pvPower
  rw [if_neg hm]
  constructor
  · rintro ⟨xs, h⟩
    obtain ⟨y, -, hy⟩ := mapM_range_get h (t := 8759) (by omega)
    unfold Renewables.corrected at hy
    split at hy
    · rename_i hp _
      have := (List.getElem?_eq_some_iff.mp hp).1
      rw [List.length_map] at this
      omega
    · cases hy
  · intro h
    apply mapM_total
    intro t ht
    rw [List.mem_range] at ht
    unfold Renewables.corrected Renewables.monthIndex
    have h1 := List.getElem?_eq_getElem (l := ac.map (Renewables.pvRaw m)) (i := t)
      (by rw [List.length_map]; omega)
    have h2 := List.getElem?_eq_getElem (l := Renewables.cf) (i := t / 730)
      (show t / 730 < 12 by omega)
    rw [h1, h2]
    exact ⟨_, rfl⟩

/-- The panels of made objects have power exactly if the sheets and pvlib allow. -/
theorem panels_iff {o : Objects} (ht : TopRowsEmpty wb) (ho : objects L wb size = .ok o) :
    (∃ xs, pvSeries L o.pv = .ok xs) ↔ PanelsReady L wb := by
  obtain ⟨sp, hsp, ⟨row, name, f1, n1, n2, n3, n4, n5⟩, ⟨site, f2, n6, n7⟩⟩ := C91_pv_partial ht ho
  obtain ⟨w, -, -, hw, hg⟩ := Depends.site_get' ht (readable_of ht ho) ho
  obtain ⟨-, -, -, -, hinv, -⟩ := site_columns ht ho
  obtain ⟨ws, hws, hh⟩ := weather_height ht ho
  have hlen : ∀ col, (entries wb "Weather resources" col 6).length = 8760 := fun col => by
    rw [entries_length hws]; omega
  simp only [List.forall_mem_cons, List.not_mem_nil, false_implies, implies_true, and_true] at hg
  obtain ⟨g1, g2, g3, g4, -, -, -, g8⟩ := hg
  have hpvw : pvWeather w = .ok ([("dhi", entries wb "Weather resources" 'D' 6),
      ("ghi", entries wb "Weather resources" 'E' 6), ("dni", entries wb "Weather resources" 'F' 6),
      ("wind_speed_10", entries wb "Weather resources" 'G' 6),
      ("air_temperature", entries wb "Weather resources" 'K' 6)].filter
        (fun p => p.2.all Option.isSome)) := by
    unfold pvWeather
    rw [g1, okBind, g2, okBind, g3, okBind, g4, okBind, g8, okBind]
    dsimp only
    rw [yearIndex_ok (hlen 'D'), okBind]
    rfl
  constructor
  · rintro ⟨xs, hx⟩ s row' site' name' hs' r1 r2 r3
    cases Option.some.inj (hsp.symm.trans hs')
    cases firstComplete_unique f1 r1
    cases firstComplete_unique f2 r2
    have e : name' = name := Except.ok.inj (congrArg textOf (r3.symm.trans n1))
    subst e
    unfold pvSeries at hx
    obtain ⟨m, hm, hx⟩ := except_bind_ok.mp hx
    rw [n3] at hm
    refine ⟨m, numOf_ok.mp hm, fun h0 => ?_⟩
    rw [if_neg h0, hw] at hx
    obtain ⟨out, hout, hx⟩ := except_bind_ok.mp hx
    obtain ⟨a, b, c, ga, gb, gc, hl, k1, k2, k3, k4, k5⟩ := pvWeather_ok hout
    cases Except.ok.inj (g1.symm.trans ga)
    cases Except.ok.inj (g2.symm.trans gb)
    cases Except.ok.inj (g3.symm.trans gc)
    rw [hinv, k4, k5, n2, n4, n5, n6, n7] at hx
    split at hx
    · rename_i x y z hx' hy' hz'
      obtain ⟨rfl, j1⟩ := k1 x hx'
      obtain ⟨rfl, j2⟩ := k2 y hy'
      obtain ⟨rfl, j3⟩ := k3 z hz'
      obtain ⟨ac, hac, hx⟩ := except_bind_ok.mp hx
      refine ⟨?_, ac, hac, (pvPower_made h0).mp ⟨xs, hx⟩⟩
      simp only [List.forall_mem_cons, List.not_mem_nil, false_implies, implies_true, and_true]
      exact ⟨⟨hlen _, j1⟩, ⟨hlen _, j2⟩, ⟨hlen _, j3⟩⟩
    · cases hx
  · intro h
    obtain ⟨m, hm, hr⟩ := h sp row site name hsp f1 f2 n1
    unfold pvSeries
    rw [n3, numOf_ok.mpr hm, okBind]
    by_cases h0 : m = 0
    · rw [if_pos h0]
      unfold Renewables.pvPower
      rw [if_pos h0]
      exact ⟨_, rfl⟩
    · obtain ⟨hc, ac, hac, hl⟩ := hr h0
      simp only [List.forall_mem_cons, List.not_mem_nil, false_implies, implies_true, and_true] at hc
      obtain ⟨c1, c2, c3⟩ := hc
      have a1 := List.all_eq_true.mpr c1.2
      have a2 := List.all_eq_true.mpr c2.2
      have a3 := List.all_eq_true.mpr c3.2
      rw [if_neg h0, hw, hpvw, okBind]
      obtain ⟨b1, hb1⟩ : ∃ rest : Columns, (rest.lookup "temp_air" = none ∧ rest.lookup "wind_speed" = none) ∧
          [("dhi", entries wb "Weather resources" 'D' 6),
          ("ghi", entries wb "Weather resources" 'E' 6), ("dni", entries wb "Weather resources" 'F' 6),
          ("wind_speed_10", entries wb "Weather resources" 'G' 6),
          ("air_temperature", entries wb "Weather resources" 'K' 6)].filter
            (fun p => p.2.all Option.isSome) = ("dhi", entries wb "Weather resources" 'D' 6) ::
              ("ghi", entries wb "Weather resources" 'E' 6) ::
              ("dni", entries wb "Weather resources" 'F' 6) :: rest := by
        refine ⟨[("wind_speed_10", entries wb "Weather resources" 'G' 6),
          ("air_temperature", entries wb "Weather resources" 'K' 6)].filter
            (fun p => p.2.all Option.isSome), ?_, ?_⟩
        · rw [List.filter_cons, List.filter_cons, List.filter_nil]
          split_ifs <;> exact ⟨rfl, rfl⟩
        · rw [List.filter_cons, if_pos a1, List.filter_cons, if_pos a2, List.filter_cons, if_pos a3]
      rw [hb1.2]
      have l1 : ∀ (n : String) (x y z : List Value), n ∉ ["dhi", "ghi", "dni"] →
          List.lookup n (("dhi", x) :: ("ghi", y) :: ("dni", z) :: b1) = b1.lookup n := by
        intro n x y z hn
        simp only [List.mem_cons, List.not_mem_nil, or_false, not_or] at hn
        rw [List.lookup_cons, List.lookup_cons, List.lookup_cons, beq_false_of_ne hn.1,
          beq_false_of_ne hn.2.1, beq_false_of_ne hn.2.2]
      have l2 : ∀ (x y z : List Value),
          List.lookup "dhi" (("dhi", x) :: ("ghi", y) :: ("dni", z) :: b1) = some x ∧
          List.lookup "ghi" (("dhi", x) :: ("ghi", y) :: ("dni", z) :: b1) = some y ∧
          List.lookup "dni" (("dhi", x) :: ("ghi", y) :: ("dni", z) :: b1) = some z :=
        fun _ _ _ => ⟨rfl, rfl, rfl⟩
      rw [l1 "temp_air" _ _ _ (by decide), l1 "wind_speed" _ _ _ (by decide), hb1.1.1, hb1.1.2,
        (l2 _ _ _).1, (l2 _ _ _).2.1, (l2 _ _ _).2.2]
      dsimp only
      rw [hinv, n2, n4, n5, n6, n7, hac, okBind]
      exact (pvPower_made h0).mpr hl

/-- The turbines of made objects have power exactly if the sheets and windpowerlib allow. -/
theorem turbines_iff {o : Objects} (ht : TopRowsEmpty wb) (ho : objects L wb size = .ok o) :
    ((∃ xs, userSeries L o.windUser = .ok xs) ∧ (∃ xs, databaseSeries L o.windDatabase = .ok xs)) ↔
      TurbinesReady L wb := by
  obtain ⟨s, hs, ⟨r, f1, -, a2, a3, a4, a5⟩, a6, ⟨t, f2, a7, a8, a9, a10⟩⟩ := C91_turbines ht ho
  obtain ⟨w, w1, w2, -, hg⟩ := Depends.site_get' ht (readable_of ht ho) ho
  obtain ⟨ws, hws, hh⟩ := weather_height ht ho
  have hlen : ∀ col, (entries wb "Weather resources" col 6).length = 8760 := fun col => by
    rw [entries_length hws]; omega
  simp only [List.forall_mem_cons, List.not_mem_nil, false_implies, implies_true, and_true] at hg
  obtain ⟨-, -, -, g4, g5, g6, g7, g8⟩ := hg
  have hww : windWeather w = .ok (siteWind wb) := windWeather_made g4 g5 g6 g7 g8 (hlen 'G')
  have hu : (∃ xs, userSeries L o.windUser = .ok xs) ↔ ∃ m, Holds wb "Wind inputs" 'F' r m ∧ (m ≠ 0 →
      ∃ p, L.userTurbine (excel wb "Wind inputs" 'G' r) (excel wb "Wind inputs" 'D' r)
        (excel wb "Wind inputs" 'E' r) ((completeRows s [14, 15, 19, 20, 23] [0, 1, 4, 5, 6]).map
          (fun r => (excel wb "Wind inputs" 'D' r, excel wb "Wind inputs" 'C' r))) (siteWind wb) = .ok p) := by
    unfold userSeries
    rw [a2, a3, a4, a5, a6, w1, hww]
    constructor
    · rintro ⟨xs, hx⟩
      obtain ⟨m, hm, hx⟩ := except_bind_ok.mp hx
      refine ⟨m, numOf_ok.mp hm, fun h0 => ?_⟩
      rw [if_neg h0, okBind] at hx
      obtain ⟨p, hp, -⟩ := except_bind_ok.mp hx
      exact ⟨p, hp⟩
    · rintro ⟨m, hm, hx⟩
      rw [numOf_ok.mpr hm, okBind]
      by_cases h0 : m = 0
      · rw [if_pos h0]
        unfold Renewables.userPower
        rw [if_pos h0]
        exact ⟨_, rfl⟩
      · obtain ⟨p, hp⟩ := hx h0
        rw [if_neg h0, okBind, hp, okBind]
        unfold Renewables.userPower
        rw [if_neg h0]
        exact ⟨_, rfl⟩
  have hd : (∃ xs, databaseSeries L o.windDatabase = .ok xs) ↔ ∃ m, Holds wb "Wind inputs" 'F' t m ∧ (m ≠ 0 →
      ∃ p, L.dataTurbine (excel wb "Wind inputs" 'C' t) (excel wb "Wind inputs" 'D' t)
        (excel wb "Wind inputs" 'E' t) (siteWind wb) = .ok p) := by
    unfold databaseSeries
    rw [a7, a8, a9, a10, w2, hww]
    constructor
    · rintro ⟨xs, hx⟩
      obtain ⟨m, hm, hx⟩ := except_bind_ok.mp hx
      refine ⟨m, numOf_ok.mp hm, fun h0 => ?_⟩
      rw [if_neg h0, okBind] at hx
      obtain ⟨p, hp, -⟩ := except_bind_ok.mp hx
      exact ⟨p, hp⟩
    · rintro ⟨m, hm, hx⟩
      rw [numOf_ok.mpr hm, okBind]
      by_cases h0 : m = 0
      · rw [if_pos h0]
        unfold Renewables.databasePower
        rw [if_pos h0]
        exact ⟨_, rfl⟩
      · obtain ⟨p, hp⟩ := hx h0
        rw [if_neg h0, okBind, hp, okBind]
        unfold Renewables.databasePower
        rw [if_neg h0]
        exact ⟨_, rfl⟩
  rw [hu, hd]
  constructor
  · rintro ⟨h1, h2⟩ s' hs'
    cases Option.some.inj (hs.symm.trans hs')
    refine ⟨fun row hrow => ?_, fun row hrow => ?_⟩
    · cases firstComplete_unique f1 hrow
      exact h1
    · cases firstComplete_unique f2 hrow
      exact h2
  · intro h
    exact ⟨(h s hs).1 r f1, (h s hs).2 t f2⟩

/-- The power of the wind farm exists exactly if the sheet and windpowerlib allow, and then covers the year. -/
theorem farm_iff {c : Container} (hR : Readable wb) (ht : TopRowsEmpty wb) (hc : containerOf wb size = .ok c) :
    (∃ xs, farmSeries L c = .ok xs) ↔ ∃ m, Holds wb "Wind farm" 'F' 15 m ∧ (m ≠ 0 →
      lastRow wb "Wind farm" = 8779 ∧
      ∃ p, L.windFarm (excel wb "Wind farm" 'C' 15) (excel wb "Wind farm" 'D' 15)
        (excel wb "Wind farm" 'E' 15) (excel wb "Wind farm" 'F' 15) (excel wb "Wind farm" 'G' 15)
        (farmWind wb) = .ok p) := by
  have e1 := Depends.farm_get' ht hR hc
  obtain ⟨d1, -⟩ := farm_columns ht hc e1
  obtain ⟨s, hs, -, hh⟩ := hR.windFarm
  unfold farmSeries
  rw [d1, e1]
  simp only [okBind, dict_cons, reduceIte, String.reduceEq]
  constructor
  · rintro ⟨xs, hx⟩
    obtain ⟨m, hm, hx⟩ := except_bind_ok.mp hx
    refine ⟨m, numOf_ok.mp hm, fun h0 => ?_⟩
    rw [if_neg h0] at hx
    obtain ⟨out, hout, hx⟩ := except_bind_ok.mp hx
    obtain ⟨p, hp, -⟩ := except_bind_ok.mp hx
    obtain ⟨a, b, c, d, e, ha, hb, hc, hd, he, hl, rfl⟩ := windWeather_ok hout
    cases Except.ok.inj ha
    cases Except.ok.inj hb
    cases Except.ok.inj hc
    cases Except.ok.inj hd
    cases Except.ok.inj he
    rw [entries_length hs] at hl
    exact ⟨by rw [lastRow_eq hs]; omega, p, hp⟩
  · rintro ⟨m, hm, hx⟩
    rw [numOf_ok.mpr hm, okBind]
    by_cases h0 : m = 0
    · rw [if_pos h0]
      unfold Renewables.windFarmPower
      rw [if_pos h0]
      exact ⟨_, rfl⟩
    · obtain ⟨hl, p, hp⟩ := hx h0
      rw [lastRow_eq hs] at hl
      rw [if_neg h0, windWeather_made rfl rfl rfl rfl rfl (by rw [entries_length hs]; omega), okBind]
      unfold farmWind at hp
      rw [hp, okBind]
      unfold Renewables.windFarmPower
      rw [if_neg h0]
      exact ⟨_, rfl⟩

theorem farm_length {c : Container} (hL : FarmYear L) {xs : List ℚ} (h : farmSeries L c = .ok xs) :
    xs.length = 8760 := by
  unfold farmSeries at h
  simp only [except_bind_ok] at h
  obtain ⟨w, -, a, -, b, -, d, -, e, -, f, -, m, -, h⟩ := h
  by_cases hm : m = 0
  · rw [if_pos hm] at h
    unfold Renewables.windFarmPower Renewables.Frame.get at h
    rw [if_pos hm, if_pos rfl] at h
    rw [← Except.ok.inj h]
    exact List.length_replicate
  · rw [if_neg hm] at h
    simp only [except_bind_ok] at h
    obtain ⟨w, -, p, hp, h⟩ := h
    unfold Renewables.windFarmPower Renewables.Frame.get at h
    rw [if_neg hm, if_pos rfl] at h
    rw [← Except.ok.inj h, List.length_map]
    exact hL _ _ _ _ _ _ _ hp

theorem band_percent {power : List ℚ} {p x : ℚ} (h : band power (some p) = .ok x) : WholePercent p := by
  obtain ⟨m, hm, he, -⟩ := band_ok h
  have hp := Option.some.inj he
  have hn : (0 : ℚ) < power.length := by
    have : 0 < power.length := by omega
    exact_mod_cast this
  have h1 : ((m : ℚ) + 1) / power.length ≤ 1 := by
    rw [div_le_one hn]
    exact_mod_cast hm
  have h0 : 0 ≤ ((m : ℚ) + 1) / power.length := by positivity
  generalize ((m : ℚ) + 1) / power.length = q at hp h0 h1
  unfold pyRound at hp
  have l0 : roundHalfEven 0 ≤ roundHalfEven (q * 10 ^ 2) := roundHalfEven_mono (by positivity)
  have l1 : roundHalfEven (q * 10 ^ 2) ≤ roundHalfEven 100 := roundHalfEven_mono (by linarith)
  have z0 : roundHalfEven 0 = 0 := by decide +kernel
  have z1 : roundHalfEven 100 = 100 := by decide +kernel
  rw [z0] at l0
  rw [z1] at l1
  refine ⟨(roundHalfEven (q * 10 ^ 2)).toNat, by omega, ?_⟩
  have : (((roundHalfEven (q * 10 ^ 2)).toNat : ℤ) : ℚ) = (roundHalfEven (q * 10 ^ 2) : ℚ) := by
    rw [Int.toNat_of_nonneg l0]
  rw [← hp, ← this, Int.cast_natCast, show (10 : ℚ) ^ 2 = 100 by norm_num]

/-- The base price of a tariff. -/
def baseSeries (g : Grid) : Except PyErr (List ℚ) :=
  if g.tariff = "Flat rates" ∨ g.tariff = "Time of use - PPA + FR" then flatRatesSeries g
  else if g.tariff = "Variable periods" ∨ g.tariff = "Time of use - PPA + VP" then variablePeriodsSeries g
  else touWmSeries g

/-- The base prices of made objects exist exactly if the sheet covers the year. -/
theorem base_iff {o : Objects} (ht : TopRowsEmpty wb) (ho : objects L wb size = .ok o) :
    (∃ xs, baseSeries o.grid = .ok xs) ↔
      (o.grid.tariff = "Variable periods" ∨ o.grid.tariff = "Time of use - PPA + VP" →
        ∀ y : ℤ, Holds wb "Grid" 'N' 42 y → 1 ≤ y ∧ y ≤ 9999) ∧
      (o.grid.tariff = "Time of use - WM" ∨ o.grid.tariff = "Time of use - PPA + WM" →
        8771 ≤ lastRow wb "Grid") := by
  obtain ⟨V0, V1, V2, V3, V4, V5, V6, -⟩ := C91_tariff ho
  obtain ⟨-, -, -, -, -, -, -, -, G9, -⟩ := C91_grid ht ho
  obtain ⟨P1, P2⟩ := C91_prices ht ho
  unfold baseSeries
  by_cases hf : o.grid.tariff = "Flat rates" ∨ o.grid.tariff = "Time of use - PPA + FR"
  · rw [if_pos hf]
    obtain ⟨x, hx⟩ := Option.isSome_iff_exists.mp (V1.mpr hf)
    refine iff_of_true ⟨_, flatRates_ok.2 ⟨x, hx, rfl⟩⟩ ⟨fun h => ?_, fun h => ?_⟩ <;>
    · rcases hf with hf | hf <;> rcases h with h | h <;> exact absurd (hf.symm.trans h) (by decide)
  · rw [if_neg hf]
    by_cases hv : o.grid.tariff = "Variable periods" ∨ o.grid.tariff = "Time of use - PPA + VP"
    · rw [if_pos hv]
      obtain ⟨p, hp⟩ := Option.isSome_iff_exists.mp (V2.mpr hv)
      obtain ⟨y, hy⟩ := Option.isSome_iff_exists.mp (V3.mpr hv)
      constructor
      · rintro ⟨xs, hx⟩
        obtain ⟨y', p', hy', -, y1, y2, -⟩ := variablePeriods_ok hx
        cases Option.some.inj (hy.symm.trans hy')
        refine ⟨fun _ z hz => ?_, fun h => ?_⟩
        · have e : (z : ℚ) = (y : ℚ) := Except.ok.inj (congrArg numOf (hz.symm.trans (G9 y hy)))
          have e' : z = y := by exact_mod_cast e
          rw [e']
          exact ⟨y1, y2⟩
        · rcases hv with hv | hv <;> rcases h with h | h <;> exact absurd (hv.symm.trans h) (by decide)
      · rintro ⟨h, -⟩
        obtain ⟨y1, y2⟩ := h hv y (G9 y hy)
        exact variablePeriods_total hy hp y1 y2 (P1 p hp)
    · rw [if_neg hv]
      have hw : o.grid.tariff = "Time of use - WM" ∨ o.grid.tariff = "Time of use - PPA + WM" := by
        simp only [List.mem_cons, List.not_mem_nil, or_false] at V0
        rcases V0 with h | h | h | h | h | h
        · exact absurd (Or.inl h) hf
        · exact absurd (Or.inl h) hv
        · exact Or.inl h
        · exact absurd (Or.inr h) hf
        · exact Or.inr h
        · exact absurd (Or.inr h) hv
      obtain ⟨wm, hwm⟩ := Option.isSome_iff_exists.mp (V4.mpr hw)
      obtain ⟨a, ha⟩ := Option.isSome_iff_exists.mp (V5.mpr hw)
      obtain ⟨b, hb⟩ := Option.isSome_iff_exists.mp (V6.mpr hw)
      obtain ⟨s, hs, hl⟩ := P2 wm hwm
      rw [lastRow_eq hs]
      constructor
      · rintro ⟨xs, hx⟩
        obtain ⟨wm', hwm', -, hc⟩ := touWm_ok hx
        cases Option.some.inj (hwm.symm.trans hwm')
        obtain ⟨x, -, hx⟩ := hc 364 23 (by omega) (by omega)
        unfold wholesaleHour at hx
        dsimp only at hx
        obtain ⟨w, hw', -⟩ := except_bind_ok.mp hx
        have := (List.getElem?_eq_some_iff.mp (column_ok.mp hw')).1
        exact ⟨fun h => absurd h hv, fun _ => by omega⟩
      · rintro ⟨-, h⟩
        exact touWm_total hwm (by have := h hw; omega) ha hb

theorem prices_iff {o : Objects} {c : Container} (hL : FarmYear L) (ht : TopRowsEmpty wb)
    (hc : containerOf wb size = .ok c) (ho : objects L wb size = .ok o) :
    (∃ xs, importPrices L c o.grid = .ok xs) ↔ PricesReady L wb o.grid.tariff := by
  obtain ⟨V0, -, -, -, -, -, -, V7, V8, V9, V10⟩ := C91_tariff ho
  obtain ⟨-, -, -, -, G5, G6, -⟩ := C91_grid ht ho
  have hbase := base_iff ht ho
  have hmatch : ∀ power, (∃ xs, (do
      match ← importCostSeries o.grid power with
      | some prices => Except.ok prices
      | none => .error .typeError) = .ok xs) ↔ ∃ xs, importCostSeries o.grid power = .ok (some xs) := by
    intro power
    constructor
    · rintro ⟨xs, h⟩
      obtain ⟨os, hos, h⟩ := except_bind_ok.mp h
      cases os with
      | none => cases h
      | some ys => exact ⟨ys, hos⟩
    · rintro ⟨xs, h⟩
      rw [h, okBind]
      exact ⟨xs, rfl⟩
  by_cases hp : o.grid.tariff ∈ Spec.ppa
  · have hu : usesFarm o.grid = true := by
      unfold usesFarm
      simp only [Spec.ppa, List.mem_cons, List.not_mem_nil, or_false] at hp
      rcases hp with h | h | h <;> rw [h] <;> decide
    obtain ⟨l, hl⟩ := Option.isSome_iff_exists.mp (V7.mpr hp)
    obtain ⟨u, hu'⟩ := Option.isSome_iff_exists.mp (V8.mpr hp)
    obtain ⟨q, hq⟩ := Option.isSome_iff_exists.mp (V9.mpr hp)
    obtain ⟨d, hd⟩ := Option.isSome_iff_exists.mp (V10.mpr hp)
    have hfarm := farm_iff (L := L) (readable_of ht ho) ht hc
    have hser : ∀ power, (∃ xs, importCostSeries o.grid power = .ok (some xs)) ↔
        ∃ base w xs, baseSeries o.grid = .ok base ∧ windFarmInfo o.grid power = .ok w ∧
          ppaSeries o.grid w base = .ok xs := by
      intro power
      simp only [Spec.ppa, List.mem_cons, List.not_mem_nil, or_false] at hp
      unfold importCostSeries baseSeries
      rcases hp with h | h | h
      · rw [h, if_neg (by decide), if_neg (by decide), if_neg (by decide), if_neg (by decide), if_pos rfl,
          if_pos (by decide)]
        unfold flatRatesWind
        constructor
        · rintro ⟨xs, hx⟩
          obtain ⟨ys, hy, -⟩ := except_map_ok.1 hx
          simp only [except_bind_ok] at hy
          obtain ⟨b, hb, w, hw, hx⟩ := hy
          exact ⟨b, w, ys, hb, hw, hx⟩
        · rintro ⟨b, w, xs, hb, hw, hx⟩
          exact ⟨xs, except_map_ok.2 ⟨xs, by rw [hb, okBind, hw, okBind]; exact hx, rfl⟩⟩
      · rw [h, if_neg (by decide), if_neg (by decide), if_neg (by decide), if_pos rfl,
          if_neg (by decide), if_neg (by decide)]
        unfold touWmWindPpa
        constructor
        · rintro ⟨xs, hx⟩
          obtain ⟨ys, hy, -⟩ := except_map_ok.1 hx
          simp only [except_bind_ok] at hy
          obtain ⟨w, hw, b, hb, hx⟩ := hy
          exact ⟨b, w, ys, hb, hw, hx⟩
        · rintro ⟨b, w, xs, hb, hw, hx⟩
          exact ⟨xs, except_map_ok.2 ⟨xs, by rw [hw, okBind, hb, okBind]; exact hx, rfl⟩⟩
      · rw [h, if_neg (by decide), if_neg (by decide), if_neg (by decide), if_neg (by decide),
          if_neg (by decide), if_pos rfl, if_neg (by decide), if_pos (by decide)]
        unfold variablePeriodsWind
        constructor
        · rintro ⟨xs, hx⟩
          obtain ⟨ys, hy, -⟩ := except_map_ok.1 hx
          simp only [except_bind_ok] at hy
          obtain ⟨b, hb, w, hw, hx⟩ := hy
          exact ⟨b, w, ys, hb, hw, hx⟩
        · rintro ⟨b, w, xs, hb, hw, hx⟩
          exact ⟨xs, except_map_ok.2 ⟨xs, by rw [hb, okBind, hw, okBind]; exact hx, rfl⟩⟩
    have hlen : ∀ base, baseSeries o.grid = .ok base → base.length = 8760 := by
      intro base hb
      unfold baseSeries at hb
      split_ifs at hb
      · obtain ⟨x, -, rfl⟩ := flatRates_ok.1 hb
        exact List.length_replicate
      · obtain ⟨_, _, -, -, -, -, hl, -⟩ := variablePeriods_ok hb
        exact hl
      · obtain ⟨_, -, hl, -⟩ := touWm_ok hb
        exact hl
    have himp : (∃ xs, importPrices L c o.grid = .ok xs) ↔ ∃ power, farmSeries L c = .ok power ∧
        ∃ xs, importCostSeries o.grid power = .ok (some xs) := by
      unfold importPrices
      rw [if_pos hu]
      constructor
      · rintro ⟨xs, h⟩
        obtain ⟨power, hpw, h⟩ := except_bind_ok.mp h
        exact ⟨power, hpw, (hmatch power).mp ⟨xs, h⟩⟩
      · rintro ⟨power, hpw, h⟩
        rw [hpw, okBind]
        exact (hmatch power).mpr h
    rw [himp]
    constructor
    · rintro ⟨power, hpw, h⟩
      obtain ⟨base, w, xs, hb, hw, -⟩ := (hser power).mp h
      obtain ⟨b1, b2⟩ := hbase.mp ⟨base, hb⟩
      obtain ⟨w1, w2, -⟩ := windFarmInfo_ok hw
      rw [hl] at w1
      rw [hu'] at w2
      refine ⟨b1, b2, fun _ => ?_, fun _ => hfarm.mp ⟨power, hpw⟩⟩
      simp only [List.forall_mem_cons, List.not_mem_nil, false_implies, implies_true, and_true]
      exact ⟨⟨l, G5 l hl, band_percent w1⟩, ⟨u, G6 u hu', band_percent w2⟩⟩
    · intro R
      obtain ⟨base, hb⟩ := hbase.mpr ⟨R.year, R.market⟩
      obtain ⟨power, hpw⟩ := hfarm.mpr (R.farm hp)
      obtain ⟨l', l1, l2⟩ := R.percents hp 'J' (by decide)
      obtain ⟨u', u1, u2⟩ := R.percents hp 'K' (by decide)
      have el : l' = l := Except.ok.inj (congrArg numOf (l1.symm.trans (G5 l hl)))
      have eu : u' = u := Except.ok.inj (congrArg numOf (u1.symm.trans (G6 u hu')))
      rw [el] at l2
      rw [eu] at u2
      have hpl := farm_length hL hpw
      obtain ⟨w, hw, hw'⟩ := windFarmInfo_total hl hu' hpl l2 u2
      obtain ⟨xs, hx⟩ := ppaSeries_total (w := w) hd hq (by rw [hw']; exact hpl) (hlen base hb)
      exact ⟨power, hpw, (hser power).mpr ⟨base, w, xs, hb, hw, hx⟩⟩
  · have hu : ¬ usesFarm o.grid = true := by
      unfold usesFarm
      simp only [List.mem_cons, List.not_mem_nil, or_false] at V0
      rcases V0 with h | h | h | h | h | h
      · rw [h]; decide
      · rw [h]; decide
      · rw [h]; decide
      · exact absurd (by rw [h]; decide) hp
      · exact absurd (by rw [h]; decide) hp
      · exact absurd (by rw [h]; decide) hp
    have hser : (∃ xs, importCostSeries o.grid [] = .ok (some xs)) ↔ ∃ base, baseSeries o.grid = .ok base := by
      simp only [List.mem_cons, List.not_mem_nil, or_false] at V0
      unfold importCostSeries baseSeries
      have key : ∀ e : Except PyErr (List ℚ), (∃ xs, some <$> e = .ok (some xs)) ↔ ∃ xs, e = .ok xs := by
        intro e
        constructor
        · rintro ⟨xs, h⟩
          obtain ⟨ys, hy, -⟩ := except_map_ok.1 h
          exact ⟨ys, hy⟩
        · rintro ⟨xs, h⟩
          exact ⟨xs, except_map_ok.2 ⟨xs, h, rfl⟩⟩
      rcases V0 with h | h | h | h | h | h
      · rw [h, if_pos rfl, if_pos (by decide)]; exact key _
      · rw [h, if_neg (by decide), if_pos rfl, if_neg (by decide), if_pos (by decide)]; exact key _
      · rw [h, if_neg (by decide), if_neg (by decide), if_pos rfl, if_neg (by decide), if_neg (by decide)]
        exact key _
      · exact absurd (by rw [h]; decide) hp
      · exact absurd (by rw [h]; decide) hp
      · exact absurd (by rw [h]; decide) hp
    have himp : (∃ xs, importPrices L c o.grid = .ok xs) ↔
        ∃ xs, importCostSeries o.grid [] = .ok (some xs) := by
      unfold importPrices
      rw [if_neg hu, okBind]
      exact hmatch []
    rw [himp, hser, hbase]
    exact ⟨fun h => ⟨h.1, h.2, fun h' => absurd h' hp, fun h' => absurd h' hp⟩, fun h => ⟨h.year, h.market⟩⟩

end Power

/-- What a run with the fixed order controller needs of the workbook and the libraries. -/
structure Spec.Ready (L : Libs) (wb : Pandas.Workbook) (heatPump : ℤ) : Prop where
  objects : Filled L wb
  demand : ∀ col ∈ ['D', 'E', 'F'], ∀ r, 6 ≤ r → r ≤ 8765 → Number wb "Demand input" col r
  delta : Number wb "Demand input" 'I' 8
  exportPrice : Number wb "Grid" 'D' 9
  setpoint : Number wb "Controller" 'D' 7
  prices : ∀ t, Says wb "Grid" 'D' 5 t → PricesReady L wb t
  turbines : TurbinesReady L wb
  panels : PanelsReady L wb
  performance : heatPump = 0 ∨ Reads wb "Heat pump" 'D' 4 ModelName.simple ∨
    Reads wb "Heat pump" 'D' 4 ModelName.standard ∧
      (Reads wb "Heat pump" 'D' 9 DataInput.integrated ∨ Reads wb "Heat pump" 'D' 3 HPType.ashp)

open Power in
/-- C94: a run can start exactly if the listed cells are filled in and the libraries for panels and turbines
give a result for what is written: nothing else in the workbook can stop it. -/
theorem C94_ready {L : Libs} {wb : Pandas.Workbook} {size : ℤ × ℤ} (hL : FarmYear L)
    (ht : TopRowsEmpty wb) (he : TailEmpty wb) : (∃ S, runInputs L wb size = .ok S) ↔ Ready L wb size.1 := by
  rw [C94_start ht]
  constructor
  · rintro ⟨c, o, hc, ho, h1, h2, h3, h4, h5, h6, h7, h8, h9⟩
    refine ⟨(C94_filled size ht he).mp ⟨o, ho⟩, h1, h2, h3, h4, fun t htt => ?_,
      (turbines_iff ht ho).mp ⟨h6, h7⟩, (panels_iff ht ho).mp h8, h9⟩
    have e : t = o.grid.tariff := Except.ok.inj (congrArg textOf (htt.symm.trans (C91_grid ht ho).1))
    rw [e]
    exact (prices_iff hL ht hc ho).mp h5
  · intro R
    obtain ⟨o, ho⟩ := (C94_filled size ht he).mpr R.objects
    obtain ⟨c, hc, -⟩ := except_bind_ok.mp (show (containerOf wb size >>= fun c => init L c) = .ok o from ho)
    obtain ⟨h6, h7⟩ := (turbines_iff ht ho).mpr R.turbines
    exact ⟨c, o, hc, ho, R.demand, R.delta, R.exportPrice, R.setpoint,
      (prices_iff hL ht hc ho).mpr (R.prices _ (C91_grid ht ho).1), h6, h7,
      (panels_iff ht ho).mpr R.panels, R.performance⟩
end Verif
