import Verif.Spec.Weather
import Verif.Lemmas.Programme
import Verif.Props.Start

/-!
# Property C97: which weather the panels and turbines see; C91, continued: the price tables are complete
-/

set_option autoImplicit false

namespace Verif
open Pandas Workbook InputReader Enums Simulation Spec FixedOrder Programme

theorem entries_eq {wb : Pandas.Workbook} {sheet : String} {s : Pandas.Sheet} (hs : wb sheet = some s)
    (col : Char) (row : ℕ) : entries wb sheet col row =
      (List.range (s.height + 1 - row)).map (fun t => s.cell (t + row) (col.toNat - 'A'.toNat)) := by
  unfold entries
  rw [hs]
  dsimp only
  exact List.map_congr_left (fun t _ => by rw [excel_eq hs, Nat.add_comm])

/-- The weather of the container, by name. -/
theorem site_columns {L : Libs} {wb : Pandas.Workbook} {size : ℤ × ℤ} {o : Objects}
    (ht : TopRowsEmpty wb) (h : objects L wb size = .ok o) :
    ∃ w : Columns, o.windUser.weather = w ∧ o.windDatabase.weather = w ∧ o.pv.weather = w ∧
      o.pv.inverter = "iPower__SHO_4_8__240V_" ∧
      ∀ n k, (n, k) ∈ [("DHI", 'D'), ("GHI", 'E'), ("DNI", 'F'), ("wind_speed_10", 'G'),
        ("wind_speed_50", 'H'), ("roughness_length", 'I'), ("pressure", 'J'), ("air_temperature", 'K')] →
      ∀ xs, w.get n = .ok xs → xs = entries wb "Weather resources" k 6 := by
  obtain ⟨b, c, hr, hs, ho⟩ := objects_ok h
  obtain ⟨s, hw, hf⟩ := (readInputs_ok hr).resources
  obtain ⟨sp, hwp, hf1, hf2⟩ := (readInputs_ok hr).pv
  obtain ⟨-, -, e0, -, -, e1, e2, -⟩ := resize_rest hs
  obtain ⟨w, hwe, u1, u2, ⟨d, hd, hmk⟩, -⟩ := (init_ok ho).weather
  obtain ⟨p1, -, p3, -⟩ := pv_rows (blank ht hwp) (e1 ▸ hf1) (e2 ▸ hf2) hd hmk
  rw [e0.symm] at hf
  refine ⟨w, u1, u2, p1, p3, fun n k hnk xs hx => ?_⟩
  obtain ⟨j, hj, hxs⟩ := weather_cells (blank ht hw) hf hwe hx
  rw [hxs, entries_eq hw]
  have hj' : j = k.toNat - 'A'.toNat := by
    simp only [List.mem_cons, Prod.mk.injEq, List.not_mem_nil, or_false] at hnk
    rcases hnk with ⟨rfl, rfl⟩ | ⟨rfl, rfl⟩ | ⟨rfl, rfl⟩ | ⟨rfl, rfl⟩ | ⟨rfl, rfl⟩ | ⟨rfl, rfl⟩ |
      ⟨rfl, rfl⟩ | ⟨rfl, rfl⟩ <;> simpa [weatherColumns] using hj
  subst hj'
  rfl

/-- The weather of the wind farm, by name. -/
theorem farm_columns {wb : Pandas.Workbook} {size : ℤ × ℤ} {c : Container} {w : Columns}
    (ht : TopRowsEmpty wb) (h : containerOf wb size = .ok c) (hwe : windFarmWeather c = .ok w) :
    c.windFarm = [("turbine_name", excel wb "Wind farm" 'C' 15), ("hub_height", excel wb "Wind farm" 'D' 15),
      ("rotor_diameter", excel wb "Wind farm" 'E' 15), ("number_of_turbines", excel wb "Wind farm" 'F' 15),
      ("efficiency", excel wb "Wind farm" 'G' 15)] ∧
    ∀ n k, (n, k) ∈ [("wind_speed_10", 'C'), ("wind_speed_50", 'D'), ("roughness_length", 'E'),
      ("pressure", 'F'), ("air_temperature", 'G')] →
    ∀ xs, w.get n = .ok xs → xs = entries wb "Wind farm" k 20 := by
  obtain ⟨b, hr, hs⟩ := containerOf_ok h
  obtain ⟨s, hw, hf⟩ := (readInputs_ok hr).windFarm
  obtain ⟨-, -, -, -, -, -, -, -, -, -, e1, e2, -⟩ := resize_rest hs
  rw [← e1, ← e2] at hf
  have hb := blank ht hw
  unfold windFarm at hf
  simp only [except_bind_ok, except_pure_ok, Prod.mk.injEq] at hf
  obtain ⟨v1, h1, v2, h2, v3, h3, v4, h4, v5, h5, g, hg, hd, hres⟩ := hf
  simp only [excel_eq hw]
  refine ⟨?_, fun n k hnk xs hx => ?_⟩
  · rw [← hd, at_ok h1, at_ok h2, at_ok h3, at_ok h4, at_ok h5]
    rfl
  · unfold windFarmWeather at hwe
    obtain ⟨-, hcol⟩ := columnsOf_get hwe hx
    rw [← hres] at hcol
    rw [entries_eq hw]
    simp only [List.mem_cons, Prod.mk.injEq, List.not_mem_nil, or_false] at hnk
    rcases hnk with ⟨rfl, rfl⟩ | ⟨rfl, rfl⟩ | ⟨rfl, rfl⟩ | ⟨rfl, rfl⟩ | ⟨rfl, rfl⟩
    · exact (series_column (m := 18) (k := 2) hb hg (by decide) (by decide) (by decide) hcol).2
    · exact (series_column (m := 18) (k := 3) hb hg (by decide) (by decide) (by decide) hcol).2
    · exact (series_column (m := 18) (k := 4) hb hg (by decide) (by decide) (by decide) hcol).2
    · exact (series_column (m := 18) (k := 5) hb hg (by decide) (by decide) (by decide) hcol).2
    · exact (series_column (m := 18) (k := 6) hb hg (by decide) (by decide) (by decide) hcol).2

/-- The weather given to windpowerlib. -/
theorem windWeather_ok {w out : Columns} (h : windWeather w = .ok out) :
    ∃ a b c d e, w.get "wind_speed_10" = .ok a ∧ w.get "wind_speed_50" = .ok b ∧
      w.get "roughness_length" = .ok c ∧ w.get "pressure" = .ok d ∧ w.get "air_temperature" = .ok e ∧
      a.length = 8760 ∧ out = windSeries a b c d e := by
  unfold windWeather yearIndex at h
  simp only [except_bind_ok, except_pure_ok] at h
  obtain ⟨a, ha, b, hb, c, hc, d, hd, e, he, u, hu, rfl⟩ := h
  refine ⟨a, b, c, d, e, ha, hb, hc, hd, he, ?_, rfl⟩
  by_cases hl : a.length = 8760
  · exact hl
  · rw [if_neg hl] at hu
    cases hu

/-- The weather given to pvlib: the three irradiances if they have no gap, and neither `temp_air` nor
`wind_speed`. -/
theorem pvWeather_ok {w out : Columns} (h : pvWeather w = .ok out) :
    ∃ a b c, w.get "DHI" = .ok a ∧ w.get "GHI" = .ok b ∧ w.get "DNI" = .ok c ∧ a.length = 8760 ∧
      (∀ xs, out.lookup "dhi" = some xs → xs = a ∧ ∀ x ∈ a, x.isSome) ∧
      (∀ xs, out.lookup "ghi" = some xs → xs = b ∧ ∀ x ∈ b, x.isSome) ∧
      (∀ xs, out.lookup "dni" = some xs → xs = c ∧ ∀ x ∈ c, x.isSome) ∧
      out.lookup "temp_air" = none ∧ out.lookup "wind_speed" = none := by
  unfold pvWeather yearIndex at h
  simp only [except_bind_ok, except_pure_ok] at h
  obtain ⟨a, ha, b, hb, c, hc, d, hd, e, he, u, hu, rfl⟩ := h
  have hl : a.length = 8760 := by
    by_contra hl
    rw [if_neg hl] at hu
    cases hu
  have key : ∀ (l : Columns) (n : String) (xs : List Value),
      (l.filter (fun p => p.2.all Option.isSome)).lookup n = some xs →
      (n, xs) ∈ l ∧ ∀ x ∈ xs, x.isSome := by
    intro l n xs hx
    induction l with
    | nil => cases hx
    | cons q l ih =>
      rw [List.filter_cons] at hx
      split at hx
      · rename_i hq
        obtain ⟨k, v⟩ := q
        rw [List.lookup_cons] at hx
        split at hx
        · rename_i hk
          cases Option.some.inj hx
          rw [eq_of_beq hk]
          exact ⟨List.mem_cons_self, List.all_eq_true.mp hq⟩
        · exact ⟨List.mem_cons_of_mem _ (ih hx).1, (ih hx).2⟩
      · exact ⟨List.mem_cons_of_mem _ (ih hx).1, (ih hx).2⟩
  refine ⟨a, b, c, ha, hb, hc, hl, fun xs hx => ?_, fun xs hx => ?_, fun xs hx => ?_, ?_, ?_⟩
  · obtain ⟨h1, h2⟩ := key _ _ _ hx
    simp only [List.mem_cons, Prod.mk.injEq, String.reduceEq, false_and, or_false, true_and,
      List.not_mem_nil] at h1
    subst h1
    exact ⟨rfl, h2⟩
  · obtain ⟨h1, h2⟩ := key _ _ _ hx
    simp only [List.mem_cons, Prod.mk.injEq, String.reduceEq, false_and, or_false, false_or, true_and,
      List.not_mem_nil] at h1
    subst h1
    exact ⟨rfl, h2⟩
  · obtain ⟨h1, h2⟩ := key _ _ _ hx
    simp only [List.mem_cons, Prod.mk.injEq, String.reduceEq, false_and, or_false, false_or, true_and,
      List.not_mem_nil] at h1
    subst h1
    exact ⟨rfl, h2⟩
  all_goals
    rw [Option.eq_none_iff_forall_ne_some]
    intro xs hx
    obtain ⟨h1, -⟩ := key _ _ _ hx
    simp only [List.mem_cons, Prod.mk.injEq, String.reduceEq, false_and, or_false,
      List.not_mem_nil] at h1

/-- C97, photovoltaics: without panels the power is nothing. With panels it is computed from the three
irradiances in columns D to F of the weather sheet, which then have an entry for every hour of the year, and
pvlib is given neither the temperature nor the wind of the site. -/
theorem C97_pv {L : Libs} {wb : Pandas.Workbook} {size : ℤ × ℤ} {S : RunIn (List ℚ)} {o : Objects}
    (ht : TopRowsEmpty wb) (h : runInputs L wb size = .ok S) (ho : objects L wb size = .ok o) :
    ∃ m, o.pv.multiplier = some (.num m) ∧ (m = 0 → S.pv = List.replicate 8760 0) ∧
      (m ≠ 0 → (∀ col ∈ ['D', 'E', 'F'], NoGap (entries wb "Weather resources" col 6)) ∧
        ∃ ac, L.pvAc o.pv.moduleName "iPower__SHO_4_8__240V_" o.pv.tilt o.pv.azimuth o.pv.latitude o.pv.longitude
          (entries wb "Weather resources" 'D' 6) (entries wb "Weather resources" 'E' 6)
          (entries wb "Weather resources" 'F' 6) none none = .ok ac ∧
        Renewables.pvPower m ac = .ok S.pv) := by
  obtain ⟨o', T⟩ := start_ok h
  cases Except.ok.inj (ho.symm.trans T.objects)
  obtain ⟨w, -, -, hw, hinv, hcol⟩ := site_columns ht ho
  have hp := T.pv
  unfold pvSeries at hp
  simp only [except_bind_ok] at hp
  obtain ⟨m, hm, hp⟩ := hp
  refine ⟨m, numOf_ok.mp hm, fun h0 => ?_, fun h0 => ?_⟩
  · rw [if_pos h0] at hp
    unfold Renewables.pvPower at hp
    rw [if_pos h0] at hp
    exact (Except.ok.inj hp).symm
  · rw [if_neg h0] at hp
    simp only [except_bind_ok] at hp
    obtain ⟨out, hout, hp⟩ := hp
    rw [hw] at hout
    obtain ⟨a, b, c, ga, gb, gc, hl, k1, k2, k3, k4, k5⟩ := pvWeather_ok hout
    rw [hinv, k4, k5] at hp
    split at hp
    · rename_i x y z hx hy hz
      obtain ⟨ac, hac, hp⟩ := except_bind_ok.mp hp
      obtain ⟨rfl, j1⟩ := k1 x hx
      obtain ⟨rfl, j2⟩ := k2 y hy
      obtain ⟨rfl, j3⟩ := k3 z hz
      have e1 := hcol "DHI" 'D' (by decide) _ ga
      have e2 := hcol "GHI" 'E' (by decide) _ gb
      have e3 := hcol "DNI" 'F' (by decide) _ gc
      have hlen : ∀ col, (entries wb "Weather resources" col 6).length = 8760 := by
        intro col
        rw [e1] at hl
        unfold entries at hl ⊢
        cases hs : wb "Weather resources" with
        | none => rw [hs] at hl; cases hl
        | some s =>
          rw [hs] at hl
          dsimp only at hl ⊢
          rw [List.length_map] at hl ⊢
          exact hl
      rw [e1] at j1
      rw [e2] at j2
      rw [e3] at j3
      rw [e1, e2, e3] at hac
      refine ⟨fun col hcol => ⟨hlen col, ?_⟩, ac, hac, hp⟩
      simp only [List.mem_cons, List.not_mem_nil, or_false] at hcol
      rcases hcol with rfl | rfl | rfl
      · exact j1
      · exact j2
      · exact j3
    · cases hp

/-- The five series at the site. -/
theorem site_wind {w out : Columns} {wb : Pandas.Workbook}
    (hcol : ∀ n k, (n, k) ∈ [("DHI", 'D'), ("GHI", 'E'), ("DNI", 'F'), ("wind_speed_10", 'G'),
        ("wind_speed_50", 'H'), ("roughness_length", 'I'), ("pressure", 'J'), ("air_temperature", 'K')] →
      ∀ xs, w.get n = .ok xs → xs = entries wb "Weather resources" k 6)
    (h : windWeather w = .ok out) : out = siteWind wb := by
  obtain ⟨a, b, c, d, e, ha, hb, hc, hd, he, -, rfl⟩ := windWeather_ok h
  unfold siteWind
  rw [hcol "wind_speed_10" 'G' (by decide) _ ha, hcol "wind_speed_50" 'H' (by decide) _ hb,
    hcol "roughness_length" 'I' (by decide) _ hc, hcol "pressure" 'J' (by decide) _ hd,
    hcol "air_temperature" 'K' (by decide) _ he]

/-- C97, turbines: without turbines the power is nothing. With turbines it is what windpowerlib gives for the
parameters of the turbine and the columns G to K of the weather sheet, in kW with two decimals. -/
theorem C97_wind {L : Libs} {wb : Pandas.Workbook} {size : ℤ × ℤ} {S : RunIn (List ℚ)} {o : Objects}
    (ht : TopRowsEmpty wb) (h : runInputs L wb size = .ok S) (ho : objects L wb size = .ok o) :
    (∃ m, o.windUser.multiplier = some (.num m) ∧ (m = 0 → S.windUser = List.replicate 8760 0) ∧
      (m ≠ 0 → ∃ p, L.userTurbine o.windUser.nominal o.windUser.hub o.windUser.rotor o.windUser.curve
        (siteWind wb) = .ok p ∧ S.windUser = p.map (fun x => pyRound (x * m / 1000) 2))) ∧
    (∃ m, o.windDatabase.multiplier = some (.num m) ∧ (m = 0 → S.windData = List.replicate 8760 0) ∧
      (m ≠ 0 → ∃ p, L.dataTurbine o.windDatabase.name o.windDatabase.hub o.windDatabase.rotor
        (siteWind wb) = .ok p ∧ S.windData = p.map (fun x => pyRound (x * m * (1 / 2) / 1000) 2))) := by
  obtain ⟨o', T⟩ := start_ok h
  cases Except.ok.inj (ho.symm.trans T.objects)
  obtain ⟨w, hw1, hw2, -, -, hcol⟩ := site_columns ht ho
  constructor
  · have hp := T.windUser
    unfold userSeries at hp
    simp only [except_bind_ok] at hp
    obtain ⟨m, hm, hp⟩ := hp
    unfold Renewables.userPower Renewables.Frame.get at hp
    refine ⟨m, numOf_ok.mp hm, fun h0 => ?_, fun h0 => ?_⟩
    · rw [if_pos h0, if_pos h0, if_pos rfl] at hp
      exact (Except.ok.inj hp).symm
    · rw [if_neg h0] at hp
      simp only [except_bind_ok] at hp
      obtain ⟨out, hout, p, hpp, hp⟩ := hp
      rw [if_neg h0, if_pos rfl] at hp
      rw [hw1] at hout
      rw [site_wind hcol hout] at hpp
      exact ⟨p, hpp, (Except.ok.inj hp).symm⟩
  · have hp := T.windData
    unfold databaseSeries at hp
    simp only [except_bind_ok] at hp
    obtain ⟨m, hm, hp⟩ := hp
    unfold Renewables.databasePower Renewables.Frame.get at hp
    refine ⟨m, numOf_ok.mp hm, fun h0 => ?_, fun h0 => ?_⟩
    · rw [if_pos h0, if_pos h0, if_pos rfl] at hp
      exact (Except.ok.inj hp).symm
    · rw [if_neg h0] at hp
      simp only [except_bind_ok] at hp
      obtain ⟨out, hout, p, hpp, hp⟩ := hp
      rw [if_neg h0, if_pos rfl] at hp
      rw [hw2] at hout
      rw [site_wind hcol hout] at hpp
      exact ⟨p, hpp, (Except.ok.inj hp).symm⟩

/-- C97, wind farm: the import prices depend on the power of the wind farm only under the three tariffs with
a power purchase agreement. It is what windpowerlib gives for the farm described in row 15 of its sheet and
the weather in the columns C to G below. -/
theorem C97_farm {L : Libs} {wb : Pandas.Workbook} {size : ℤ × ℤ} {S : RunIn (List ℚ)} {o : Objects}
    (ht : TopRowsEmpty wb) (h : runInputs L wb size = .ok S) (ho : objects L wb size = .ok o) :
    (o.grid.tariff ∉ Spec.ppa → Tariff.importCostSeries o.grid [] = .ok (some S.importPrice)) ∧
    (o.grid.tariff ∈ Spec.ppa → ∃ m power, Holds wb "Wind farm" 'F' 15 m ∧
      Tariff.importCostSeries o.grid power = .ok (some S.importPrice) ∧
      (m = 0 → power = List.replicate 8760 0) ∧
      (m ≠ 0 → ∃ p, L.windFarm (excel wb "Wind farm" 'C' 15) (excel wb "Wind farm" 'D' 15)
        (excel wb "Wind farm" 'E' 15) (excel wb "Wind farm" 'F' 15) (excel wb "Wind farm" 'G' 15)
        (farmWind wb) = .ok p ∧ power = p.map (fun x => pyRound (x * (1 / 2) / 1000) 2))) := by
  obtain ⟨o', T⟩ := start_ok h
  cases Except.ok.inj (ho.symm.trans T.objects)
  obtain ⟨c, hc, hp⟩ := T.importPrice
  have key : ∀ p, (do
      match ← Tariff.importCostSeries o.grid p with
      | some prices => Except.ok prices
      | none => .error .typeError) = .ok S.importPrice →
      Tariff.importCostSeries o.grid p = .ok (some S.importPrice) := by
    intro p hp
    obtain ⟨os, hos, hp⟩ := except_bind_ok.mp hp
    cases os with
    | none => cases hp
    | some xs => rw [hos, Except.ok.inj hp]
  have hu : usesFarm o.grid = true ↔ o.grid.tariff ∈ Spec.ppa := by
    unfold usesFarm Spec.ppa
    simp only [decide_eq_true_eq, List.mem_cons, List.not_mem_nil, or_false]
    tauto
  unfold importPrices at hp
  dsimp only at hp
  split_ifs at hp with hf
  · refine ⟨fun hn => absurd (hu.mp hf) hn, fun _ => ?_⟩
    obtain ⟨power, hpow, hp⟩ := except_bind_ok.mp hp
    unfold farmSeries at hpow
    simp only [except_bind_ok] at hpow
    obtain ⟨w, hwe, hpow⟩ := hpow
    obtain ⟨hd, hcol⟩ := farm_columns ht hc hwe
    rw [hd] at hpow
    simp only [dict_cons, reduceIte, String.reduceEq, Except.ok.injEq, exists_eq_left'] at hpow
    obtain ⟨m, hm, hpow⟩ := hpow
    unfold Renewables.windFarmPower Renewables.Frame.get at hpow
    refine ⟨m, power, numOf_ok.mp hm, key power hp, fun h0 => ?_, fun h0 => ?_⟩
    · rw [if_pos h0, if_pos h0, if_pos rfl] at hpow
      exact (Except.ok.inj hpow).symm
    · rw [if_neg h0] at hpow
      simp only [except_bind_ok] at hpow
      obtain ⟨out, hout, p, hpp, hpow⟩ := hpow
      rw [if_neg h0, if_pos rfl] at hpow
      obtain ⟨a, b, c, d, e, ha, hb, hc, hd, he, -, rfl⟩ := windWeather_ok hout
      rw [hcol "wind_speed_10" 'C' (by decide) _ ha, hcol "wind_speed_50" 'D' (by decide) _ hb,
        hcol "roughness_length" 'E' (by decide) _ hc, hcol "pressure" 'F' (by decide) _ hd,
        hcol "air_temperature" 'G' (by decide) _ he] at hpp
      exact ⟨p, hpp, (Except.ok.inj hpow).symm⟩
  · exact ⟨fun _ => key [] hp, fun hn => absurd (hu.mpr hn) hf⟩

/-- C91, prices: the table of prices by weekday always has the 24 hours, and the list of market prices has
all the rows of the sheet, up to a year. -/
theorem C91_prices {L : Libs} {wb : Pandas.Workbook} {size : ℤ × ℤ} {o : Objects}
    (ht : TopRowsEmpty wb) (h : objects L wb size = .ok o) :
    (∀ p, o.grid.periods = some p → ∀ d, (p d).length = 24) ∧
    (∀ xs, o.grid.wholesale = some xs → ∃ s, wb "Grid" = some s ∧
      xs.length = min 8760 (s.height - 11)) := by
  obtain ⟨b, c, hr, hs, ho⟩ := objects_ok h
  obtain ⟨s', hw', -, hh⟩ := ((C92_readable ht).mp ⟨b, hr⟩).grid
  obtain ⟨s, hw, hf⟩ := (readInputs_ok hr).grid
  cases Option.some.inj (hw.symm.trans hw')
  obtain ⟨-, -, -, -, -, -, -, -, -, -, -, -, -, hg, -⟩ := resize_rest hs
  have C := grid_cells hf
  have G := makeGrid_ok (init_ok ho).grid
  rw [hg] at G
  have hb := blank ht hw
  constructor
  · intro p hp d
    obtain ⟨vs, h1, h2⟩ := G.periods p hp d
    rw [C.periods hb d vs h1] at h2
    rw [(numbers_range h2).1]
    omega
  · intro xs hxs
    obtain ⟨vs, h1, h2⟩ := G.wholesale xs hxs
    rw [C.wholesale hb vs h1] at h2
    exact ⟨_, hw, (numbers_range h2).1⟩

end Verif
