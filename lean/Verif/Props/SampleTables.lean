import Verif.Props.SheetTables
import Verif.Props.SampleSettings
import Verif.Props.SamplePumpStudy

/-!
# Tables of studies with other prices (C104), another battery (C116) and turbines (C102)
-/

set_option autoImplicit false

namespace Verif
open Spec Pandas Workbook InputReader Simulation HpConfig FixedOrder Programme

/-- A study that has written its table of outputs shows an entry for each combination and each column. -/
theorem output_entry {L : Libs} {gekko : Gekko} {wb : Pandas.Workbook} (ht : TopRowsEmpty wb)
    {files : List (String × KpiTables.Content)} {e : Option PyErr}
    {st : Main.Store (List Char) Programme.Outcome Figures.Drawn}
    (h : Report.Ends L gekko wb "study" (.ok (files, e), st)) (hf : "output_study.csv" ∈ files.map (·.1))
    {pa : Para.Ranges} {sizes : List (ℤ × ℤ)} (hpa : RangesIn wb pa) (hz : Para.combos pa = .ok sizes) {i : ℕ}
    {size : ℤ × ℤ} (hi : sizes[i]? = some size) :
    ∃ t row, ("output_study.csv", KpiTables.Content.table t) ∈ files ∧ t.rows[i]? = some row ∧
      t.columns[8]? = some "sum_import" ∧ ∃ v, row[8]? = some v := by
  obtain ⟨⟨name, x⟩, hx, rfl⟩ := List.mem_map.mp hf
  cases x with
  | surface s =>
    obtain ⟨column, hc, -⟩ := C101_charts ht h hx
    exact absurd (List.mem_map_of_mem (f := (·.1)) hc)
      (show "output_study.csv" ∉ Spec.charts.map (·.1) by decide)
  | table t =>
    obtain ⟨hcols, pa', sizes', hpa', hz', hlen, hrows⟩ := C101_tables ht h hx
    cases Except.ok.inj (hz'.symm.trans ((ranges_combos hpa' hpa).trans hz))
    have hcol : t.columns[8]? = some "sum_import" := by
      simp only [Spec.tableColumns, List.flatMap_cons, List.flatMap_nil, List.append_nil, List.cons_append,
        List.nil_append, List.mem_cons, List.not_mem_nil, or_false, Prod.mk.injEq] at hcols
      rcases hcols with c | c | c | c | c | c
      case inr.inr.inr.inr.inr => rw [c.2]; rfl
      all_goals exact absurd c.1 (by decide)
    obtain ⟨C, row, h0, R, -⟩ := hrows i size hi
    have hlt : 8 < t.columns.length := (List.getElem?_eq_some_iff.mp hcol).1
    exact ⟨t, row, hx, h0, hcol, _, List.getElem?_eq_getElem (show 8 < row.length by rw [← R.length_eq]; exact hlt)⟩

namespace Sample

theorem dearer_ranges : RangesIn dearer ⟨0, 20, 10, 0, 3000, 3000⟩ :=
  ⟨rfl, rfl, rfl, rfl, fun _ => rfl, fun _ => rfl⟩

theorem dearer_setup (gekko : Gekko) : ∃ s, setup wallLibs gekko dearer = .ok s := by
  refine (C99_sets_up dearer_top).mpr ⟨dearer_readable, ⟨0, 20, 10, 0, 3000, 3000⟩, _, 24, 48,
    dearer_ranges, served_sizes, by decide, rfl, rfl, fun size _ => ?_⟩
  obtain ⟨S, hS⟩ := dearer_run size
  unfold runInputs at hS
  obtain ⟨c, hc, -⟩ := except_bind_ok.mp hS
  exact ⟨c, hc⟩

theorem dearer_says : Says dearer "Controller" 'D' 5 "Fixed order control" ∧ Incentive dearer :=
  ⟨rfl, Or.inl rfl, Or.inl ⟨rfl, 20, rfl⟩⟩

variable {cap x : ℚ} {first n : ℕ}

theorem kept_ranges : RangesIn (kept cap x first n) ⟨0, 20, 10, 0, 3000, 3000⟩ :=
  ⟨rfl, rfl, rfl, rfl, fun _ => rfl, fun _ => rfl⟩

theorem kept_setup (gekko : Gekko) : ∃ s, setup wallLibs gekko (kept cap x first n) = .ok s := by
  refine (C99_sets_up kept_top).mpr ⟨kept_readable, ⟨0, 20, 10, 0, 3000, 3000⟩, _, first, n,
    kept_ranges, served_sizes, by decide, rfl, rfl, fun size _ => ?_⟩
  obtain ⟨S, hS⟩ := kept_run size
  unfold runInputs at hS
  obtain ⟨c, hc, -⟩ := except_bind_ok.mp hS
  exact ⟨c, hc⟩

theorem kept_says : Says (kept cap x first n) "Controller" 'D' 5 "Fixed order control" ∧ Incentive (kept cap x first n) ∧
    Holds (kept cap x first n) "Heat pump" 'D' 8 0 := ⟨rfl, ⟨Or.inl rfl, Or.inl ⟨rfl, 20, rfl⟩⟩, rfl⟩

theorem kept_boiler : Lists (kept cap x first n) 8 9 ∧ Lists (kept cap x first n) 9 9 :=
  ⟨⟨_, _, rfl, kept_above, by decide⟩, ⟨_, _, rfl, kept_below, by decide⟩⟩

theorem kept_store : ServingStore wallLibs (kept cap x first n) 3000 :=
  let S := served_store
  { positive := S.positive, layers := S.layers, insulation := S.insulation, inside := S.inside, sealed := S.sealed,
    spread := S.spread, temps := S.temps, holds := S.holds }

/-- The workbook of C116 without stores, without or with the turbines of the sample of C97. -/
def aired (w : Bool) : Pandas.Workbook := fun name =>
  if name = "Parametric" then some (sheet 6 7 (put (all 10) [((6, 3), num 20), ((6, 4), num 0), ((7, 3), num 0),
    ((7, 4), num 0)]))
  else if name = "Wind inputs" then (if w then windy name else storeless name) else kept 0 1 24 48 name

variable {w : Bool}

theorem aired_top : TopRowsEmpty (aired w) := by
  intro name s hs k
  unfold aired at hs
  split_ifs at hs
  · cases Option.some.inj hs; rfl
  · exact windy_top name s hs k
  · exact storeless_top name s hs k
  · exact kept_top name s hs k

theorem aired_readable : Readable (aired w) :=
  let R := kept_readable (cap := 0) (x := 1) (first := 24) (n := 48)
  { parametric := ⟨_, rfl, by decide, by decide⟩, controller := R.controller, weather := R.weather, demandGen := R.demandGen,
    demandInput := R.demandInput, pv := R.pv, wind := by cases w <;> exact ⟨_, rfl, by decide, by decide⟩,
    windFarm := R.windFarm, battery := R.battery, grid := R.grid, aux := R.aux, thermal := R.thermal,
    heatPump := R.heatPump, orderAbove := R.orderAbove, orderBelow := R.orderBelow, fuel := R.fuel, fuel1 := R.fuel1,
    fuel2 := R.fuel2, fuel3 := R.fuel3 }

theorem aired_filled {L : Libs} (hk : L.knownModule "Some_Module" = true) : Filled L (aired w) :=
  let F := kept_filled (cap := 0) (x := 1) (first := 24) (n := 48) hk
  { readable := aired_readable, weather := F.weather, air := F.air, water := F.water, demand := F.demand,
    source := F.source, ret := F.ret, battery := F.battery,
    turbines := by
      cases w
      · exact (storeless_filled hk).turbines
      · exact (windy_filled hk).turbines,
    pv := F.pv, tank := F.tank, layers := F.layers, tankNumbers := F.tankNumbers, hpType := F.hpType, hpData := F.hpData,
    hpNumbers := F.hpNumbers, duties := F.duties, model := F.model, efficiency := ⟨1, rfl⟩, fuel := F.fuel,
    tariff := ⟨_, "Flat rates", rfl, rfl, by decide, fun _ => ⟨3, rfl⟩,
        fun h => absurd h (by decide), fun h => absurd h (by decide), fun h => absurd h (by decide)⟩ }

theorem aired_ready (hp : ℤ) : Ready strong (aired w) hp :=
  let R := calm_ready hp
  { objects := aired_filled rfl, demand := R.demand, delta := R.delta, exportPrice := R.exportPrice,
    setpoint := ⟨1, rfl⟩
    prices := fun t h => by
      cases says_inj h (show Says _ _ _ _ "Flat rates" from rfl)
      exact ⟨fun h => absurd h (by decide), fun h => absurd h (by decide), fun h => absurd h (by decide),
        fun h => absurd h (by decide)⟩
    turbines := by
      cases w
      · exact R.turbines
      · exact (gusty_ready hp).turbines
    panels := R.panels
    performance := R.performance }

theorem aired_run (size : ℤ × ℤ) : ∃ S, runInputs strong (aired w) size = .ok S :=
  (C94_ready strong_farm aired_top (tail_of_height (s := pump "Simple") rfl (Nat.le_refl 47))).mpr
    (aired_ready size.1)

theorem aired_ranges : RangesIn (aired w) ⟨0, 20, 10, 0, 0, 10⟩ :=
  ⟨rfl, rfl, rfl, rfl, fun _ => rfl, fun _ => rfl⟩

theorem aired_setup (gekko : Gekko) : ∃ s, setup strong gekko (aired w) = .ok s := by
  refine (C99_sets_up aired_top).mpr ⟨aired_readable, ⟨0, 20, 10, 0, 0, 10⟩, _, 24, 48,
    aired_ranges, sizes, by decide, rfl, rfl, fun size _ => ?_⟩
  obtain ⟨S, hS⟩ := aired_run size
  unfold runInputs at hS
  obtain ⟨c, hc, -⟩ := except_bind_ok.mp hS
  exact ⟨c, hc⟩

theorem aired_cells : Says (aired w) "Controller" 'D' 5 "Fixed order control" ∧ Incentive (aired w) ∧
    Holds (aired w) "Parametric" 'D' 7 0 ∧ Holds (aired w) "Parametric" 'E' 7 0 ∧
    Holds (aired w) "Controller" 'G' 5 (24 : ℕ) ∧ Holds (aired w) "Controller" 'G' 6 (48 : ℕ) :=
  ⟨rfl, ⟨Or.inl rfl, Or.inl ⟨rfl, 20, rfl⟩⟩, rfl, rfl, rfl, rfl⟩

theorem aired_sensible : Sensible (aired w) :=
  let S := kept_sensible (cap := 0) (x := 1) (first := 24) (n := 48) le_rfl
  { battery := S.battery, heat := S.heat, network := S.network, above := S.above, below := S.below }

theorem aired_known : KnownProcesses (aired w) :=
  let K := kept_known (cap := 0) (x := 1) (first := 24) (n := 48)
  ⟨K.1, K.2⟩

theorem aired_empty : ∀ s row, aired w "Electrical storage" = some s → FirstComplete s [5] [0, 1] row →
    Holds (aired w) "Electrical storage" 'C' row 0 :=
  kept_empty (x := 1) (first := 24) (n := 48)

theorem aired_pump {L : Libs} {hp ts : ℤ} (h0 : 0 ≤ hp) (S : RunIn (List ℚ))
    (h : runInputs L (aired w) (hp, ts) = .ok S) : GoodPump S :=
  C99_simple_pump h (Or.inr ⟨h0, ⟨"Simple", rfl, by decide +kernel⟩, fun cop hc => by
    rw [holds_inj hc (show Holds _ _ _ _ 3 from rfl)]; norm_num⟩)

theorem aired_same : SameBut ["PV inputs", "Wind inputs"] (aired false) (aired true) := by
  intro name hn
  simp only [List.mem_cons, List.not_mem_nil, or_false, not_or] at hn
  unfold aired
  rw [if_neg hn.2, if_neg hn.2]

theorem aired_generation {size : ℤ × ℤ} {S : RunIn (List ℚ)} (h : runInputs strong (aired w) size = .ok S) :
    ∃ g : ℚ, generation S = List.replicate 8760 g ∧ g = if w then 350 else 0 := by
  obtain ⟨o, T⟩ := start_ok h
  obtain ⟨s', hs', ⟨r3, _, f3, -, -, m3, -⟩, -⟩ := C91_pv_partial aired_top T.objects
  cases firstComplete_unique f3 (pvRow "Simple" hs')
  have e3 : numOf o.pv.multiplier = .ok 0 := by rw [m3]; rfl
  have hpv : pvSeries strong o.pv = .ok (List.replicate 8760 0) := by
    unfold pvSeries Renewables.pvPower
    rw [e3, okBind, if_pos rfl, if_pos rfl]
  obtain ⟨s, hs, ⟨r, f1, -, -, -, a4, -⟩, -, ⟨t, f2, -, -, -, a10⟩⟩ := C91_turbines aired_top T.objects
  obtain ⟨⟨m, m1, m2, m3⟩, ⟨n, n1, n2, n3⟩⟩ := C97_wind aired_top h T.objects
  cases w with
  | false =>
    cases firstComplete_unique f1 (userRow "Simple" hs)
    cases firstComplete_unique f2 (databaseRow "Simple" hs)
    have e1 : m = 0 := Except.ok.inj (congrArg numOf (m1.symm.trans a4))
    have e2 : n = 0 := Except.ok.inj (congrArg numOf (n1.symm.trans a10))
    refine ⟨0, ?_, rfl⟩
    unfold generation wind
    rw [m2 e1, n2 e2, Except.ok.inj (T.pv.symm.trans hpv)]
    simp only [List.zipWith_replicate]
    exact congrArg _ (by norm_num)
  | true =>
    cases firstComplete_unique f1 (windy_user hs)
    cases firstComplete_unique f2 (windy_data hs)
    have e1 : m = 3 := Except.ok.inj (congrArg numOf (m1.symm.trans a4))
    have e2 : n = 1 := Except.ok.inj (congrArg numOf (n1.symm.trans a10))
    subst e1 e2
    obtain ⟨p, hp, hu⟩ := m3 (by norm_num)
    obtain ⟨q, hq, hd⟩ := n3 (by norm_num)
    have k1 : S.windUser = List.replicate 8760 300 := by
      rw [hu, ← Except.ok.inj hp, List.map_replicate]
      exact congrArg _ (show pyRound (100000 * 3 / 1000) 2 = 300 by decide +kernel)
    have k2 : S.windData = List.replicate 8760 50 := by
      rw [hd, ← Except.ok.inj hq, List.map_replicate]
      exact congrArg _ (show pyRound (100000 * 1 * (1 / 2) / 1000) 2 = 50 by decide +kernel)
    refine ⟨350, ?_, rfl⟩
    unfold generation wind
    rw [k1, k2, Except.ok.inj (T.pv.symm.trans hpv)]
    simp only [List.zipWith_replicate]
    exact congrArg _ (by norm_num)

theorem aired_more {size : ℤ × ℤ} (rs rs' : List (Results (List ℚ))) (h : simulate strong (aired false) size = .ok rs)
    (h' : simulate strong (aired true) size = .ok rs') :
    List.Forall₂ (fun r r' => r.res.generationTotal ≤ r'.res.generationTotal) rs rs' := by
  obtain ⟨T, first, n, hT, -, hn, hrun⟩ := simulate_ok.mp h
  obtain ⟨T', first', n', hT', -, hn', hrun'⟩ := simulate_ok.mp h'
  obtain ⟨g, e, eg⟩ := aired_generation hT
  obtain ⟨g', e', eg'⟩ := aired_generation hT'
  have hl := C27_one_result_per_hour hrun
  have hl' := C27_one_result_per_hour hrun'
  have en : n = 48 := by exact_mod_cast holds_inj hn aired_cells.2.2.2.2.2
  have en' : n' = 48 := by exact_mod_cast holds_inj hn' aired_cells.2.2.2.2.2
  refine List.forall₂_iff_get.mpr ⟨by omega, fun k hk hk' => ?_⟩
  have q := run_generation hrun (List.getElem?_eq_getElem hk) (hl ▸ hk)
  have q' := run_generation hrun' (List.getElem?_eq_getElem hk') (hl' ▸ hk')
  rw [e] at q
  rw [e'] at q'
  have z : (rs.get ⟨k, hk⟩).res.generationTotal = g := List.eq_of_mem_replicate (List.mem_of_getElem? q)
  have z' : (rs'.get ⟨k, hk'⟩).res.generationTotal = g' := List.eq_of_mem_replicate (List.mem_of_getElem? q')
  rw [z, z', eg, eg']
  norm_num

end Sample

attribute [local irreducible] Report.Ends Sample.served Sample.dearer Sample.kept Sample.aired simulate

theorem sample_sizes {P : ℤ → Prop} (h : P 3000) : ∀ z ∈ [((0 : ℤ), (0 : ℤ)), (0, 3000), (10, 0), (10, 3000), (20, 0), (20, 3000)],
    0 ≤ z.1 ∧ (z.2 = 0 ∨ P z.2) := by
  intro z hz
  simp only [List.mem_cons, List.not_mem_nil, or_false] at hz
  rcases hz with rfl | rfl | rfl | rfl | rfl | rfl
  · exact ⟨by decide, Or.inl rfl⟩
  · exact ⟨by decide, Or.inr h⟩
  · exact ⟨by decide, Or.inl rfl⟩
  · exact ⟨by decide, Or.inr h⟩
  · exact ⟨by decide, Or.inl rfl⟩
  · exact ⟨by decide, Or.inr h⟩

theorem dearer_study (gekko : Gekko) (root : String) : ∃ files st,
    Report.Ends Sample.wallLibs gekko Sample.dearer root (.ok (files, none), st) ∧
      files.map (·.1) = Spec.tableFiles root ++ Spec.chartFiles := by
  obtain ⟨s, hs⟩ := Sample.dearer_setup gekko
  obtain ⟨d1, d2, d3, d4, d5, d6, d7, d8⟩ := Sample.dearer_cells
  obtain ⟨e1, e2⟩ := Sample.dearer_says
  have hpos := sample_sizes Sample.dearer_store
  refine C126_study_ends Sample.wallLibs_year Sample.dearer_top Sample.dearer_sensible Sample.dearer_known
    Sample.dearer_boiler d6 hs e1 d7 d8 (by omega) (by omega) e2 Sample.dearer_ranges
    Sample.served_sizes (fun z hz => ?_) hpos ⟨⟨(0, 0), by decide, (10, 0), by decide, by decide⟩,
      ⟨(0, 0), by decide, (0, 3000), by decide, by decide⟩⟩ root
  obtain ⟨S, hS⟩ := Sample.dearer_run z
  exact ⟨S, hS, Sample.dearer_pump (hpos z hz).1 hS⟩

theorem kept_study {cap x : ℚ} {first n : ℕ} (hc : 0 ≤ cap) (hn : 2 ≤ n) (hy : first + n ≤ 8760) (gekko : Gekko)
    (root : String) : ∃ files st,
    Report.Ends Sample.wallLibs gekko (Sample.kept cap x first n) root (.ok (files, none), st) ∧
      files.map (·.1) = Spec.tableFiles root ++ Spec.chartFiles := by
  obtain ⟨s, hs⟩ := Sample.kept_setup (cap := cap) (x := x) (first := first) (n := n) gekko
  obtain ⟨-, d7, d8⟩ := Sample.kept_cells (cap := cap) (x := x) (first := first) (n := n)
  obtain ⟨e1, e2, d6⟩ := Sample.kept_says (cap := cap) (x := x) (first := first) (n := n)
  have hpos := sample_sizes (Sample.kept_store (cap := cap) (x := x) (first := first) (n := n))
  refine C126_study_ends Sample.wallLibs_year Sample.kept_top (Sample.kept_sensible hc) Sample.kept_known
    Sample.kept_boiler d6 hs e1 d7 d8 hn hy e2 Sample.kept_ranges
    Sample.served_sizes (fun z hz => ?_) hpos ⟨⟨(0, 0), by decide, (10, 0), by decide, by decide⟩,
      ⟨(0, 0), by decide, (0, 3000), by decide, by decide⟩⟩ root
  obtain ⟨S, hS⟩ := Sample.kept_run (cap := cap) (x := x) (first := first) (n := n) z
  exact ⟨S, hS, Sample.kept_pump (hpos z hz).1 S hS⟩

/-- C104: the two studies end, and for the heat pump of size 10 with a store their tables show the same import. -/
example (gekko : Gekko) : ∃ files files' st st' t t' row row' v,
    Report.Ends Sample.wallLibs gekko Sample.served "study" (.ok (files, none), st) ∧
    Report.Ends Sample.wallLibs gekko Sample.dearer "study" (.ok (files', none), st') ∧
    ("output_study.csv", KpiTables.Content.table t) ∈ files ∧ ("output_study.csv", KpiTables.Content.table t') ∈ files' ∧
    t.rows[3]? = some row ∧ t'.rows[3]? = some row' ∧ row[8]? = some v ∧ row'[8]? = some v := by
  obtain ⟨files, st, h, hf⟩ := C126_sample_study gekko "study"
  obtain ⟨files', st', h', hf'⟩ := dearer_study gekko "study"
  obtain ⟨t, row, hx, hr, hk, v, hv⟩ := output_entry Sample.served_top h (by rw [hf]; decide) Sample.served_ranges
    Sample.served_sizes (i := 3) rfl
  obtain ⟨t', row', hx', hr', hk', v', hv'⟩ := output_entry Sample.dearer_top h' (by rw [hf']; decide)
    Sample.dearer_ranges Sample.served_sizes (i := 3) rfl
  obtain ⟨d1, d2, d3, d4, d5, -⟩ := Sample.dearer_cells
  have e := C104_tables Sample.served_top Sample.dearer_top Sample.dearer_same Sample.dearer_fuels d1 d2 d3 d4 d5
    (by norm_num) Sample.served_cells.2.1 h h' hx hx' Sample.served_ranges Sample.served_sizes (i := 3) rfl hr hr'
    hk hk' hv hv' (by decide)
  exact ⟨files, files', st, st', t, t', row, row', v, h, h', hx, hx', hr, hr', hv, e ▸ hv'⟩

/-- C116: with the larger battery the study shows no larger import for the heat pump of size 10 with a store. -/
example (gekko : Gekko) : ∃ files files' st st' t t' row row', ∃ x x' : ℝ,
    Report.Ends Sample.wallLibs gekko (Sample.kept 2 1 24 48) "study" (.ok (files, none), st) ∧
    Report.Ends Sample.wallLibs gekko (Sample.kept 8 1 24 48) "study" (.ok (files', none), st') ∧
    ("output_study.csv", KpiTables.Content.table t) ∈ files ∧ ("output_study.csv", KpiTables.Content.table t') ∈ files' ∧
    t.rows[3]? = some row ∧ t'.rows[3]? = some row' ∧ row[8]? = some (some x) ∧ row'[8]? = some (some x') ∧ x' ≤ x := by
  obtain ⟨files, st, h, hf⟩ := kept_study (cap := 2) (x := 1) (first := 24) (n := 48) (by norm_num) (by omega) (by omega)
    gekko "study"
  obtain ⟨files', st', h', hf'⟩ := kept_study (cap := 8) (x := 1) (first := 24) (n := 48) (by norm_num) (by omega)
    (by omega) gekko "study"
  obtain ⟨t, row, hx, hr, hk, v, hv⟩ := output_entry Sample.kept_top h (by rw [hf]; decide) Sample.kept_ranges
    Sample.served_sizes (i := 3) rfl
  obtain ⟨t', row', hx', hr', hk', v', hv'⟩ := output_entry Sample.kept_top h' (by rw [hf']; decide)
    Sample.kept_ranges Sample.served_sizes (i := 3) rfl
  obtain ⟨x, x', rfl, rfl, g⟩ := (C116_tables Sample.kept_top Sample.kept_top (Sample.kept_sensible (by norm_num))
    Sample.kept_battery (Sample.kept_larger (by norm_num)) Sample.kept_heat_first Sample.kept_says.1 h h' hx hx'
    Sample.kept_ranges Sample.served_sizes (i := 3) rfl (by decide) (Sample.kept_pump (by decide)) hr hr' hk hk' hv hv').1 rfl
  exact ⟨files, files', st, st', t, t', row, row', x, x', h, h', hx, hx', hr, hr', hv, hv', g⟩

/-- C102: with turbines the study shows no larger import for the heat pump of size 10. -/
example (gekko : Gekko) : ∃ files files' e e' st st' t t' row row', ∃ x x' : ℝ,
    Report.Ends Sample.strong gekko (Sample.aired false) "study" (.ok (files, e), st) ∧
    Report.Ends Sample.strong gekko (Sample.aired true) "study" (.ok (files', e'), st') ∧
    ("output_study.csv", KpiTables.Content.table t) ∈ files ∧ ("output_study.csv", KpiTables.Content.table t') ∈ files' ∧
    t.rows[1]? = some row ∧ t'.rows[1]? = some row' ∧ row[8]? = some (some x) ∧ row'[8]? = some (some x') ∧ x' ≤ x := by
  have study : ∀ w, ∃ files e st, Report.Ends Sample.strong gekko (Sample.aired w) "study" (.ok (files, some e), st) ∧
      files.map (·.1) = Spec.tableFiles "study" := by
    intro w
    obtain ⟨s, hs⟩ := Sample.aired_setup (w := w) gekko
    obtain ⟨c1, c2, c3, c4, c5, c6⟩ := Sample.aired_cells (w := w)
    exact C101_no_store_partial Sample.strong_year Sample.aired_top Sample.aired_known hs c1
      (fun hp => Sample.aired_run _) c3 c4 c5 c6 (by omega) (by omega) c2 Sample.aired_ranges Sample.sizes (by decide) "study"
  obtain ⟨files, e, st, h, hf⟩ := study false
  obtain ⟨files', e', st', h', hf'⟩ := study true
  obtain ⟨t, row, hx, hr, hk, v, hv⟩ := output_entry Sample.aired_top h (by rw [hf]; decide) Sample.aired_ranges
    Sample.sizes (i := 1) rfl
  obtain ⟨t', row', hx', hr', hk', v', hv'⟩ := output_entry Sample.aired_top h' (by rw [hf']; decide)
    Sample.aired_ranges Sample.sizes (i := 1) rfl
  obtain ⟨x, x', rfl, rfl, g⟩ := (C102_tables Sample.aired_top Sample.aired_top Sample.aired_sensible Sample.aired_empty
    Sample.aired_same Sample.aired_cells.1 h h' hx hx' Sample.aired_ranges Sample.sizes (i := 1) rfl
    (Sample.aired_pump (by decide)) Sample.aired_more hr hr' hk hk' hv hv').1 rfl
  exact ⟨files, files', _, _, st, st', t, t', row, row', x, x', h, h', hx, hx', hr, hr', hv, hv', g⟩

end Verif
