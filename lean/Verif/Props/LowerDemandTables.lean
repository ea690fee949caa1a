import Verif.Props.LowerDemandSheet
import Verif.Props.SampleTables

/-!
# The tables of two studies that differ in the demands only (C134)
-/

set_option autoImplicit false

namespace Verif
open Spec Pandas Workbook InputReader Simulation HpConfig FixedOrder Programme

variable {L : Libs} {gekko gekko' : Gekko} {wb wb' : Pandas.Workbook}

/-- C134, the tables of two studies without stores: with lower demands on the sheet `sum_import` does not rise and
`sum_export` does not fall. -/
theorem C134_tables (ht : TopRowsEmpty wb) (ht' : TopRowsEmpty wb') (hw : Sensible wb)
    (hb : ∀ s row, wb "Electrical storage" = some s → FirstComplete s [5] [0, 1] row →
      Holds wb "Electrical storage" 'C' row 0)
    (h : SameBut ["Demand input"] wb wb') (hn : SameNetwork wb wb') (hl : LowerOnSheet wb wb')
    (h0 : ∀ r, 6 ≤ r → NotBelow wb' "Demand input" 'D' r 0)
    (hc : Says wb "Controller" 'D' 5 "Fixed order control") {root root' : String}
    {files files' : List (String × KpiTables.Content)} {e e' : Option PyErr}
    {st st' : Main.Store (List Char) Programme.Outcome Figures.Drawn}
    (he : Report.Ends L gekko wb root (.ok (files, e), st)) (he' : Report.Ends L gekko' wb' root' (.ok (files', e'), st'))
    {file file' : String} {t t' : KpiTables.Table} (hm : (file, .table t) ∈ files) (hm' : (file', .table t') ∈ files')
    {pa : Para.Ranges} {sizes : List (ℤ × ℤ)} (hpa : RangesIn wb pa) (hz : Para.combos pa = .ok sizes)
    {i k k' : ℕ} {hp : ℤ} (hi : sizes[i]? = some (hp, 0))
    (hg : ∀ S, runInputs L wb (hp, 0) = .ok S → GoodPump S)
    {row row' : List (Option ℝ)} (hr : t.rows[i]? = some row) (hr' : t'.rows[i]? = some row')
    {column : String} (hk : t.columns[k]? = some column) (hk' : t'.columns[k']? = some column) {v v' : Option ℝ}
    (hv : row[k]? = some v) (hv' : row'[k']? = some v') :
    (column = "sum_import" → ∃ x x' : ℝ, v = some x ∧ v' = some x' ∧ x' ≤ x) ∧
    (column = "sum_export" → ∃ x x' : ℝ, v = some x ∧ v' = some x' ∧ x ≤ x') := by
  obtain ⟨C, m, K, hs, ha⟩ := shown_entry ht hc he hm hpa hz hi hr hk hv
  obtain ⟨C', m', K', hs', ha'⟩ := shown_entry ht' ((says_but h (by decide)).mpr hc) he' hm'
    ((ranges_but h (by decide)).mpr hpa) hz hi hr' hk' hv'
  have hall := C134_workbook ht ht' hw hb hg h hn hl h0 hs hs'
  constructor
  · rintro rfl
    have g := sum_le_of_forall₂ (fun r => r.grid.totalImport) (fun r => r.grid.totalImport) hall.flip
      (fun a b hab => hab.1)
    simp only [Spec.columnMeaning, Kpi.sumImport, except_map_ok, Kpi.total_ok ha, Kpi.total_ok ha'] at m m'
    obtain ⟨a, q, m⟩ := m
    obtain ⟨a', q', m'⟩ := m'
    cases Except.ok.inj q
    cases Except.ok.inj q'
    refine ⟨_, _, m.symm, m'.symm, ?_⟩
    exact_mod_cast g
  · rintro rfl
    have g := sum_le_of_forall₂ (fun r => r.grid.totalExport) (fun r => r.grid.totalExport) hall
      (fun a b hab => hab.2.1)
    simp only [Spec.columnMeaning, Kpi.sumExport, except_map_ok, Kpi.total_ok ha, Kpi.total_ok ha'] at m m'
    obtain ⟨a, q, m⟩ := m
    obtain ⟨a', q', m'⟩ := m'
    cases Except.ok.inj q
    cases Except.ok.inj q'
    refine ⟨_, _, m.symm, m'.symm, ?_⟩
    exact_mod_cast g

namespace Sample

/-- The workbook of the study of C102 without turbines, after the houses were insulated and the lamps replaced. -/
def renovated : Pandas.Workbook := fun name =>
  if name = "Demand input" then some (sheet 9 8765 insulatedDemand) else aired false name

theorem renovated_top : TopRowsEmpty renovated := by
  intro name s hs k
  unfold renovated at hs
  split_ifs at hs
  · cases Option.some.inj hs; rfl
  · exact aired_top name s hs k

theorem renovated_row {r : ℕ} (h : 6 ≤ r) :
    Holds renovated "Demand input" 'D' r (((r % 7 : ℕ) : ℚ) / 2) ∧ Holds renovated "Demand input" 'E' r 1 ∧
    Holds renovated "Demand input" 'F' r 55 ∧ Holds renovated "Demand input" 'G' r 60 := insulated_row h

theorem aired_row {r : ℕ} (h : 6 ≤ r) :
    Holds (aired false) "Demand input" 'D' r ((r % 7 : ℕ) : ℚ) ∧ Holds (aired false) "Demand input" 'E' r 2 ∧
    Holds (aired false) "Demand input" 'F' r 55 ∧ Holds (aired false) "Demand input" 'G' r 60 := served_row h

theorem renovated_readable : Readable renovated :=
  let R := aired_readable (w := false)
  { parametric := R.parametric, controller := R.controller, weather := R.weather, demandGen := R.demandGen,
    demandInput := ⟨_, rfl, by decide, by decide⟩, pv := R.pv, wind := R.wind, windFarm := R.windFarm,
    battery := R.battery, grid := R.grid, aux := R.aux, thermal := R.thermal, heatPump := R.heatPump,
    orderAbove := R.orderAbove, orderBelow := R.orderBelow, fuel := R.fuel, fuel1 := R.fuel1, fuel2 := R.fuel2,
    fuel3 := R.fuel3 }

theorem renovated_filled {L : Libs} (hk : L.knownModule "Some_Module" = true) : Filled L renovated :=
  let F := aired_filled (w := false) hk
  { readable := renovated_readable, weather := F.weather, air := F.air, water := F.water, demand := ⟨_, rfl, rfl⟩,
    source := fun r h _ => ⟨_, (renovated_row h).2.2.2⟩, ret := ⟨40, rfl⟩, battery := F.battery,
    turbines := F.turbines, pv := F.pv,
    tank := F.tank, layers := F.layers, tankNumbers := F.tankNumbers, hpType := F.hpType, hpData := F.hpData,
    hpNumbers := F.hpNumbers, duties := F.duties, model := F.model, efficiency := F.efficiency, fuel := F.fuel,
    tariff := ⟨_, "Flat rates", rfl, rfl, by decide, fun _ => ⟨3, rfl⟩,
        fun h => absurd h (by decide), fun h => absurd h (by decide), fun h => absurd h (by decide)⟩ }

theorem renovated_ready (hp : ℤ) : Ready strong renovated hp :=
  let R := aired_ready (w := false) hp
  { objects := renovated_filled rfl
    demand := by
      simp only [List.forall_mem_cons, List.not_mem_nil, false_implies, implies_true, and_true]
      exact ⟨fun r h _ => ⟨_, (renovated_row h).1⟩, fun r h _ => ⟨_, (renovated_row h).2.1⟩,
        fun r h _ => ⟨_, (renovated_row h).2.2.1⟩⟩
    delta := ⟨5, rfl⟩, exportPrice := R.exportPrice
    setpoint := ⟨1, rfl⟩
    prices := fun t h => by
      cases says_inj h (show Says _ _ _ _ "Flat rates" from rfl)
      exact ⟨fun h => absurd h (by decide), fun h => absurd h (by decide), fun h => absurd h (by decide),
        fun h => absurd h (by decide)⟩
    turbines := R.turbines
    panels := R.panels
    performance := R.performance }

theorem renovated_run (size : ℤ × ℤ) : ∃ S, runInputs strong renovated size = .ok S :=
  (C94_ready strong_farm renovated_top (tail_of_height (s := pump "Simple") rfl (Nat.le_refl 47))).mpr
    (renovated_ready size.1)

theorem renovated_ranges : RangesIn renovated ⟨0, 20, 10, 0, 0, 10⟩ :=
  ⟨rfl, rfl, rfl, rfl, fun _ => rfl, fun _ => rfl⟩

theorem renovated_setup (gekko : Gekko) : ∃ s, setup strong gekko renovated = .ok s := by
  refine (C99_sets_up renovated_top).mpr ⟨renovated_readable, ⟨0, 20, 10, 0, 0, 10⟩, _, 24, 48,
    renovated_ranges, sizes, by decide, rfl, rfl, fun size _ => ?_⟩
  obtain ⟨S, hS⟩ := renovated_run size
  unfold runInputs at hS
  obtain ⟨c, hc, -⟩ := except_bind_ok.mp hS
  exact ⟨c, hc⟩

theorem renovated_cells : Says renovated "Controller" 'D' 5 "Fixed order control" ∧ Incentive renovated ∧
    Holds renovated "Parametric" 'D' 7 0 ∧ Holds renovated "Parametric" 'E' 7 0 ∧
    Holds renovated "Controller" 'G' 5 (24 : ℕ) ∧ Holds renovated "Controller" 'G' 6 (48 : ℕ) :=
  ⟨rfl, ⟨Or.inl rfl, Or.inl ⟨rfl, 20, rfl⟩⟩, rfl, rfl, rfl, rfl⟩

theorem renovated_known : KnownProcesses renovated :=
  let K := aired_known (w := false)
  ⟨K.1, K.2⟩

theorem renovated_same : SameBut ["Demand input"] (aired false) renovated := by
  intro name hn
  simp only [List.mem_cons, List.not_mem_nil, or_false] at hn
  unfold renovated
  rw [if_neg hn]

theorem renovated_network : SameNetwork (aired false) renovated where
  columns := by
    simp only [List.forall_mem_cons, List.not_mem_nil, false_implies, implies_true, and_true]
    exact ⟨fun r h => (aired_row h).2.2.1.trans (renovated_row h).2.2.1.symm,
      fun r h => (aired_row h).2.2.2.trans (renovated_row h).2.2.2.symm⟩
  cells := by
    simp only [List.forall_mem_cons, List.not_mem_nil, false_implies, implies_true, and_true]
    exact ⟨rfl, rfl⟩
  length := rfl

theorem renovated_lower : LowerOnSheet (aired false) renovated := by
  unfold LowerOnSheet
  simp only [List.forall_mem_cons, List.not_mem_nil, false_implies, implies_true, and_true]
  refine ⟨fun r h x x' hx hx' => ?_, fun r h x x' hx hx' => ?_⟩
  · rw [holds_inj hx (aired_row h).1, holds_inj hx' (renovated_row h).1]
    have : (0 : ℚ) ≤ ((r % 7 : ℕ) : ℚ) := Nat.cast_nonneg _
    linarith
  · rw [holds_inj hx (aired_row h).2.1, holds_inj hx' (renovated_row h).2.1]
    norm_num

theorem renovated_heat : ∀ r, 6 ≤ r → NotBelow renovated "Demand input" 'D' r 0 := fun r hr y hy => by
  rw [holds_inj hy (renovated_row hr).1]
  exact div_nonneg (Nat.cast_nonneg _) (by norm_num)

end Sample

attribute [local irreducible] Report.Ends Sample.aired Sample.renovated simulate

/-- C134: with half the demands the study shows no larger import for the heat pump of size 10. -/
example (gekko : Gekko) : ∃ files files' e e' st st' t t' row row', ∃ x x' : ℝ,
    Report.Ends Sample.strong gekko (Sample.aired false) "study" (.ok (files, e), st) ∧
    Report.Ends Sample.strong gekko Sample.renovated "study" (.ok (files', e'), st') ∧
    ("output_study.csv", KpiTables.Content.table t) ∈ files ∧ ("output_study.csv", KpiTables.Content.table t') ∈ files' ∧
    t.rows[1]? = some row ∧ t'.rows[1]? = some row' ∧ row[8]? = some (some x) ∧ row'[8]? = some (some x') ∧ x' ≤ x := by
  obtain ⟨s, hs⟩ := Sample.aired_setup (w := false) gekko
  obtain ⟨s', hs'⟩ := Sample.renovated_setup gekko
  obtain ⟨c1, c2, c3, c4, c5, c6⟩ := Sample.aired_cells (w := false)
  obtain ⟨d1, d2, d3, d4, d5, d6⟩ := Sample.renovated_cells
  obtain ⟨files, e, st, h, hf⟩ := C101_no_store_partial Sample.strong_year Sample.aired_top Sample.aired_known hs c1
    (fun hp => Sample.aired_run _) c3 c4 c5 c6 (by omega) (by omega) c2 Sample.aired_ranges Sample.sizes (by decide) "study"
  obtain ⟨files', e', st', h', hf'⟩ := C101_no_store_partial Sample.strong_year Sample.renovated_top
    Sample.renovated_known hs' d1 (fun hp => Sample.renovated_run _) d3 d4 d5 d6 (by omega) (by omega) d2
    Sample.renovated_ranges Sample.sizes (by decide) "study"
  obtain ⟨t, row, hx, hr, hk, v, hv⟩ := output_entry Sample.aired_top h (by rw [hf]; decide) Sample.aired_ranges
    Sample.sizes (i := 1) rfl
  obtain ⟨t', row', hx', hr', hk', v', hv'⟩ := output_entry Sample.renovated_top h' (by rw [hf']; decide)
    Sample.renovated_ranges Sample.sizes (i := 1) rfl
  obtain ⟨x, x', rfl, rfl, g⟩ := (C134_tables Sample.aired_top Sample.renovated_top Sample.aired_sensible
    Sample.aired_empty Sample.renovated_same Sample.renovated_network Sample.renovated_lower Sample.renovated_heat
    c1 h h' hx hx' Sample.aired_ranges Sample.sizes (i := 1) rfl (Sample.aired_pump (by decide)) hr hr' hk hk' hv
    hv').1 rfl
  exact ⟨files, files', _, _, st, st', t, t', row, row', x, x', h, h', hx, hx', hr, hr', hv, hv', g⟩

end Verif
