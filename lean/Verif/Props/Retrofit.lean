import Verif.Props.LowerDemandTables
import Verif.Props.SamplePredictive

/-!
# Lower demands and a larger heat pump together (C135)
-/

set_option autoImplicit false

namespace Verif
open Spec Pandas Workbook InputReader Simulation HpConfig FixedOrder Programme

variable {L : Libs} {gekko gekko' : Gekko} {wb wb' : Pandas.Workbook}

/-- The run of the old workbook with the new heat pump: it exists whenever one with another size does. -/
theorem other_pump_runs (hL : WholeYear L) (hF : FarmYear L) (W : PumpStudy wb) (hte : TailEmpty wb)
    (hk : KnownProcesses wb) {hp : ℤ} (hp' : ℤ) {first n : ℕ} (h1 : Holds wb "Controller" 'G' 5 first)
    (h2 : Holds wb "Controller" 'G' 6 n) (hy : first + n ≤ 8760) {rs : List (Results (List ℚ))}
    (h : simulate L wb (hp, 0) = .ok rs) : ∃ rs', simulate L wb (hp', 0) = .ok rs' := by
  obtain ⟨S, first', n', hS, -⟩ := simulate_ok.mp h
  have R : Ready L wb hp := (C94_ready (size := (hp, 0)) hF W.top hte).mp ⟨S, hS⟩
  obtain ⟨S', hS'⟩ := (C94_ready (size := (hp', 0)) hF W.top hte).mpr
    { objects := R.objects, demand := R.demand, delta := R.delta, exportPrice := R.exportPrice
      setpoint := R.setpoint, prices := R.prices, turbines := R.turbines, panels := R.panels
      performance := .inr (.inl W.model) }
  obtain ⟨rs', h', -⟩ := C99_simulates_partial hL W.top hk rfl hS' h1 h2 hy
  exact ⟨rs', h'⟩

/-- C135, from the workbook: lower the demands and fit a larger heat pump at the same time. In no hour does the import
rise. If an exported kWh earns no more than an imported one costs, no hour's cash flow falls. -/
theorem C135_workbook (hL : WholeYear L) (hF : FarmYear L) (W : PumpStudy wb) (hte : TailEmpty wb)
    (hk : KnownProcesses wb) (ht' : TopRowsEmpty wb') (h : SameBut ["Demand input"] wb wb') (hn : SameNetwork wb wb')
    (hl : LowerOnSheet wb wb') (hd : ∀ r, 6 ≤ r → NotBelow wb' "Demand input" 'D' r 0) {first n : ℕ}
    (h1 : Holds wb "Controller" 'G' 5 first) (h2 : Holds wb "Controller" 'G' 6 n) (hy : first + n ≤ 8760)
    {hp hp' : ℤ} (h0 : 0 ≤ hp) (hle : hp ≤ hp') {rs rs' : List (Results (List ℚ))}
    (hr : simulate L wb (hp, 0) = .ok rs) (hr' : simulate L wb' (hp', 0) = .ok rs') :
    List.Forall₂ (fun r r' => r'.grid.totalImport ≤ r.grid.totalImport ∧
      (ExportCheaper L wb hp → ExportCheaper L wb hp' → r.grid.cashflow ≤ r'.grid.cashflow)) rs rs' := by
  obtain ⟨mid, hm⟩ := other_pump_runs hL hF W hte hk hp' h1 h2 hy hr
  have a := C119_workbook W h0 hle hr hm
  have b := C134_workbook W.top ht' W.sensible W.battery (fun S hS => C99_simple_pump hS
    (.inr ⟨h0.trans hle, W.model, fun c hc => by linarith [W.cop c hc]⟩)) h hn hl hd hm hr'
  have b' := (List.forall₂_and_left _ _).mpr ⟨fun r hr => hr, b⟩
  clear b hr hr'
  have key : ∀ {x y z : List (Results (List ℚ))}, (∀ r ∈ y, r ∈ mid) →
      List.Forall₂ (fun r r' => r'.grid.totalImport ≤ r.grid.totalImport ∧
        (ExportCheaper L wb hp → r.grid.cashflow ≤ r'.grid.cashflow)) x y →
      List.Forall₂ (fun r r' => r ∈ mid ∧ r'.grid.totalImport ≤ r.grid.totalImport ∧
        r.grid.totalExport ≤ r'.grid.totalExport ∧
        (0 ≤ r.grid.importPrice → NotBelow wb "Grid" 'D' 9 0 → r.grid.cashflow ≤ r'.grid.cashflow) ∧
        (0 ≤ r.grid.importPrice → (∀ k ∈ [9, 10, 11], NotBelow wb "Aux heat" 'E' k 0) → r'.aux.cost ≤ r.aux.cost)) y z →
      List.Forall₂ (fun r r' => r'.grid.totalImport ≤ r.grid.totalImport ∧
        (ExportCheaper L wb hp → ExportCheaper L wb hp' → r.grid.cashflow ≤ r'.grid.cashflow)) x z := by
    intro x y z hy' p q
    induction p generalizing z with
    | nil => cases q; exact .nil
    | cons p1 p2 ih =>
      cases q with
      | cons q1 q2 =>
        refine .cons ⟨q1.2.1.trans p1.1, fun e e' => (p1.2 e).trans ?_⟩
          (ih (fun r hr => hy' r (List.mem_cons_of_mem _ hr)) q2)
        obtain ⟨ex, e1, e2, e3⟩ := e'
        refine q1.2.2.2.1 (e2.trans (e3 mid hm _ q1.1)) fun v hv => ?_
        rw [Except.ok.inj (congrArg numOf (hv.symm.trans e1))]
        exact e2
  exact key (fun r hr => hr) a b'

/-- C135, the tables of two studies: the row of the larger heat pump in the study with lower demands has no larger
`sum_import`, and if an exported kWh earns no more than an imported one costs, no larger `opex`. -/
theorem C135_tables (hL : WholeYear L) (hF : FarmYear L) (W : PumpStudy wb) (hte : TailEmpty wb)
    (hk : KnownProcesses wb) (ht' : TopRowsEmpty wb') (h : SameBut ["Demand input"] wb wb') (hn : SameNetwork wb wb')
    (hl : LowerOnSheet wb wb') (hd : ∀ r, 6 ≤ r → NotBelow wb' "Demand input" 'D' r 0) {first n : ℕ}
    (h1 : Holds wb "Controller" 'G' 5 first) (h2 : Holds wb "Controller" 'G' 6 n) (hy : first + n ≤ 8760)
    (hc : Says wb "Controller" 'D' 5 "Fixed order control") {root root' : String}
    {files files' : List (String × KpiTables.Content)} {e e' : Option PyErr}
    {st st' : Main.Store (List Char) Programme.Outcome Figures.Drawn}
    (he : Report.Ends L gekko wb root (.ok (files, e), st)) (he' : Report.Ends L gekko' wb' root' (.ok (files', e'), st'))
    {file file' : String} {t t' : KpiTables.Table} (hm : (file, .table t) ∈ files) (hm' : (file', .table t') ∈ files')
    {pa : Para.Ranges} {sizes : List (ℤ × ℤ)} (hpa : RangesIn wb pa) (hz : Para.combos pa = .ok sizes)
    {hp hp' : ℤ} (h0 : 0 ≤ hp) (hle : hp ≤ hp') {i i' k k' : ℕ} (hi : sizes[i]? = some (hp, 0))
    (hi' : sizes[i']? = some (hp', 0)) {row row' : List (Option ℝ)} (hr : t.rows[i]? = some row)
    (hr' : t'.rows[i']? = some row') {column : String} (hcol : t.columns[k]? = some column)
    (hcol' : t'.columns[k']? = some column) {v v' : Option ℝ} (hv : row[k]? = some v) (hv' : row'[k']? = some v')
    (hcase : column = "sum_import" ∨ column = "opex" ∧ ExportCheaper L wb hp ∧ ExportCheaper L wb hp') :
    ∃ x x' : ℝ, v = some x ∧ v' = some x' ∧ x' ≤ x := by
  obtain ⟨C, m, K, hs, ha⟩ := shown_entry W.top hc he hm hpa hz hi hr hcol hv
  obtain ⟨C', m', K', hs', ha'⟩ := shown_entry ht' ((says_but h (by decide)).mpr hc) he' hm'
    ((ranges_but h (by decide)).mpr hpa) hz hi' hr' hcol' hv'
  have hall := C135_workbook hL hF W hte hk ht' h hn hl hd h1 h2 hy h0 hle hs hs'
  rcases hcase with rfl | ⟨rfl, hx, hx'⟩
  · have g := sum_le_of_forall₂ (fun r => r.grid.totalImport) (fun r => r.grid.totalImport) hall.flip
      (fun a b hab => hab.1)
    simp only [Spec.columnMeaning, Kpi.sumImport, except_map_ok, Kpi.total_ok ha, Kpi.total_ok ha'] at m m'
    obtain ⟨a, q, m⟩ := m
    obtain ⟨a', q', m'⟩ := m'
    cases Except.ok.inj q
    cases Except.ok.inj q'
    refine ⟨_, _, m.symm, m'.symm, ?_⟩
    exact_mod_cast g
  · have g := sum_le_of_forall₂ (fun r => r.grid.cashflow) (fun r => r.grid.cashflow) hall
      (fun a b hab => hab.2 hx hx')
    have el := K.heater.mpr W.heater
    have el' := K'.heater.mpr (by
      have q := W.heater
      unfold excel at q ⊢
      rw [h "Aux heat" (by decide)]
      exact q)
    have neg : ∀ l : List (Results (List ℚ)), ((l.map (·.grid.cashflow)).map (- ·)).sum =
        -(l.map (·.grid.cashflow)).sum := by
      intro l
      induction l with
      | nil => rfl
      | cons a l ih => simp only [List.map_cons, List.sum_cons, ih]; ring
    have op : ∀ {D : Kpi.Calcs (List ℚ)}, AllHours D → D.electric = true →
        Kpi.operatingCost D = .ok (-(D.results.map (·.grid.cashflow)).sum / 1000) := by
      intro D hD hel
      unfold Kpi.operatingCost
      rw [Kpi.series_ok hD, Kpi.series_ok hD]
      simp only [hel, if_true]
      show Except.ok _ = Except.ok _
      rw [neg]
    simp only [Spec.columnMeaning, except_map_ok, op ha el, op ha' el'] at m m'
    obtain ⟨a, q, m⟩ := m
    obtain ⟨a', q', m'⟩ := m'
    cases Except.ok.inj q
    cases Except.ok.inj q'
    refine ⟨_, _, m.symm, m'.symm, ?_⟩
    have : -(C'.results.map (·.grid.cashflow)).sum / 1000 ≤ -(C.results.map (·.grid.cashflow)).sum / 1000 := by
      linarith
    exact_mod_cast this

namespace Sample

/-- The demands of the sample after insulation and new lamps. -/
def retrofittedDemand (r c : ℕ) : Value :=
  if c = 3 then num (((r % 7 : ℕ) : ℚ) / 2)
  else if c = 4 then num 1
  else demandCell r c

/-- The all-electric sample of C119 with those demands. -/
def retrofitted : Pandas.Workbook := fun name =>
  if name = "Demand input" then some (sheet 9 8765 retrofittedDemand) else allElectric name

theorem retrofitted_top : TopRowsEmpty retrofitted := by
  intro name s hs k
  unfold retrofitted at hs
  split_ifs at hs
  · cases Option.some.inj hs; rfl
  · exact electric_top name s hs k

theorem retrofitted_row {r : ℕ} (h : 6 ≤ r) :
    Holds retrofitted "Demand input" 'D' r (((r % 7 : ℕ) : ℚ) / 2) ∧ Holds retrofitted "Demand input" 'E' r 1 ∧
    Holds retrofitted "Demand input" 'F' r 60 ∧ Holds retrofitted "Demand input" 'G' r 55 := by
  have h1 : ¬ r ≤ 1 := by omega
  exact ⟨if_neg h1, if_neg h1, if_neg h1, if_neg h1⟩

theorem electric_row_demand {r : ℕ} (h : 6 ≤ r) :
    Holds allElectric "Demand input" 'D' r ((r % 7 : ℕ) : ℚ) ∧ Holds allElectric "Demand input" 'E' r 2 ∧
    Holds allElectric "Demand input" 'F' r 60 ∧ Holds allElectric "Demand input" 'G' r 55 := by
  have h1 : ¬ r ≤ 1 := by omega
  exact ⟨if_neg h1, if_neg h1, if_neg h1, if_neg h1⟩

theorem electric_tail : TailEmpty allElectric := tail_of_height (s := pump "Simple") rfl (Nat.le_refl 47)

theorem retrofitted_same : SameBut ["Demand input"] allElectric retrofitted := by
  intro name hn
  simp only [List.mem_cons, List.not_mem_nil, or_false] at hn
  unfold retrofitted
  rw [if_neg hn]

theorem retrofitted_network : SameNetwork allElectric retrofitted where
  columns := by
    simp only [List.forall_mem_cons, List.not_mem_nil, false_implies, implies_true, and_true]
    exact ⟨fun r h => (electric_row_demand h).2.2.1.trans (retrofitted_row h).2.2.1.symm,
      fun r h => (electric_row_demand h).2.2.2.trans (retrofitted_row h).2.2.2.symm⟩
  cells := by
    simp only [List.forall_mem_cons, List.not_mem_nil, false_implies, implies_true, and_true]
    exact ⟨rfl, rfl⟩
  length := rfl

theorem retrofitted_lower : LowerOnSheet allElectric retrofitted := by
  unfold LowerOnSheet
  simp only [List.forall_mem_cons, List.not_mem_nil, false_implies, implies_true, and_true]
  refine ⟨fun r h x x' hx hx' => ?_, fun r h x x' hx hx' => ?_⟩
  · rw [holds_inj hx (electric_row_demand h).1, holds_inj hx' (retrofitted_row h).1]
    have : (0 : ℚ) ≤ ((r % 7 : ℕ) : ℚ) := Nat.cast_nonneg _
    linarith
  · rw [holds_inj hx (electric_row_demand h).2.1, holds_inj hx' (retrofitted_row h).2.1]
    norm_num

theorem retrofitted_heat : ∀ r, 6 ≤ r → NotBelow retrofitted "Demand input" 'D' r 0 := fun r hr y hy => by
  rw [holds_inj hy (retrofitted_row hr).1]
  exact div_nonneg (Nat.cast_nonneg _) (by norm_num)

theorem retrofitted_readable : Readable retrofitted :=
  let R := electric_readable
  { parametric := R.parametric, controller := R.controller, weather := R.weather, demandGen := R.demandGen,
    demandInput := ⟨_, rfl, by decide, by decide⟩, pv := R.pv, wind := R.wind, windFarm := R.windFarm,
    battery := R.battery, grid := R.grid, aux := R.aux, thermal := R.thermal, heatPump := R.heatPump,
    orderAbove := R.orderAbove, orderBelow := R.orderBelow, fuel := R.fuel, fuel1 := R.fuel1, fuel2 := R.fuel2,
    fuel3 := R.fuel3 }

theorem retrofitted_filled : Filled libs retrofitted :=
  let F := electric_filled (L := libs) rfl
  { readable := retrofitted_readable, weather := F.weather, air := F.air, water := F.water, demand := ⟨_, rfl, rfl⟩,
    source := fun r h _ => ⟨_, (retrofitted_row h).2.2.2⟩, ret := ⟨40, rfl⟩, battery := F.battery,
    turbines := F.turbines, pv := F.pv,
    tank := F.tank, layers := F.layers, tankNumbers := F.tankNumbers, hpType := F.hpType, hpData := F.hpData,
    hpNumbers := F.hpNumbers, duties := F.duties, model := F.model, efficiency := F.efficiency, fuel := F.fuel,
    tariff := ⟨_, "Flat rates", rfl, rfl, by decide, fun _ => ⟨3, rfl⟩,
        fun h => absurd h (by decide), fun h => absurd h (by decide), fun h => absurd h (by decide)⟩ }

theorem electric_ready (hp : ℤ) : Ready libs allElectric hp :=
  (C94_ready (size := (hp, 0)) libs_farm electric_top electric_tail).mp (electric_made rfl (hp, 0))

theorem retrofitted_ready (hp : ℤ) : Ready libs retrofitted hp :=
  let R := electric_ready hp
  { objects := retrofitted_filled
    demand := by
      simp only [List.forall_mem_cons, List.not_mem_nil, false_implies, implies_true, and_true]
      exact ⟨fun r h _ => ⟨_, (retrofitted_row h).1⟩, fun r h _ => ⟨_, (retrofitted_row h).2.1⟩,
        fun r h _ => ⟨_, (retrofitted_row h).2.2.1⟩⟩
    delta := ⟨5, rfl⟩, exportPrice := R.exportPrice
    setpoint := ⟨1, rfl⟩
    prices := fun t h => by
      cases says_inj h (show Says _ _ _ _ "Flat rates" from rfl)
      exact ⟨fun h => absurd h (by decide), fun h => absurd h (by decide), fun h => absurd h (by decide),
        fun h => absurd h (by decide)⟩
    turbines := R.turbines
    panels := R.panels
    performance := R.performance }

theorem retrofitted_run (size : ℤ × ℤ) : ∃ S, runInputs libs retrofitted size = .ok S :=
  (C94_ready libs_farm retrofitted_top (tail_of_height (s := pump "Simple") rfl (Nat.le_refl 47))).mpr
    (retrofitted_ready size.1)

theorem retrofitted_known : KnownProcesses retrofitted := ⟨electric_known.1, electric_known.2⟩

theorem retrofitted_cells : Holds retrofitted "Controller" 'G' 5 (24 : ℕ) ∧ Holds retrofitted "Controller" 'G' 6 (48 : ℕ) ∧
    Holds retrofitted "Parametric" 'D' 7 0 ∧ Holds retrofitted "Parametric" 'E' 7 0 ∧
    Says retrofitted "Controller" 'D' 5 "Fixed order control" ∧ Incentive retrofitted :=
  ⟨rfl, rfl, rfl, rfl, rfl, electric_incentive.1, electric_incentive.2⟩

theorem retrofitted_ranges : RangesIn retrofitted ⟨0, 20, 10, 0, 0, 10⟩ :=
  ⟨rfl, rfl, rfl, rfl, fun _ => rfl, fun _ => rfl⟩

theorem retrofitted_setup (gekko : Gekko) : ∃ s, setup libs gekko retrofitted = .ok s := by
  refine (C99_sets_up retrofitted_top).mpr ⟨retrofitted_readable, ⟨0, 20, 10, 0, 0, 10⟩, [(0, 0), (10, 0), (20, 0)],
    24, 48, retrofitted_ranges, sizes, by decide, retrofitted_cells.1, retrofitted_cells.2.1, fun size _ => ?_⟩
  obtain ⟨S, hS⟩ := retrofitted_run size
  unfold runInputs at hS
  obtain ⟨c, hc, -⟩ := except_bind_ok.mp hS
  exact ⟨c, hc⟩

end Sample

attribute [local irreducible] Report.Ends Sample.allElectric Sample.retrofitted simulate

/-- C135: half the demands and a heat pump of 20 instead of 10 import no more in any of the 48 hours, and cost no more. -/
example : ∃ rs rs', simulate Sample.libs Sample.allElectric (10, 0) = .ok rs ∧
    simulate Sample.libs Sample.retrofitted (20, 0) = .ok rs' ∧ rs.length = 48 ∧
    List.Forall₂ (fun r r' => r'.grid.totalImport ≤ r.grid.totalImport ∧ r.grid.cashflow ≤ r'.grid.cashflow) rs rs' := by
  obtain ⟨S, hS⟩ := Sample.electric_made (L := Sample.libs) rfl (10, 0)
  obtain ⟨S', hS'⟩ := Sample.retrofitted_run (20, 0)
  obtain ⟨d1, d2, -⟩ := Sample.retrofitted_cells
  obtain ⟨rs, h, hl⟩ := C99_simulates_partial Sample.libs_year Sample.electric_top Sample.electric_known rfl hS
    Sample.electric_from24 Sample.electric_for48 (by omega)
  obtain ⟨rs', h', hl'⟩ := C99_simulates_partial Sample.libs_year Sample.retrofitted_top Sample.retrofitted_known rfl hS'
    d1 d2 (by omega)
  exact ⟨rs, rs', h, h', hl, (C135_workbook Sample.libs_year Sample.libs_farm Sample.electric_study
    Sample.electric_tail Sample.electric_known Sample.retrofitted_top Sample.retrofitted_same Sample.retrofitted_network
    Sample.retrofitted_lower Sample.retrofitted_heat Sample.electric_from24 Sample.electric_for48 (by omega)
    (by decide) (by decide) h h').imp fun _ _ x => ⟨x.1, x.2 (Sample.electric_cheaper (by decide))
      (Sample.electric_cheaper (by decide))⟩⟩

/-- C135: the study with half the demands shows for the heat pump of 20 no larger import than the old study for 10. -/
example (gekko : Gekko) : ∃ files files' e e' st st' t t' row row', ∃ x x' : ℝ,
    Report.Ends Sample.libs gekko Sample.allElectric "study" (.ok (files, e), st) ∧
    Report.Ends Sample.libs gekko Sample.retrofitted "study" (.ok (files', e'), st') ∧
    ("output_study.csv", KpiTables.Content.table t) ∈ files ∧ ("output_study.csv", KpiTables.Content.table t') ∈ files' ∧
    t.rows[1]? = some row ∧ t'.rows[2]? = some row' ∧ row[8]? = some (some x) ∧ row'[8]? = some (some x') ∧ x' ≤ x := by
  obtain ⟨s, hs⟩ := Sample.electric_setup gekko
  obtain ⟨s', hs'⟩ := Sample.retrofitted_setup gekko
  obtain ⟨d1, d2, d3, d4, d5, d6⟩ := Sample.retrofitted_cells
  obtain ⟨files, e, st, h, hf⟩ := C101_no_store_partial (wb := Sample.allElectric) Sample.libs_year
    Sample.electric_top Sample.electric_known hs Sample.electric_fixed (fun hp => Sample.electric_made rfl _)
    Sample.electric_no_store.1 Sample.electric_no_store.2 Sample.electric_from24 Sample.electric_for48
    (by omega) (by omega) Sample.electric_incentive Sample.electric_ranges Sample.sizes (by decide) "study"
  obtain ⟨files', e', st', h', hf'⟩ := C101_no_store_partial (wb := Sample.retrofitted) Sample.libs_year
    Sample.retrofitted_top Sample.retrofitted_known hs' d5 (fun hp => Sample.retrofitted_run _) d3 d4 d1 d2
    (by omega) (by omega) d6 Sample.retrofitted_ranges Sample.sizes (by decide) "study"
  obtain ⟨t, row, hx, hr, hk, v, hv⟩ := output_entry Sample.electric_top h (by rw [hf]; decide) Sample.electric_ranges
    Sample.sizes (i := 1) rfl
  obtain ⟨t', row', hx', hr', hk', v', hv'⟩ := output_entry Sample.retrofitted_top h' (by rw [hf']; decide)
    Sample.retrofitted_ranges Sample.sizes (i := 2) rfl
  obtain ⟨x, x', rfl, rfl, g⟩ := C135_tables (hp := 10) (hp' := 20) Sample.libs_year Sample.libs_farm
    Sample.electric_study Sample.electric_tail Sample.electric_known Sample.retrofitted_top Sample.retrofitted_same
    Sample.retrofitted_network Sample.retrofitted_lower Sample.retrofitted_heat Sample.electric_from24
    Sample.electric_for48 (by omega) Sample.electric_fixed h h' hx hx' Sample.electric_ranges Sample.sizes (by decide)
    (by decide) (i := 1) (i' := 2) rfl rfl hr hr' hk hk' hv hv' (.inl rfl)
  exact ⟨files, files', _, _, st, st', t, t', row, row', x, x', h, h', hx, hx', hr, hr', hv, hv', g⟩

end Verif
