import Verif.Lemmas.ReportStage

/-!
# C101: a study with its figures and tables, from the workbook
-/

set_option autoImplicit false

namespace Verif
open Pandas Simulation Spec Programme FixedOrder Report Kpi KpiTables

variable {L : Libs} {gekko : Gekko} {wb : Pandas.Workbook} {root : String}


/-! ## What is written -/

/-- C101, the tables. Every table a study writes has one row for each combination of the ranges in the
workbook, in their order. The entries of a row are the indicators its columns name, of the results which the
controller named in the workbook gives for that combination, with the hours, heater, heat incentive, tariff
and wind farm of the workbook. -/
theorem C101_tables (ht : TopRowsEmpty wb) {files : List (String × Content)} {e : Option PyErr}
    {st : Main.Store (List Char) Programme.Outcome Figures.Drawn}
    (h : Report.Ends L gekko wb root (.ok (files, e), st)) {file : String} {t : KpiTables.Table}
    (hf : (file, .table t) ∈ files) :
    (file, t.columns) ∈ Spec.tableColumns root ∧
    ∃ pa sizes, RangesIn wb pa ∧ Para.combos pa = .ok sizes ∧ t.rows.length = sizes.length ∧
      ∀ (i : ℕ) (size : ℤ × ℤ), sizes[i]? = some size → ∃ C row, t.rows[i]? = some row ∧
        Spec.RowOf t.columns size C row ∧ KpiCells L wb size C ∧ RunOf L gekko wb size C.results := by
  obtain ⟨base, dir, pa, sizes, R⟩ := ends_reached h
  rcases tables_cases (L := L) R.study root st.results with ⟨⟨e', he⟩, -⟩ | ⟨hin, he⟩
  · rw [R.stage] at he
    cases he
    cases hf
  · rw [R.stage] at he
    rw [show files = _ from congrArg Prod.fst he] at hf
    obtain ⟨h1, cs, hcs, hlen, hrows⟩ := C88_tables hf
    cases Except.ok.inj (hcs.symm.trans R.study.combos)
    refine ⟨h1, pa, sizes, R.study.cells, R.study.combos, hlen, fun i size hi => ?_⟩
    obtain ⟨rs, row, hrs, hrow, hro⟩ := hrows i size hi
    have hz := List.mem_of_getElem? hi
    obtain ⟨o, ho, hst, -⟩ := R.solved size hz
    obtain ⟨c, hc, hC⟩ := hin size hz
    rw [hst] at hrs
    cases Option.some.inj hrs
    exact ⟨_, row, hrow, hro, calcsOf_ok ht hc hC _, ho⟩

/-- C101, the charts. Every chart a study writes has one point for each combination, at the sizes its axes
name and as high as the indicator of its vertical axis, computed as for the tables. -/
theorem C101_charts (ht : TopRowsEmpty wb) {files : List (String × Content)} {e : Option PyErr}
    {st : Main.Store (List Char) Programme.Outcome Figures.Drawn}
    (h : Report.Ends L gekko wb root (.ok (files, e), st)) {file : String} {s : Surface}
    (hf : (file, .surface s) ∈ files) :
    ∃ column, (file, s.zLabel, column) ∈ Spec.charts ∧
    ∃ pa sizes, RangesIn wb pa ∧ Para.combos pa = .ok sizes ∧ s.points.length = sizes.length ∧
      ∀ (i : ℕ) (size : ℤ × ℤ), sizes[i]? = some size → ∃ C x y v, s.points[i]? = some ((x, y), v) ∧
        Spec.axisMeaning s.xLabel size = some x ∧ Spec.axisMeaning s.yLabel size = some y ∧
        Spec.columnMeaning column size C = .ok v ∧ KpiCells L wb size C ∧ RunOf L gekko wb size C.results := by
  obtain ⟨base, dir, pa, sizes, R⟩ := ends_reached h
  rcases tables_cases (L := L) R.study root st.results with ⟨⟨e', he⟩, -⟩ | ⟨hin, he⟩
  · rw [R.stage] at he
    cases he
    cases hf
  · rw [R.stage] at he
    rw [show files = _ from congrArg Prod.fst he] at hf
    obtain ⟨column, cs, h1, hcs, hlen, hpts⟩ := C90_charts hf
    cases Except.ok.inj (hcs.symm.trans R.study.combos)
    refine ⟨column, h1, pa, sizes, R.study.cells, R.study.combos, hlen, fun i size hi => ?_⟩
    obtain ⟨rs, x, y, v, hrs, p1, p2, p3, p4⟩ := hpts i size hi
    have hz := List.mem_of_getElem? hi
    obtain ⟨o, ho, hst, -⟩ := R.solved size hz
    obtain ⟨c, hc, hC⟩ := hin size hz
    rw [hst] at hrs
    cases Option.some.inj hrs
    exact ⟨_, x, y, v, p1, p2, p3, p4, calcsOf_ok ht hc hC _, ho⟩

/-- C101, the figures: those drawn for each combination show its results, for the hours written in the
workbook; no other folder has figures. -/
theorem C101_figures {k : Stage} {st : Main.Store (List Char) Programme.Outcome Figures.Drawn}
    (h : Report.Ends L gekko wb root (.ok k, st)) :
    ∃ pa sizes, RangesIn wb pa ∧ Para.combos pa = .ok sizes ∧
      (∀ size ∈ sizes, ∃ (rs : List (Results (List ℚ))) (first n : ℕ), RunOf L gekko wb size rs ∧
        Holds wb "Controller" 'G' 5 first ∧ Holds wb "Controller" 'G' 6 n ∧
        Figures.runPlots rs n first = .ok (st.figures (Para.folderName size))) ∧
      ∀ name, (∀ size ∈ sizes, name ≠ Para.folderName size) → st.figures name = [] := by
  obtain ⟨base, dir, pa, sizes, R⟩ := ends_reached h
  refine ⟨pa, sizes, R.study.cells, R.study.combos, fun size hz => ?_, fun name hn => (R.others name hn).2⟩
  obtain ⟨o, ho, -, hfig, hnone⟩ := R.solved size hz
  obtain ⟨c, hc, hd⟩ := R.study.pickles size hz
  obtain ⟨first, n, h1, h2, h3⟩ := plots_ok hc hd hnone
  exact ⟨rows o, first, n, ho, h1, h2, by rw [hfig]; exact h3⟩

/-! ## What is not written -/

/-- C101 is false without a known scheme and tariff of the heat incentive: whatever the results are, no table
and no chart is written, and the programme ends with an exception. -/
theorem C101_no_incentive (ht : TopRowsEmpty wb) {files : List (String × Content)} {e : Option PyErr}
    {st : Main.Store (List Char) Programme.Outcome Figures.Drawn}
    (h : Report.Ends L gekko wb root (.ok (files, e), st))
    (hno : ¬ ((Says wb "Heat pump" 'N' 5 "Domestic" ∨ Says wb "Heat pump" 'N' 5 "Non-domestic") ∧
      (Says wb "Heat pump" 'N' 6 "Fixed" ∨ Says wb "Heat pump" 'N' 6 "Tiered"))) :
    files = [] ∧ e ≠ none := by
  obtain ⟨base, dir, pa, sizes, R⟩ := ends_reached h
  have hne : sizes ≠ [] := by
    unfold Report.Ends at h
    split at h
    · cases h
    · obtain ⟨s, hs, -⟩ := ends_ok h
      obtain ⟨pa', sizes', ctl, first, n, Z⟩ := setup_ok hs
      have := Z.names.symm.trans (setup_names hs R.study)
      rintro rfl
      exact Z.nonempty (List.map_eq_nil_iff.mp this)
  obtain ⟨size, hz⟩ := List.exists_mem_of_ne_nil _ hne
  rcases tables_cases (L := L) R.study root st.results with ⟨⟨e', he⟩, -⟩ | ⟨hin, he⟩
  · rw [R.stage] at he
    cases he
    exact ⟨rfl, fun h => by cases h⟩
  · rw [R.stage] at he
    obtain ⟨c, hc, hC⟩ := hin size hz
    obtain ⟨e', he'⟩ := no_indicators (outputs := fun name => (st.results name).map rows)
      (inputs := inputsAt L dir) R.study.combos hz (fun rs i _ hi => hno (by
        have K := calcsOf_ok ht hc hC rs
        obtain ⟨a, b⟩ := indicators_rhi hi
        exact ⟨a.imp (K.scheme _ (by decide)).mp (K.scheme _ (by decide)).mp,
          b.imp (K.incentive _ (by decide)).mp (K.incentive _ (by decide)).mp⟩)) root
    rw [he'] at he
    cases he
    exact ⟨rfl, fun h => by cases h⟩

/-! ## What is written in full -/

/-- C101, all files. If the cells of the heat incentive are filled in and no size is negative, the six tables
are written. With two sizes of heat pump and two sizes of store the eight charts follow and the programme ends
without an exception; otherwise no chart is written and it ends with one. -/
theorem C101_written (ht : TopRowsEmpty wb) {files : List (String × Content)} {e : Option PyErr}
    {st : Main.Store (List Char) Programme.Outcome Figures.Drawn}
    (h : Report.Ends L gekko wb root (.ok (files, e), st)) (hinc : Incentive wb) {pa : Para.Ranges}
    {sizes : List (ℤ × ℤ)} (hpa : RangesIn wb pa) (hz : Para.combos pa = .ok sizes)
    (hpos : ∀ z ∈ sizes, 0 ≤ z.1 ∧ 0 ≤ z.2) :
    (Spec.TwoDimensional sizes → files.map (·.1) = Spec.tableFiles root ++ Spec.chartFiles ∧ e = none) ∧
    (¬ Spec.TwoDimensional sizes → files.map (·.1) = Spec.tableFiles root ∧ e ≠ none) := by
  obtain ⟨base, dir, pa', sizes', R⟩ := ends_reached h
  cases Except.ok.inj (hz.symm.trans ((ranges_combos hpa R.study.cells).trans R.study.combos))
  obtain ⟨S, hl, e1, hex, he⟩ := stage_ready ht R hinc hpos
  obtain ⟨f1, f2, f3⟩ := runKpis_files hl (C88_made hex root).choose_spec
  rw [e1, ← he] at f2
  rw [e1, ← he] at f3
  refine ⟨f2, fun h2 => ?_⟩
  have := f3 h2
  rw [show files = _ from congrArg Prod.fst this, show e = _ from congrArg Prod.snd this]
  exact ⟨f1, fun h => by cases h⟩

/-- C101: a study with one size of heat pump, or one size of store, never ends without an exception. -/
theorem C101_needs_two_sizes {files : List (String × Content)}
    {st : Main.Store (List Char) Programme.Outcome Figures.Drawn}
    (h : Report.Ends L gekko wb root (.ok (files, none), st)) {pa : Para.Ranges}
    {sizes : List (ℤ × ℤ)} (hpa : RangesIn wb pa) (hz : Para.combos pa = .ok sizes) :
    Spec.TwoDimensional sizes := by
  obtain ⟨base, dir, pa', sizes', R⟩ := ends_reached h
  cases Except.ok.inj (hz.symm.trans ((ranges_combos hpa R.study.cells).trans R.study.combos))
  rcases tables_cases (L := L) R.study root st.results with ⟨⟨e', he⟩, -⟩ | ⟨-, he⟩
  · rw [R.stage] at he
    cases he
  · rw [R.stage] at he
    unfold runKpis at he
    cases hl : load pa' (fun name => (st.results name).map rows) (inputsAt L dir) with
    | error e => rw [hl] at he; cases he
    | ok S =>
      rw [hl] at he
      have h1 := (load_get hl).1
      rw [C43_same_combinations] at h1
      have e1 : S.combos = sizes := Except.ok.inj (h1.symm.trans R.study.combos)
      dsimp only at he
      unfold jobs at he
      cases hk : kpisToCsv S root with
      | error e => rw [hk] at he; cases he
      | ok fs =>
        cases ho : plotOpex S with
        | error e => rw [hk, ho] at he; cases he
        | ok fs' =>
          unfold plotOpex chart at ho
          simp only [except_bind_ok] at ho
          obtain ⟨_, -, _, htri, -⟩ := ho
          exact (triangulate_iff R.study.combos true).mp (by rw [← e1]; exact htri)

/-! ## When a study gets to its tables -/

/-- C101, part: if the programme gets to its loop and the controller finishes for every combination, with at
least two hours, the figures are drawn for all of them and the tables are begun.

Missing: when the controller finishes is C99 and C100, for studies without a store. -/
theorem C101_ends_partial {s : Setup} (hs : setup L gekko wb = .ok s) {pa : Para.Ranges}
    {sizes : List (ℤ × ℤ)} (hpa : RangesIn wb pa) (hz : Para.combos pa = .ok sizes)
    (hrun : ∀ z ∈ sizes, ∃ rs, RunOf L gekko wb z rs) {n : ℕ} (hn : Holds wb "Controller" 'G' 6 n) (h2 : 2 ≤ n)
    (root : String) : ∃ k st, Report.Ends L gekko wb root (.ok k, st) := by
  obtain ⟨base, dir, hi⟩ := inputDir_of_setup hs
  obtain ⟨pa', sizes', D⟩ := inputDir_ok hi
  cases Except.ok.inj (hz.symm.trans ((ranges_combos hpa D.cells).trans D.combos))
  have hnames := setup_names hs D
  have hone : ∀ name ∈ s.names, ∃ o, (s.parts (outputsOf L base dir root)).solve name = .ok o ∧
      ((s.parts (outputsOf L base dir root)).plot name o).2 = none := by
    intro name hname
    rw [hnames] at hname
    obtain ⟨z, hzm, rfl⟩ := List.mem_map.mp hname
    obtain ⟨rs, hrs⟩ := hrun z hzm
    obtain ⟨o, ho, rfl⟩ := (solved_iff hs D hzm).2.2 rs hrs
    refine ⟨o, ho, ?_⟩
    obtain ⟨c, hc, hd⟩ := D.pickles z hzm
    exact plots_drawn hc hd hrs hn h2
  obtain ⟨st, hst⟩ := singleLoop_total (P := s.parts (outputsOf L base dir root)) .empty hone
  refine ⟨tables L base dir root st.results, st, ?_⟩
  unfold Report.Ends
  rw [hi]
  show Programme.Ends L gekko wb (outputsOf L base dir root) _
  unfold Programme.Ends
  rw [hs]
  left
  obtain ⟨_, _, _, _, _, Z⟩ := setup_ok hs
  unfold Main.single
  split
  · rename_i hnil
    rw [Z.names, List.map_eq_nil_iff] at hnil
    exact absurd hnil Z.nonempty
  · rw [hst]
    rfl

/-- The sizes of a study without stores, none of them negative. -/
theorem no_store_sizes {pa : Para.Ranges} {sizes : List (ℤ × ℤ)} (hpa : RangesIn wb pa)
    (hz : Para.combos pa = .ok sizes) (hstore : Holds wb "Parametric" 'D' 7 0)
    (hstore' : Holds wb "Parametric" 'E' 7 0) : ∀ z ∈ sizes, z.2 = 0 := by
  have hmax : pa.tsMax = 0 := by exact_mod_cast Sample.holds_inj hpa.tsMax hstore
  have hmin : pa.tsMin = 0 := by exact_mod_cast Sample.holds_inj hpa.tsMin hstore'
  intro z hzm
  obtain ⟨hps, tss, -, h2, e⟩ := combos_ok.mp hz
  unfold Para.tsSizes at h2
  rw [if_pos (hmin.trans hmax.symm)] at h2
  rw [e, mem_pairs, ← Except.ok.inj h2, List.mem_singleton] at hzm
  rw [hzm.2, hmin]

/-- C101, part: a study of the fixed order controller without stores writes the six tables, and then ends with
an exception, because no chart can be drawn over one size of store.

Missing: studies with stores, which need not finish (C31). -/
theorem C101_no_store_partial (hL : WholeYear L) (ht : TopRowsEmpty wb) (hk : KnownProcesses wb) {s : Setup}
    (hs : setup L gekko wb = .ok s) (hc : Says wb "Controller" 'D' 5 "Fixed order control")
    (hstart : ∀ hp, ∃ S, runInputs L wb (hp, 0) = .ok S) (hstore : Holds wb "Parametric" 'D' 7 0)
    (hstore' : Holds wb "Parametric" 'E' 7 0) {first n : ℕ} (hf : Holds wb "Controller" 'G' 5 first)
    (hn : Holds wb "Controller" 'G' 6 n) (h2 : 2 ≤ n) (hyear : first + n ≤ 8760) (hinc : Incentive wb)
    {pa : Para.Ranges} {sizes : List (ℤ × ℤ)} (hpa : RangesIn wb pa) (hz : Para.combos pa = .ok sizes)
    (hpos : ∀ z ∈ sizes, 0 ≤ z.1) (root : String) :
    ∃ files e st, Report.Ends L gekko wb root (.ok (files, some e), st) ∧
      files.map (·.1) = Spec.tableFiles root := by
  have h0 := no_store_sizes hpa hz hstore hstore'
  obtain ⟨⟨files, e⟩, st, h⟩ := C101_ends_partial hs hpa hz (fun z hzm => by
    obtain ⟨S, hS⟩ := hstart z.1
    rw [← h0 z hzm] at hS
    obtain ⟨rs, hrs, -⟩ := C99_simulates_partial hL ht hk (h0 z hzm) hS hf hn hyear
    exact ⟨rs, Or.inl ⟨hc, hrs⟩⟩) hn h2 root
  have hw := (C101_written ht h hinc hpa hz fun z hzm => ⟨hpos z hzm, le_of_eq (h0 z hzm).symm⟩).2 (by
    rintro ⟨-, a, ha, b, hb, hab⟩
    exact hab ((h0 a ha).trans (h0 b hb).symm))
  cases e with
  | none => exact absurd rfl hw.2
  | some e => exact ⟨files, e, st, h, hw.1⟩

/-- `main`, on one core or on two, ends with this answer and these output folders, and on two cores nobody killed the
output process and its last jobs took no more than the 30 seconds it is given. -/
def Spec.ReportUndisturbed (two : Bool) (L : Libs) (gekko : Gekko) (wb : Pandas.Workbook) (root : String)
    (answer : Except PyErr Stage × Main.Store (List Char) Programme.Outcome Figures.Drawn) : Prop :=
  match inputDir wb with
  | .error e => answer = (.error e, .empty)
  | .ok (base, dir) => Spec.EndsUndisturbed two L gekko wb (outputsOf L base dir root) answer

/-- C101, the number of cores: a study that can get to its tables at all gets there on one core and on two, in every
schedule in which the output process is not killed and does not run out of time, and always with the same results,
figures and tables. -/
theorem C101_any_cores {k : Stage} {st : Main.Store (List Char) Programme.Outcome Figures.Drawn}
    (h : Report.Ends L gekko wb root (.ok k, st)) (two : Bool) :
    (∃ answer, Spec.ReportUndisturbed two L gekko wb root answer) ∧
    ∀ answer, Spec.ReportUndisturbed two L gekko wb root answer → answer = (.ok k, st) := by
  unfold Report.Ends at h
  unfold Spec.ReportUndisturbed
  split at h
  · cases h
  · rename_i hd
    rw [hd]
    exact C99_any_cores h two

/-! The sample workbook: its study of three heat pumps ends with the six tables. -/

theorem Sample.incentive (model : String) : Incentive (Sample.book model) :=
  ⟨Or.inl rfl, Or.inl ⟨rfl, 20, rfl⟩⟩

attribute [local irreducible] Report.Ends Sample.book

theorem sample_report (gekko : Gekko) (root : String) : ∃ files e st,
    Report.Ends Sample.libs gekko (Sample.book "Simple") root (.ok (files, some e), st) ∧
      files.map (·.1) = Spec.tableFiles root := by
  obtain ⟨s, hs⟩ := Sample.sample_setup (L := Sample.libs) rfl gekko
  exact C101_no_store_partial (wb := Sample.book "Simple") Sample.libs_year (Sample.top "Simple")
    (Sample.known "Simple") hs Sample.fixed_order (fun hp => Sample.run_made rfl _) Sample.no_store.1
    Sample.no_store.2 Sample.from24 Sample.for48 (by omega) (by omega) (Sample.incentive "Simple") Sample.ranges
    Sample.sizes (by decide) root

/-- C101: the table of costs of the sample study has a row for each of the heat pumps. -/
example (gekko : Gekko) : ∃ files e st t,
    Report.Ends Sample.libs gekko (Sample.book "Simple") "study" (.ok (files, e), st) ∧
    ("KPI_economic_study.csv", .table t) ∈ files ∧ t.rows.length = 3 := by
  obtain ⟨files, e, st, h, hf⟩ := sample_report gekko "study"
  have hm : "KPI_economic_study.csv" ∈ files.map (·.1) := by rw [hf]; decide
  obtain ⟨⟨name, x⟩, hx, rfl⟩ := List.mem_map.mp hm
  cases x with
  | table t =>
    obtain ⟨-, pa, sizes, hpa, hz, hlen, -⟩ := C101_tables (Sample.top "Simple") h hx
    cases Except.ok.inj (hz.symm.trans ((ranges_combos hpa Sample.ranges).trans Sample.sizes))
    exact ⟨files, _, st, t, h, hx, hlen⟩
  | surface s =>
    obtain ⟨column, hc, -⟩ := C101_charts (Sample.top "Simple") h hx
    exact absurd (List.mem_map_of_mem (f := (·.1)) hc)
      (show "KPI_economic_study.csv" ∉ Spec.charts.map (·.1) by decide)

/-- C101: the figures of the heat pump of size 10 are drawn for 48 hours, starting at hour 24. -/
example (gekko : Gekko) : ∃ k st rs,
    Report.Ends Sample.libs gekko (Sample.book "Simple") "study" (.ok k, st) ∧
    RunOf Sample.libs gekko (Sample.book "Simple") (10, 0) rs ∧
    Figures.runPlots rs 48 24 = .ok (st.figures (Para.folderName (10, 0))) := by
  obtain ⟨files, e, st, h, -⟩ := sample_report gekko "study"
  obtain ⟨pa, sizes, hpa, hz, hfig, -⟩ := C101_figures h
  cases Except.ok.inj (hz.symm.trans ((ranges_combos hpa Sample.ranges).trans Sample.sizes))
  obtain ⟨rs, first, n, hr, h1, h2, hd⟩ := hfig (10, 0) (by decide)
  have e1 : first = 24 := by exact_mod_cast Sample.holds_inj h1 Sample.from24
  have e2 : n = 48 := by exact_mod_cast Sample.holds_inj h2 Sample.for48
  rw [e1, e2] at hd
  exact ⟨_, st, rs, h, hr, hd⟩

/-- C101: the sample study also gets to its six tables on two cores. -/
example (gekko : Gekko) : ∃ files e st,
    (∃ answer, Spec.ReportUndisturbed true Sample.libs gekko (Sample.book "Simple") "study" answer) ∧
    (∀ answer, Spec.ReportUndisturbed true Sample.libs gekko (Sample.book "Simple") "study" answer →
      answer = (.ok (files, some e), st)) ∧
    files.map (·.1) = Spec.tableFiles "study" := by
  obtain ⟨files, e, st, h, hf⟩ := sample_report gekko "study"
  obtain ⟨h1, h2⟩ := C101_any_cores h true
  exact ⟨files, e, st, h1, h2, hf⟩

end Verif
