import Verif.Lemmas.Report
import Verif.Props.Completes

/-!
# Lemmas about the tables of a study
-/

set_option autoImplicit false

namespace Verif
open Pandas Simulation Spec Programme FixedOrder Kpi KpiTables

/-- The cells of the heat incentive are filled in: a known scheme, and a known tariff with its rates. -/
def Spec.Incentive (wb : Pandas.Workbook) : Prop :=
  (Says wb "Heat pump" 'N' 5 "Domestic" ∨ Says wb "Heat pump" 'N' 5 "Non-domestic") ∧
  ((Says wb "Heat pump" 'N' 6 "Fixed" ∧ ∃ x, Holds wb "Heat pump" 'N' 7 x) ∨
    (Says wb "Heat pump" 'N' 6 "Tiered" ∧ (∃ x, Holds wb "Heat pump" 'N' 8 x) ∧ ∃ x, Holds wb "Heat pump" 'N' 9 x))

variable {L : Libs} {gekko : Gekko} {wb : Pandas.Workbook} {root : String}

namespace Report

/-- The inputs of `Calcs` by name, as `tables` uses them. -/
noncomputable def inputsAt (L : Libs) (dir : Para.Dir Workbook.Container) (name : List Char) : Calcs (List ℚ) :=
  match calcsAt L dir name with
  | .ok C => C
  | .error _ => noCalcs

/-- Either the inputs of some combination cannot be read, or the tables are made from those of all. -/
theorem tables_cases {base : Workbook.Container} {dir : Para.Dir Workbook.Container} {pa : Para.Ranges}
    {sizes : List (ℤ × ℤ)} (D : StudyOf wb base dir pa sizes) (root : String)
    (results : List Char → Option Programme.Outcome) :
    ((∃ e, tables L base dir root results = ([], some e)) ∧
      ∃ z ∈ sizes, ∃ c, containerOf wb z = .ok c ∧ ∀ C, calcsOf L c ≠ .ok C) ∨
    ((∀ z ∈ sizes, ∃ c, containerOf wb z = .ok c ∧ calcsOf L c = .ok (inputsAt L dir (Para.folderName z))) ∧
      tables L base dir root results = runKpis pa (fun name => (results name).map rows) (inputsAt L dir) root) := by
  have hk : Para.kpiCombos pa = .ok sizes := by rw [C43_same_combinations]; exact D.combos
  have hat : ∀ z ∈ sizes, ∃ c, containerOf wb z = .ok c ∧ calcsAt L dir (Para.folderName z) = calcsOf L c := by
    intro z hz
    obtain ⟨c, hc, hd⟩ := D.pickles z hz
    refine ⟨c, hc, ?_⟩
    unfold calcsAt
    rw [hd]
  unfold tables
  rw [D.ranges]
  dsimp only
  rw [hk]
  dsimp only
  by_cases hall : ∀ z ∈ sizes, ∃ C, calcsAt L dir (Para.folderName z) = .ok C
  · obtain ⟨Cs, hCs⟩ := mapM_total hall
    rw [hCs]
    refine Or.inr ⟨fun z hz => ?_, rfl⟩
    obtain ⟨c, hc, e⟩ := hat z hz
    obtain ⟨C, hC⟩ := hall z hz
    refine ⟨c, hc, ?_⟩
    rw [← e]
    unfold inputsAt
    rw [hC]
  · push Not at hall
    obtain ⟨z, hz, hno⟩ := hall
    obtain ⟨c, hc, e⟩ := hat z hz
    refine Or.inl ⟨?_, z, hz, c, hc, fun C => by rw [← e]; exact hno C⟩
    cases hm : sizes.mapM (fun size => calcsAt L dir (Para.folderName size)) with
    | error e => exact ⟨e, rfl⟩
    | ok Cs =>
      exfalso
      obtain ⟨i, hi⟩ := List.mem_iff_getElem?.mp hz
      obtain ⟨C, -, hC⟩ := mapM_get hm hi
      exact hno C hC

/-- The indicators of a combination exist only with a scheme and a tariff of the heat incentive. -/
theorem indicators_rhi {N : Type} {C : Calcs N} {i : Indicators} (h : indicators C = .ok i) :
    (C.rhi.rhiType = "Domestic" ∨ C.rhi.rhiType = "Non-domestic") ∧
    (C.rhi.tariffType = "Fixed" ∨ C.rhi.tariffType = "Tiered") := by
  unfold indicators at h
  simp only [except_bind_ok] at h
  obtain ⟨_, -, _, -, _, -, _, -, _, -, _, -, _, -, _, -, _, hc, -⟩ := h
  unfold costOfHeat rhiIncome at hc
  simp only [except_bind_ok] at hc
  obtain ⟨_, -, _, -, _, -, _, hc, -⟩ := hc
  obtain ⟨_, -, _, -, _, -, _, hy, _, hs, -⟩ := hc
  unfold rhiYears at hs
  unfold rhiYear at hy
  split_ifs at hs with a1 a2 <;> split_ifs at hy with b1 b2 <;> simp [*]

/-- If the indicators of one combination do not exist, nothing is written. -/
theorem no_indicators {N : Type} {pa : Para.Ranges} {outputs : Para.Dir (List (Results N))}
    {inputs : List Char → Calcs N} {cs : List (ℤ × ℤ)} (hc : Para.combos pa = .ok cs) {c : ℤ × ℤ} (hm : c ∈ cs)
    (h : ∀ rs i, outputs (Para.folderName c) = some rs →
      indicators { inputs (Para.folderName c) with name := Para.folderName c, results := rs } ≠ .ok i)
    (root : String) : ∃ e, runKpis pa outputs inputs root = ([], some e) := by
  unfold runKpis
  cases hl : load pa outputs inputs with
  | error e => exact ⟨e, rfl⟩
  | ok S =>
    obtain ⟨h1, h2⟩ := load_get hl
    rw [C43_same_combinations, hc] at h1
    cases Except.ok.inj h1
    obtain ⟨i, hi⟩ := List.mem_iff_getElem?.mp hm
    obtain ⟨C, hC, rs, hrs, rfl⟩ := forall₂_get h2 hi
    cases hk : kpisToCsv S root with
    | error e => exact ⟨e, by simp only [jobs, runJobs, hk]⟩
    | ok fs =>
      exfalso
      obtain ⟨is, his, -⟩ := kpisToCsv_mem hk
      obtain ⟨I, -, hI⟩ := mapM_get his hC
      exact h rs I hrs hI

/-- The tariff of a combination that has been run: it is one of the six, and for those with a wind farm the
terms and the power have been read. -/
theorem run_prices (ht : TopRowsEmpty wb) {size : ℤ × ℤ} {rs : List (Results (List ℚ))}
    (h : RunOf L gekko wb size rs) : ∃ c g xs, containerOf wb size = .ok c ∧ makeGrid c.grid = .ok g ∧
      importPrices L c g = .ok xs := by
  have key : ∀ {o : Objects} {c : Workbook.Container}, objects L wb size = .ok o → containerOf wb size = .ok c →
      makeGrid c.grid = .ok o.grid := by
    intro o c ho hc
    unfold objects at ho
    rw [hc, okBind] at ho
    exact (init_ok ho).grid
  rcases h with ⟨-, hs⟩ | ⟨-, ms, hp, -⟩
  · obtain ⟨S, first, n, hS, -⟩ := simulate_ok.mp hs
    obtain ⟨o, T⟩ := start_ok hS
    obtain ⟨c, hc, hx⟩ := T.importPrice
    exact ⟨c, o.grid, _, hc, key T.objects hc, hx⟩
  · obtain ⟨first, n, S, maxCap, hS, -⟩ := predict_ok.mp hp
    obtain ⟨o, _, _, _, _, _, price, _, T⟩ := mpcIn_ok ht hS
    obtain ⟨c, hc, hx⟩ := T.prices
    exact ⟨c, o.grid, _, hc, key T.objects hc, hx⟩

theorem ppaSeries_positions {g : Tariff.Grid} {w : Tariff.WindFarm} {base xs : List ℚ}
    (h : Tariff.ppaSeries g w base = .ok xs) : 8760 ≤ w.power.length := by
  unfold Tariff.ppaSeries at h
  by_contra hlt
  push Not at hlt
  obtain ⟨x, -, hx⟩ := mapM_get h (i := w.power.length) (x := w.power.length)
    (by rw [List.getElem?_range hlt])
  unfold Tariff.ppaHour Tariff.position at hx
  rw [List.getElem?_eq_none (le_refl _)] at hx
  cases hx

/-- A tariff with a wind farm that has prices: its terms, bands and power. -/
theorem farm_ready {c : Workbook.Container} {g : Tariff.Grid} {xs : List ℚ} (hg : makeGrid c.grid = .ok g)
    (hx : importPrices L c g = .ok xs) :
    (label c.grid.tariffChoice = "Flat rates" ∨ label c.grid.tariffChoice = "Variable periods" ∨
      label c.grid.tariffChoice = "Time of use - WM") ∨
    ∃ lower higher power, farmOf L c = .ok (lower, higher, power) ∧
      label c.grid.tariffChoice ∈ farmTariffs ∧ 8760 ≤ power.length ∧
      (∃ x, Tariff.band power (some lower) = .ok x) ∧ ∃ x, Tariff.band power (some higher) = .ok x := by
  have hlab : label c.grid.tariffChoice = g.tariff := by rw [(makeGrid_ok hg).tariff]; rfl
  have bands : ∀ {lower higher : ℚ} {g : Tariff.Grid} {power : List ℚ} {w : Tariff.WindFarm},
      g.lowerPercent = some lower → g.higherPercent = some higher → Tariff.windFarmInfo g power = .ok w →
      w.power = power ∧ (∃ x, Tariff.band power (some lower) = .ok x) ∧
        ∃ x, Tariff.band power (some higher) = .ok x := by
    intro lower higher g power w e1 e2 hw
    unfold Tariff.windFarmInfo at hw
    rw [e1, e2] at hw
    simp only [except_bind_ok, except_pure_ok] at hw
    obtain ⟨x, h1, y, h2, rfl⟩ := hw
    exact ⟨rfl, ⟨x, h1⟩, y, h2⟩
  have farm : ∀ {lower higher p d : ℚ} {power : List ℚ}, label c.grid.tariffChoice ∈ farmTariffs →
      ppaTerms c.grid = .ok (lower, higher, p, d) → farmSeries L c = .ok power →
      farmOf L c = .ok (lower, higher, power) := by
    intro lower higher p d power hm h1 h2
    unfold farmOf
    rw [if_pos hm, h1, okBind, h2]
    rfl
  unfold makeGrid at hg
  split at hg
  case h_7 => cases hg
  case h_1 => rename_i e; left; left; rw [e]; rfl
  case h_2 => rename_i e; left; right; left; rw [e]; rfl
  case h_3 => rename_i e; left; right; right; rw [e]; rfl
  all_goals
    right
    rename_i e
    have hm : label c.grid.tariffChoice ∈ farmTariffs := by rw [e]; unfold label farmTariffs; decide
    simp only [except_bind_ok, except_pure_ok] at hg
  · obtain ⟨r, -, ⟨a1, a2, a3, a4⟩, hp, rfl⟩ := hg
    unfold importPrices usesFarm Tariff.importCostSeries at hx
    simp only [String.reduceEq, reduceIte, or_true, or_false, decide_true, except_bind_ok] at hx
    obtain ⟨power, hpow, y, hy, -⟩ := hx
    simp only [except_map_ok] at hy
    obtain ⟨z, hz, -⟩ := hy
    unfold Tariff.flatRatesWind at hz
    simp only [except_bind_ok] at hz
    obtain ⟨fr, -, w, hw, hz⟩ := hz
    obtain ⟨b1, b2, b3⟩ := bands rfl rfl hw
    exact ⟨a1, a2, power, farm hm hp hpow, hm, b1 ▸ ppaSeries_positions hz, b2, b3⟩
  · obtain ⟨r, -, ⟨a1, a2, a3, a4⟩, hp, rfl⟩ := hg
    unfold importPrices usesFarm Tariff.importCostSeries at hx
    simp only [String.reduceEq, reduceIte, or_false, decide_true, except_bind_ok] at hx
    obtain ⟨power, hpow, y, hy, -⟩ := hx
    simp only [except_map_ok] at hy
    obtain ⟨z, hz, -⟩ := hy
    unfold Tariff.touWmWindPpa at hz
    simp only [except_bind_ok] at hz
    obtain ⟨w, hw, tou, -, hz⟩ := hz
    obtain ⟨b1, b2, b3⟩ := bands rfl rfl hw
    exact ⟨a1, a2, power, farm hm hp hpow, hm, b1 ▸ ppaSeries_positions hz, b2, b3⟩
  · obtain ⟨r, -, yr, -, ⟨a1, a2, a3, a4⟩, hp, rfl⟩ := hg
    unfold importPrices usesFarm Tariff.importCostSeries at hx
    simp only [String.reduceEq, reduceIte, or_true, decide_true, except_bind_ok] at hx
    obtain ⟨power, hpow, y, hy, -⟩ := hx
    simp only [except_map_ok] at hy
    obtain ⟨z, hz, -⟩ := hy
    unfold Tariff.variablePeriodsWind at hz
    simp only [except_bind_ok] at hz
    obtain ⟨fr, -, w, hw, hz⟩ := hz
    obtain ⟨b1, b2, b3⟩ := bands rfl rfl hw
    exact ⟨a1, a2, power, farm hm hp hpow, hm, b1 ▸ ppaSeries_positions hz, b2, b3⟩

/-- A run that gave figures has a result for each hour. -/
theorem run_length {size : ℤ × ℤ} {rs : List (Results (List ℚ))} (h : RunOf L gekko wb size rs) {first n : ℕ}
    (hn : Holds wb "Controller" 'G' 6 n) {ds : List Figures.Drawn} (hp : Figures.runPlots rs n first = .ok ds) :
    rs.length = n ∧ 0 < n ∧ n ≤ 8760 := by
  have hpos : rs ≠ [] → rs.length = n → 0 < n := fun h0 hl => by
    rw [← hl]; exact List.length_pos_of_ne_nil h0
  have short : ∀ m < 2, ∀ ds, Figures.runPlots ([] : List (Results (List ℚ))) m first ≠ .ok ds := by
    intro m hm ds
    interval_cases m <;> exact fun h => by cases h
  rcases h with ⟨-, hs⟩ | ⟨-, ms, hq, rfl⟩
  · obtain ⟨S, first', n', hS, -, hn', hrun⟩ := simulate_ok.mp hs
    have e : n = n' := by exact_mod_cast Sample.holds_inj hn hn'
    subst e
    have hl := C27_one_result_per_hour hrun
    obtain ⟨-, -, hy, -⟩ := runTimesteps_ok.mp hrun
    refine ⟨hl, ?_, by omega⟩
    by_contra h0
    obtain rfl : n = 0 := by omega
    cases List.length_eq_zero_iff.mp hl
    exact short 0 (by omega) _ hp
  · obtain ⟨first', n', S, maxCap, hS, -, hn', hrun⟩ := predict_ok.mp hq
    have e : n = n' := by exact_mod_cast Sample.holds_inj hn hn'
    subst e
    by_cases h2 : 2 ≤ n
    · obtain ⟨hy, hl, -⟩ := Mpc.run_shape h2 hrun
      exact ⟨by rw [List.length_map, hl], by omega, by omega⟩
    · exfalso
      have : ms = [] := by
        unfold Mpc.movingHorizon at hrun
        split_ifs at hrun
        rw [show n - 1 = 0 by omega] at hrun
        exact (Except.ok.inj hrun).symm
      subst this
      exact short n (by omega) _ hp

/-- What `run_plots` needs of the pickle. -/
theorem plots_ok {dir : Para.Dir Workbook.Container} {size : ℤ × ℤ} {c : Workbook.Container}
    (hc : containerOf wb size = .ok c) (hd : dir (Para.folderName size ++ ".pkl".toList) = some c)
    {o : Programme.Outcome} (h : (plots dir (Para.folderName size) o).2 = none) :
    ∃ first n : ℕ, Holds wb "Controller" 'G' 5 first ∧ Holds wb "Controller" 'G' 6 n ∧
      Figures.runPlots (rows o) n first = .ok (plots dir (Para.folderName size) o).1 := by
  obtain ⟨b, hr, hs⟩ := containerOf_ok hc
  obtain ⟨sc, wc, pc⟩ := (Workbook.readInputs_ok hr).controller
  obtain ⟨-, ec, -⟩ := resize_rest hs
  unfold plots at h ⊢
  rw [hd] at h ⊢
  dsimp only at h ⊢
  rw [ec, (controller_cells pc).1] at h ⊢
  simp only [dict_cons, reduceIte, String.reduceEq, okBind] at h ⊢
  cases h1 : natOf (sc.cell 6 6) with
  | error e => rw [h1] at h; cases h
  | ok n =>
    cases h2 : natOf (sc.cell 5 6) with
    | error e => rw [h1, h2] at h; cases h
    | ok first =>
      rw [h1, h2] at h
      refine ⟨first, n, ?_, ?_, ?_⟩
      · unfold Holds; rw [Workbook.excel_eq wc]; exact natOf_ok h2
      · unfold Holds; rw [Workbook.excel_eq wc]; exact natOf_ok h1
      · simp only [okBind] at h ⊢
        cases h3 : Figures.runPlots (rows o) n first with
        | error e => rw [h3] at h; cases h
        | ok ds => rfl

theorem calcsOf_farm {c : Workbook.Container} {C : Calcs (List ℚ)} (h : calcsOf L c = .ok C) :
    farmOf L c = .ok (C.lowerPercent, C.higherPercent, C.farmPower) ∧ C.tariff = label c.grid.tariffChoice := by
  unfold calcsOf at h
  simp only [except_bind_ok, except_pure_ok] at h
  obtain ⟨v, -, n, -, R, -, ⟨a, b, p⟩, hf, rfl⟩ := h
  exact ⟨hf, rfl⟩

theorem rateOf_total {d : Dict} {key : String} {chosen : Prop} [Decidable chosen] {v : Value}
    (hd : Dict.get d key = .ok v) (h : chosen → ∃ x, v = some (.num x)) : ∃ x, rateOf d key chosen = .ok x := by
  unfold rateOf
  by_cases hc : chosen
  · obtain ⟨x, rfl⟩ := h hc
    rw [if_pos hc, hd]
    exact ⟨x, rfl⟩
  · rw [if_neg hc]
    exact ⟨0, rfl⟩

/-- The inputs of the indicators can be read. -/
theorem calcsOf_total {size : ℤ × ℤ} {c : Workbook.Container} (h : containerOf wb size = .ok c) {n : ℕ}
    (hn : Holds wb "Controller" 'G' 6 n) (hinc : Incentive wb) {r : ℚ × ℚ × List ℚ} (hf : farmOf L c = .ok r) :
    ∃ C, calcsOf L c = .ok C := by
  obtain ⟨b, hr, hs⟩ := containerOf_ok h
  obtain ⟨sc, wc, pc⟩ := (Workbook.readInputs_ok hr).controller
  obtain ⟨-, ec, -⟩ := resize_rest hs
  have hn' : natOf (sc.cell 6 6) = .ok n := by
    unfold Holds at hn
    rw [Workbook.excel_eq wc] at hn
    have : sc.cell 6 6 = some (.num (n : ℚ)) := hn
    rw [this]
    exact natOf_num n
  unfold calcsOf rhiOf InputReader.rhi
  rw [rhi_of h, ec, (controller_cells pc).1]
  simp only [pure, Except.pure, dict_cons, reduceIte, String.reduceEq, okBind, hn']
  obtain ⟨-, hi⟩ := hinc
  have hfix : label (excel wb "Heat pump" 'N' 6) = "Fixed" → ∃ x, excel wb "Heat pump" 'N' 7 = some (.num x) := by
    intro e
    rcases hi with ⟨-, h7⟩ | ⟨ht, -⟩
    · exact h7
    · rw [ht] at e
      exact absurd e (by decide)
  have htier : label (excel wb "Heat pump" 'N' 6) = "Tiered" →
      (∃ x, excel wb "Heat pump" 'N' 8 = some (.num x)) ∧ ∃ x, excel wb "Heat pump" 'N' 9 = some (.num x) := by
    intro e
    rcases hi with ⟨ht, -⟩ | ⟨-, h8⟩
    · rw [ht] at e
      exact absurd e (by decide)
    · exact h8
  obtain ⟨x1, e1⟩ := rateOf_total (d := [("RHI_type", excel wb "Heat pump" 'N' 5),
    ("tariff_type", excel wb "Heat pump" 'N' 6), ("fixed_rate", excel wb "Heat pump" 'N' 7),
    ("tier_1", excel wb "Heat pump" 'N' 8), ("tier_2", excel wb "Heat pump" 'N' 9)]) (key := "fixed_rate") rfl hfix
  obtain ⟨x2, e2⟩ := rateOf_total (d := [("RHI_type", excel wb "Heat pump" 'N' 5),
    ("tariff_type", excel wb "Heat pump" 'N' 6), ("fixed_rate", excel wb "Heat pump" 'N' 7),
    ("tier_1", excel wb "Heat pump" 'N' 8), ("tier_2", excel wb "Heat pump" 'N' 9)]) (key := "tier_1") rfl
    fun e => (htier e).1
  obtain ⟨x3, e3⟩ := rateOf_total (d := [("RHI_type", excel wb "Heat pump" 'N' 5),
    ("tariff_type", excel wb "Heat pump" 'N' 6), ("fixed_rate", excel wb "Heat pump" 'N' 7),
    ("tier_1", excel wb "Heat pump" 'N' 8), ("tier_2", excel wb "Heat pump" 'N' 9)]) (key := "tier_2") rfl
    fun e => (htier e).2
  rw [e1, okBind, e2, okBind, e3, okBind, hf]
  exact ⟨_, rfl⟩

/-- The study as `run_KPIs` loads it, and that the indicators of each combination exist. -/
theorem stage_ready (ht : TopRowsEmpty wb) {files : List (String × Content)} {e : Option PyErr}
    {st : Main.Store (List Char) Programme.Outcome Figures.Drawn} {base : Workbook.Container}
    {dir : Para.Dir Workbook.Container} {pa : Para.Ranges} {sizes : List (ℤ × ℤ)}
    (R : Reached L gekko wb root (files, e) st base dir pa sizes) (hinc : Incentive wb)
    (hpos : ∀ z ∈ sizes, 0 ≤ z.1 ∧ 0 ≤ z.2) :
    ∃ S, load pa (fun name => (st.results name).map rows) (inputsAt L dir) = .ok S ∧ S.combos = sizes ∧
      (∀ C ∈ S.calcs, Spec.IndicatorsExist C) ∧
      (files, e) = runKpis pa (fun name => (st.results name).map rows) (inputsAt L dir) root := by
  have hcalcs : ∀ z ∈ sizes, ∃ c C, containerOf wb z = .ok c ∧ calcsOf L c = .ok C := by
    intro z hz
    obtain ⟨o, ho, -, -, hnone⟩ := R.solved z hz
    obtain ⟨c, hc, hd⟩ := R.study.pickles z hz
    obtain ⟨first, n, -, hn, -⟩ := plots_ok hc hd hnone
    obtain ⟨c', g, xs, hc', hg, hx⟩ := run_prices ht ho
    cases Except.ok.inj (hc'.symm.trans hc)
    have hf : ∃ r, farmOf L c = .ok r := by
      rcases farm_ready hg hx with hp | ⟨l, u, p, hf, -⟩
      · refine ⟨(0, 0, []), ?_⟩
        unfold farmOf
        rw [if_neg]
        rcases hp with e | e | e <;> rw [e] <;> decide
      · exact ⟨_, hf⟩
    obtain ⟨r, hf⟩ := hf
    obtain ⟨C, hC⟩ := calcsOf_total hc hn hinc hf
    exact ⟨c, C, hc, hC⟩
  rcases tables_cases (L := L) R.study root st.results with ⟨-, z, hz, c, hc, hno⟩ | ⟨hin, he⟩
  · obtain ⟨c', C, hc', hC⟩ := hcalcs z hz
    cases Except.ok.inj (hc'.symm.trans hc)
    exact absurd hC (hno C)
  · rw [R.stage] at he
    have hk : Para.kpiCombos pa = .ok sizes := by rw [C43_same_combinations]; exact R.study.combos
    have hl : ∃ S, load pa (fun name => (st.results name).map rows) (inputsAt L dir) = .ok S := by
      unfold load
      rw [hk]
      dsimp only
      have : Nonempty Programme.Outcome := ⟨.fixed []⟩
      choose! o ho using R.solved
      rw [readResults_ok (f := fun z => rows (o z)) (fun z hz => by rw [(ho z hz).2.1]; rfl)]
      exact ⟨_, rfl⟩
    obtain ⟨S, hS⟩ := hl
    obtain ⟨h1, h2⟩ := load_get hS
    have e1 : S.combos = sizes := Except.ok.inj (h1.symm.trans hk)
    refine ⟨S, hS, e1, fun C hC => ?_, he⟩
    obtain ⟨i, hi⟩ := List.mem_iff_getElem?.mp hC
    obtain ⟨z, hz, rs, hrs, rfl⟩ := forall₂_get h2.flip hi
    rw [e1] at hz
    have hz := List.mem_of_getElem? hz
    obtain ⟨o, ho, hst, -, hnone⟩ := R.solved z hz
    rw [hst] at hrs
    cases Option.some.inj hrs
    obtain ⟨c, hc, hd⟩ := R.study.pickles z hz
    obtain ⟨first, n, -, hn, hplots⟩ := plots_ok hc hd hnone
    obtain ⟨hlen, hn0, hny⟩ := run_length ho hn hplots
    obtain ⟨c', hc', hCz⟩ := hin z hz
    cases Except.ok.inj (hc'.symm.trans hc)
    obtain ⟨c', g, xs, hc', hg, hx⟩ := run_prices ht ho
    cases Except.ok.inj (hc'.symm.trans hc)
    have K := calcsOf_ok ht hc hCz (rows o)
    have en : (inputsAt L dir (Para.folderName z)).timesteps = n := by
      exact_mod_cast Sample.holds_inj K.hours hn
    obtain ⟨hfm, htar⟩ := calcsOf_farm hCz
    refine ⟨?_, ?_, ?_, ?_, ?_, ?_⟩
    · exact hlen.trans en.symm
    · exact en.symm ▸ hn0
    · obtain ⟨p1, p2⟩ := hpos z hz
      refine ⟨z.1.toNat, z.2.toNat, ?_⟩
      show Para.folderName z = _
      rw [Int.toNat_of_nonneg p1, Int.toNat_of_nonneg p2]
    · exact hinc.2.imp (fun h => (K.incentive _ (by decide)).mpr h.1) fun h => (K.incentive _ (by decide)).mpr h.1
    · exact hinc.1.imp (K.scheme _ (by decide)).mpr (K.scheme _ (by decide)).mpr
    · show (inputsAt L dir (Para.folderName z)).tariff = _ ∨ (inputsAt L dir (Para.folderName z)).tariff = _ ∨
        (inputsAt L dir (Para.folderName z)).tariff = _ ∨ _
      rw [htar]
      rcases farm_ready hg hx with h' | ⟨l, u, p, hf, hm, hl, b1, b2⟩
      · tauto
      · have := Except.ok.inj (hf.symm.trans hfm)
        cases this
        refine Or.inr (Or.inr (Or.inr ⟨?_, ?_, b1, b2⟩))
        · show (inputsAt L dir (Para.folderName z)).tariff ∈ _
          rw [htar]
          exact hm
        · show (inputsAt L dir (Para.folderName z)).timesteps ≤ _
          rw [en]
          exact hny.trans hl

/-- The figures of a run of at least two hours are drawn. -/
theorem plots_drawn {dir : Para.Dir Workbook.Container} {size : ℤ × ℤ} {c : Workbook.Container}
    (hc : containerOf wb size = .ok c) (hd : dir (Para.folderName size ++ ".pkl".toList) = some c)
    {o : Programme.Outcome} (h : RunOf L gekko wb size (rows o)) {n : ℕ} (hn : Holds wb "Controller" 'G' 6 n)
    (h2 : 2 ≤ n) : (plots dir (Para.folderName size) o).2 = none := by
  have hl : (rows o).length = n ∧ ∃ first : ℕ, Holds wb "Controller" 'G' 5 first := by
    rcases h with ⟨-, hs⟩ | ⟨-, ms, hq, e⟩
    · obtain ⟨S, first, n', hS, hf, hn', hrun⟩ := simulate_ok.mp hs
      have e : n = n' := by exact_mod_cast Sample.holds_inj hn hn'
      subst e
      exact ⟨C27_one_result_per_hour hrun, first, hf⟩
    · obtain ⟨first, n', S, maxCap, hS, hf, hn', hrun⟩ := predict_ok.mp hq
      have e' : n = n' := by exact_mod_cast Sample.holds_inj hn hn'
      subst e'
      obtain ⟨-, hl, -⟩ := Mpc.run_shape h2 hrun
      rw [e, List.length_map]
      exact ⟨hl, first, hf⟩
  obtain ⟨hl, first, hf⟩ := hl
  obtain ⟨b, hr, hs⟩ := containerOf_ok hc
  obtain ⟨sc, wc, pc⟩ := (Workbook.readInputs_ok hr).controller
  obtain ⟨-, ec, -⟩ := resize_rest hs
  unfold Holds at hn hf
  rw [Workbook.excel_eq wc] at hn hf
  have hn' : sc.cell 6 6 = some (.num (n : ℚ)) := hn
  have hf' : sc.cell 5 6 = some (.num (first : ℚ)) := hf
  obtain ⟨ds, hds⟩ := C85_figures_drawn hl (by omega) first
  unfold plots
  rw [hd]
  dsimp only
  rw [ec, (controller_cells pc).1]
  simp only [dict_cons, reduceIte, String.reduceEq, okBind, hn', hf', natOf_num, hds]

end Report
end Verif
