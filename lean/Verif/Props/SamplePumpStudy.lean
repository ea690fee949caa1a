import Verif.Props.PumpStudy
import Verif.Props.Completes

/-!
# A study of heat pump sizes (C119)
-/

set_option autoImplicit false

namespace Verif
open Spec Pandas Workbook InputReader Simulation HpConfig FixedOrder Programme Tariff

namespace Sample

/-- The sample with an electric heater and without a battery. -/
def allElectric : Pandas.Workbook := fun name =>
  if name = "Electrical storage" then some (sheet 9 6 (fun r c => if r = 6 then [num 0, num 0, num 0, num (1 / 2),
    num 4, num 3, num (9 / 10), num (9 / 10), num (1 / 100)].getD c none else none))
  else if name = "Aux heat" then some (sheet 5 11 (put (all 1) [((6, 2), text "Electric"),
    ((9, 2), text "Wood chips"), ((10, 2), text "gas"), ((11, 2), text "Kerosene")]))
  else book "Simple" name

theorem electric_top : TopRowsEmpty allElectric := by
  intro name s hs k
  unfold allElectric at hs
  split_ifs at hs
  · cases Option.some.inj hs; rfl
  · cases Option.some.inj hs; rfl
  · exact top "Simple" name s hs k

theorem electric_readable : Readable allElectric :=
  let R := readable "Simple"
  { parametric := R.parametric, controller := R.controller, weather := R.weather, demandGen := R.demandGen,
    demandInput := R.demandInput, pv := R.pv, wind := R.wind, windFarm := R.windFarm,
    battery := ⟨_, rfl, by decide, by decide⟩, grid := R.grid,
    aux := ⟨_, rfl, by decide, by decide⟩, thermal := R.thermal, heatPump := R.heatPump,
    orderAbove := R.orderAbove, orderBelow := R.orderBelow,
    fuel := ⟨"Electric", rfl, by decide +kernel⟩, fuel1 := ⟨"Wood chips", rfl, by decide +kernel⟩,
    fuel2 := ⟨"gas", rfl, by decide +kernel⟩, fuel3 := ⟨"Kerosene", rfl, by decide +kernel⟩ }

theorem electric_row {s : Pandas.Sheet} (hs : allElectric "Electrical storage" = some s) :
    FirstComplete s [5] [0, 1] 6 := by
  cases Option.some.inj hs
  refine ⟨by decide, by decide, by decide, fun r h1 h2 => ?_⟩
  interval_cases r <;> decide

theorem electric_filled {L : Libs} (hk : L.knownModule "Some_Module" = true) : Filled L allElectric :=
  let F := filled hk (model := "Simple") (by decide)
  { readable := electric_readable, weather := F.weather, air := F.air, water := F.water, demand := F.demand,
    source := F.source, ret := F.ret,
    battery := ⟨_, 6, rfl, Nat.le_refl 9, electric_row rfl, by
      simp only [List.forall_mem_cons, List.not_mem_nil, false_implies, implies_true, and_true]
      exact ⟨⟨_, rfl⟩, ⟨_, rfl⟩, ⟨_, rfl⟩, ⟨_, rfl⟩, ⟨_, rfl⟩, ⟨_, rfl⟩, ⟨_, rfl⟩⟩⟩,
    turbines := F.turbines, pv := F.pv, tank := F.tank, layers := F.layers, tankNumbers := F.tankNumbers,
    hpType := F.hpType, hpData := F.hpData, hpNumbers := F.hpNumbers, duties := F.duties, model := F.model,
    efficiency := ⟨1, rfl⟩,
    fuel := ⟨.electric, show fuelOf (text "Electric") = _ by decide +kernel, fun h => absurd rfl h⟩,
    tariff := ⟨_, "Flat rates", rfl, rfl, by decide, fun _ => ⟨3, rfl⟩,
        fun h => absurd h (by decide), fun h => absurd h (by decide), fun h => absurd h (by decide)⟩ }

theorem electric_sensible : Sensible allElectric := by
  have S := sensible "Simple"
  refine { battery := ?_, heat := S.heat, network := S.network, above := S.above, below := S.below }
  intro s row hs hrow
  cases firstComplete_unique hrow (electric_row hs)
  constructor
  · simp only [List.forall_mem_cons, List.not_mem_nil, false_implies, implies_true, and_true]
    refine ⟨fun y h => ?_, fun y h => ?_, fun y h => ?_, fun y h => ?_, fun y h => ?_, fun y h => ?_,
      fun y h => ?_⟩
    · rw [holds_inj h (show Holds _ _ _ _ 0 from rfl)]
    · rw [holds_inj h (show Holds _ _ _ _ (1 / 2) from rfl)]; norm_num
    · rw [holds_inj h (show Holds _ _ _ _ 4 from rfl)]; norm_num
    · rw [holds_inj h (show Holds _ _ _ _ 3 from rfl)]; norm_num
    · rw [holds_inj h (show Holds _ _ _ _ (9 / 10) from rfl)]; norm_num
    · rw [holds_inj h (show Holds _ _ _ _ (9 / 10) from rfl)]; norm_num
    · rw [holds_inj h (show Holds _ _ _ _ (1 / 100) from rfl)]; norm_num
  · simp only [List.forall_mem_cons, List.not_mem_nil, false_implies, implies_true, and_true]
    refine ⟨fun y h => ?_, fun y h => ?_, fun y h => ?_, fun y h => ?_⟩
    · rw [holds_inj h (show Holds _ _ _ _ (1 / 2) from rfl)]; norm_num
    · rw [holds_inj h (show Holds _ _ _ _ (9 / 10) from rfl)]; norm_num
    · rw [holds_inj h (show Holds _ _ _ _ (9 / 10) from rfl)]; norm_num
    · rw [holds_inj h (show Holds _ _ _ _ (1 / 100) from rfl)]; norm_num

theorem electric_study : PumpStudy allElectric where
  top := electric_top
  sensible := electric_sensible
  model := ⟨"Simple", rfl, by decide +kernel⟩
  cop := fun y h => by rw [holds_inj h (show Holds _ _ _ _ 3 from rfl)]; norm_num
  battery := fun s row hs hrow => by
    cases firstComplete_unique hrow (electric_row hs)
    cases Option.some.inj hs
    rfl
  heater := show fuelOf (text "Electric") = _ by decide +kernel
  listed := ⟨⟨"1, 2, 3, 8, 9", [1, 2, 3, 8, 9], rfl, by decide +kernel, by decide⟩,
    ⟨"1,2,6,9", [1, 2, 6, 9], rfl, by decide +kernel, by decide⟩⟩
  above := fun t order h1 h2 => by
    cases says_inj h1 (show Says _ _ _ _ "1, 2, 3, 8, 9" from rfl)
    cases Except.ok.inj (h2.symm.trans (show InputText.readOrder "1, 2, 3, 8, 9".toList = .ok [1, 2, 3, 8, 9] by decide +kernel))
    decide
  below := fun t order h1 h2 => by
    cases says_inj h1 (show Says _ _ _ _ "1,2,6,9" from rfl)
    cases Except.ok.inj (h2.symm.trans (show InputText.readOrder "1,2,6,9".toList = .ok [1, 2, 6, 9] by decide +kernel))
    decide

theorem electric_power {L : Libs} {size : ℤ × ℤ} {o : Objects} (h : objects L allElectric size = .ok o) :
    userSeries L o.windUser = .ok (List.replicate 8760 0) ∧
    databaseSeries L o.windDatabase = .ok (List.replicate 8760 0) ∧
    pvSeries L o.pv = .ok (List.replicate 8760 0) := by
  obtain ⟨s, hs, ⟨r1, f1, -, -, -, m1, -⟩, -, ⟨r2, f2, -, -, -, m2⟩⟩ := C91_turbines electric_top h
  obtain ⟨s', hs', ⟨r3, _, f3, -, -, m3, -⟩, -⟩ := C91_pv_partial electric_top h
  cases firstComplete_unique f1 (userRow "Simple" hs)
  cases firstComplete_unique f2 (databaseRow "Simple" hs)
  cases firstComplete_unique f3 (pvRow "Simple" hs')
  have e1 : numOf o.windUser.multiplier = .ok 0 := by rw [m1]; rfl
  have e2 : numOf o.windDatabase.multiplier = .ok 0 := by rw [m2]; rfl
  have e3 : numOf o.pv.multiplier = .ok 0 := by rw [m3]; rfl
  refine ⟨?_, ?_, ?_⟩
  · unfold userSeries Renewables.userPower
    rw [e1, okBind, if_pos rfl, if_pos rfl]
    rfl
  · unfold databaseSeries Renewables.databasePower
    rw [e2, okBind, if_pos rfl, if_pos rfl]
    rfl
  · unfold pvSeries Renewables.pvPower
    rw [e3, okBind, if_pos rfl, if_pos rfl]

theorem electric_prices {L : Libs} {size : ℤ × ℤ} {o : Objects} (c : Container)
    (h : objects L allElectric size = .ok o) : importPrices L c o.grid = .ok (List.replicate 8760 3) := by
  obtain ⟨G1, G2, -⟩ := C91_grid electric_top h
  obtain ⟨-, V1, -⟩ := C91_tariff h
  have htar : o.grid.tariff = "Flat rates" := by
    have := G1.symm.trans (show excel allElectric "Grid" 'D' 5 = some (.text "Flat rates") from rfl)
    exact Except.ok.inj (congrArg textOf this)
  obtain ⟨x, hx⟩ := Option.isSome_iff_exists.mp (V1.mpr (Or.inl htar))
  have hx3 : x = 3 := by
    have := (G2 x hx).symm.trans (show excel allElectric "Grid" 'C' 9 = some (.num 3) from rfl)
    exact Except.ok.inj (congrArg numOf this)
  unfold importPrices usesFarm importCostSeries flatRatesSeries
  rw [if_neg (by rw [htar]; decide), okBind]
  dsimp only
  rw [if_pos htar, hx, hx3]
  rfl

theorem electric_made {L : Libs} (hk : L.knownModule "Some_Module" = true) (size : ℤ × ℤ) :
    ∃ S, runInputs L allElectric size = .ok S := by
  obtain ⟨o, ho⟩ := (C94_filled size electric_top
    (tail_of_height (s := pump "Simple") rfl (Nat.le_refl 47))).mpr (electric_filled hk)
  have ho' := ho
  unfold objects at ho'
  simp only [except_bind_ok] at ho'
  obtain ⟨c, hc, -⟩ := ho'
  obtain ⟨h1, h2, h3⟩ := electric_power ho
  have num : ∀ r, 6 ≤ r → Number allElectric "Demand input" 'D' r ∧ Number allElectric "Demand input" 'E' r ∧
      Number allElectric "Demand input" 'F' r := fun r h =>
    let N := number_lower (model := "Simple") h
    ⟨N.2.2.1, N.2.2.2.1, N.2.2.2.2.1⟩
  refine (C94_start electric_top).mpr ⟨c, o, hc, ho, ?_, ⟨5, rfl⟩, ⟨3, rfl⟩, ⟨1, rfl⟩, ⟨_, electric_prices c ho⟩,
    ⟨_, h1⟩, ⟨_, h2⟩, ⟨_, h3⟩, Or.inr (Or.inl ⟨"Simple", rfl, by decide +kernel⟩)⟩
  simp only [List.forall_mem_cons, List.not_mem_nil, false_implies, implies_true, and_true]
  exact ⟨fun r h _ => (num r h).1, fun r h _ => (num r h).2.1, fun r h _ => (num r h).2.2⟩

theorem electric_ranges : RangesIn allElectric ⟨0, 20, 10, 0, 0, 10⟩ :=
  ⟨rfl, rfl, rfl, rfl, fun _ => rfl, fun _ => rfl⟩

theorem electric_setup (gekko : Gekko) : ∃ s, setup libs gekko allElectric = .ok s := by
  refine (C99_sets_up electric_top).mpr ⟨electric_readable, ⟨0, 20, 10, 0, 0, 10⟩, [(0, 0), (10, 0), (20, 0)], 24, 48,
    electric_ranges, sizes, by decide, from24, for48, fun size _ => ?_⟩
  obtain ⟨S, hS⟩ := electric_made (L := libs) rfl size
  unfold runInputs at hS
  obtain ⟨c, hc, -⟩ := except_bind_ok.mp hS
  exact ⟨c, hc⟩

theorem electric_known : KnownProcesses allElectric := known "Simple"

theorem electric_incentive : Incentive allElectric :=
  let I := incentive "Simple"
  ⟨I.1, I.2⟩

theorem electric_fixed : Says allElectric "Controller" 'D' 5 "Fixed order control" := rfl

theorem electric_cheaper {hp : ℤ} (h0 : 0 ≤ hp) : ExportCheaper libs allElectric hp :=
  C119_flat_rates electric_study h0 rfl (ex := 3) (im := 3) rfl rfl (by norm_num) le_rfl

theorem electric_no_store : Holds allElectric "Parametric" 'D' 7 0 ∧ Holds allElectric "Parametric" 'E' 7 0 :=
  ⟨rfl, rfl⟩
theorem electric_from24 : Holds allElectric "Controller" 'G' 5 (24 : ℕ) := rfl
theorem electric_for48 : Holds allElectric "Controller" 'G' 6 (48 : ℕ) := rfl

end Sample

attribute [local irreducible] Report.Ends Sample.allElectric

/-- C119: the sample study writes a table of costs, with one row for each of the heat pumps of 0, 10 and 20 kW,
and the operating costs fall or stay from each to the next. -/
example (gekko : Gekko) : ∃ files e st t,
    Report.Ends Sample.libs gekko Sample.allElectric "study" (.ok (files, e), st) ∧
    ("KPI_economic_study.csv", .table t) ∈ files ∧ ∃ r0 r1 r2 : List (Option ℝ), t.rows = [r0, r1, r2] ∧
    ∃ x0 x1 x2 : ℝ, r0[3]? = some (some x0) ∧ r1[3]? = some (some x1) ∧ r2[3]? = some (some x2) ∧
      x1 ≤ x0 ∧ x2 ≤ x1 := by
  obtain ⟨s, hs⟩ := Sample.electric_setup gekko
  obtain ⟨files, e, st, h, hf⟩ := C101_no_store_partial (wb := Sample.allElectric) Sample.libs_year
    Sample.electric_top Sample.electric_known hs Sample.electric_fixed (fun hp => Sample.electric_made rfl _)
    Sample.electric_no_store.1 Sample.electric_no_store.2 Sample.electric_from24 Sample.electric_for48
    (by omega) (by omega)
    Sample.electric_incentive Sample.electric_ranges Sample.sizes (by decide) "study"
  have hm : "KPI_economic_study.csv" ∈ files.map (·.1) := by rw [hf]; decide
  obtain ⟨⟨name, x⟩, hx, rfl⟩ := List.mem_map.mp hm
  cases x with
  | surface s =>
    obtain ⟨column, hc, -⟩ := C101_charts Sample.electric_top h hx
    exact absurd (List.mem_map_of_mem (f := (·.1)) hc)
      (show "KPI_economic_study.csv" ∉ Spec.charts.map (·.1) by decide)
  | table t =>
    obtain ⟨hcols, pa, sizes, hpa, hz, hlen, hrows⟩ := C101_tables Sample.electric_top h hx
    cases Except.ok.inj (hz.symm.trans ((ranges_combos hpa Sample.electric_ranges).trans Sample.sizes))
    have hcol : t.columns[3]? = some "opex" := by
      simp only [Spec.tableColumns, List.flatMap_cons, List.flatMap_nil, List.append_nil, List.cons_append,
        List.nil_append, List.mem_cons, List.not_mem_nil, or_false, Prod.mk.injEq] at hcols
      rcases hcols with c | c | c | c | c | c
      · exact absurd c.1 (by decide)
      · rw [c.2]; rfl
      all_goals exact absurd c.1 (by decide)
    obtain ⟨C0, r0, h0, R0, -⟩ := hrows 0 (0, 0) rfl
    obtain ⟨C1, r1, h1, R1, -⟩ := hrows 1 (10, 0) rfl
    obtain ⟨C2, r2, h2, R2, -⟩ := hrows 2 (20, 0) rfl
    have len : ∀ {size : ℤ × ℤ} {C : Kpi.Calcs (List ℚ)} {r : List (Option ℝ)},
        Spec.RowOf t.columns size C r → ∃ v, r[3]? = some v := by
      intro size C r hR
      have hlt : 3 < t.columns.length := (List.getElem?_eq_some_iff.mp hcol).1
      exact ⟨_, List.getElem?_eq_getElem (show 3 < r.length by rw [← hR.length_eq]; exact hlt)⟩
    obtain ⟨v0, e0⟩ := len R0
    obtain ⟨v1, e1⟩ := len R1
    obtain ⟨v2, e2⟩ := len R2
    obtain ⟨x0, x1, rfl, rfl, g1⟩ := C119_tables (hp := 0) (hp' := 10) Sample.electric_study Sample.electric_fixed h hx hpa hz
      le_rfl (by decide) (i := 0) (i' := 1) rfl rfl h0 h1 hcol e0 e1 (.inr ⟨rfl, Sample.electric_cheaper le_rfl⟩)
    obtain ⟨y1, x2, q, rfl, g2⟩ := C119_tables (hp := 10) (hp' := 20) Sample.electric_study Sample.electric_fixed h hx hpa hz
      (by decide) (by decide) (i := 1) (i' := 2) rfl rfl h1 h2 hcol e1 e2
      (.inr ⟨rfl, Sample.electric_cheaper (by decide)⟩)
    cases Option.some.inj q
    refine ⟨files, _, st, t, h, hx, r0, r1, r2, ?_, x0, x1, x2, e0, e1, e2, g1, g2⟩
    obtain ⟨a, b, c, hl⟩ := List.length_eq_three.mp hlen
    rw [hl] at h0 h1 h2 ⊢
    cases Option.some.inj h0
    cases Option.some.inj h1
    cases Option.some.inj h2
    rfl

end Verif
