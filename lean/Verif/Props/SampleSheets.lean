import Verif.Props.OtherSheets
import Verif.Props.PerfectPlan
import Verif.Props.SamplePower

/-!
# Workbooks with other prices (C104) and with turbines (C102)
-/

set_option autoImplicit false

namespace Verif
open Spec Pandas Workbook InputReader Simulation HpConfig FixedOrder Programme

namespace Sample

/-- The workbook of C126 with electricity at 7 to buy and 2 to sell, and fuels at 9. -/
def dearer : Pandas.Workbook := fun name =>
  if name = "Grid" then some (sheet 23 42 (put (all 3) [((5, 3), text "Flat rates"), ((9, 2), num 7), ((9, 3), num 2)]))
  else if name = "Aux heat" then some (sheet 5 11 (put (all 1) [((6, 2), text "Gas"), ((9, 2), text "Wood chips"),
    ((10, 2), text "gas"), ((11, 2), text "Kerosene"), ((9, 4), num 9), ((10, 4), num 9), ((11, 4), num 9)]))
  else served name

theorem dearer_top : TopRowsEmpty dearer := by
  intro name s hs k
  unfold dearer at hs
  split_ifs at hs
  · cases Option.some.inj hs; rfl
  · cases Option.some.inj hs; rfl
  · exact served_top name s hs k

theorem dearer_readable : Readable dearer :=
  let R := served_readable
  { parametric := R.parametric, controller := R.controller, weather := R.weather, demandGen := R.demandGen,
    demandInput := R.demandInput, pv := R.pv, wind := R.wind, windFarm := R.windFarm,
    battery := R.battery, grid := ⟨_, rfl, by decide, by decide⟩, aux := ⟨_, rfl, by decide, by decide⟩,
    thermal := R.thermal, heatPump := R.heatPump, orderAbove := R.orderAbove, orderBelow := R.orderBelow,
    fuel := ⟨"Gas", rfl, by decide +kernel⟩, fuel1 := ⟨"Wood chips", rfl, by decide +kernel⟩,
    fuel2 := ⟨"gas", rfl, by decide +kernel⟩, fuel3 := ⟨"Kerosene", rfl, by decide +kernel⟩ }

theorem dearer_filled {L : Libs} (hk : L.knownModule "Some_Module" = true) : Filled L dearer :=
  let F := served_filled hk
  { readable := dearer_readable, weather := F.weather, air := F.air, water := F.water, demand := F.demand,
    source := F.source, ret := F.ret, battery := F.battery, turbines := F.turbines, pv := F.pv, tank := F.tank,
    layers := F.layers, tankNumbers := F.tankNumbers, hpType := F.hpType, hpData := F.hpData,
    hpNumbers := F.hpNumbers, duties := F.duties, model := F.model, efficiency := ⟨1, rfl⟩,
    fuel := ⟨.gas, show fuelOf (text "Gas") = _ by decide +kernel, fun _ => ⟨10, by decide, by decide,
      show fuelOf (text "gas") = _ by decide +kernel, fun r h1 h2 => by
        interval_cases r
        show fuelOf (text "Kerosene") ≠ _
        decide +kernel, ⟨1, rfl⟩, ⟨9, rfl⟩⟩⟩,
    tariff := ⟨_, "Flat rates", rfl, rfl, by decide, fun _ => ⟨7, rfl⟩,
        fun h => absurd h (by decide), fun h => absurd h (by decide), fun h => absurd h (by decide)⟩ }

theorem dearer_ready (hp : ℤ) : Ready wallLibs dearer hp :=
  let R := served_ready hp
  { objects := dearer_filled rfl, demand := R.demand, delta := R.delta, exportPrice := ⟨2, rfl⟩,
    setpoint := ⟨1, rfl⟩
    prices := fun t h => by
      cases says_inj h (show Says _ _ _ _ "Flat rates" from rfl)
      exact ⟨fun h => absurd h (by decide), fun h => absurd h (by decide), fun h => absurd h (by decide),
        fun h => absurd h (by decide)⟩
    turbines := R.turbines, panels := R.panels,
    performance := R.performance }

theorem dearer_run (size : ℤ × ℤ) : ∃ S, runInputs wallLibs dearer size = .ok S :=
  (C94_ready (fun _ _ _ _ _ _ xs h => by rw [← Except.ok.inj h]; exact List.length_replicate) dearer_top
    (tail_of_height (s := pump "Simple") rfl (Nat.le_refl 47))).mpr (dearer_ready size.1)

theorem dearer_sensible : Sensible dearer :=
  let S := served_sensible
  { battery := S.battery, heat := S.heat, network := S.network, above := S.above, below := S.below }

theorem dearer_store : ServingStore wallLibs dearer 3000 :=
  let S := served_store
  { positive := S.positive, layers := S.layers, insulation := S.insulation, inside := S.inside, sealed := S.sealed,
    spread := S.spread, temps := S.temps, holds := S.holds }

theorem dearer_pump {size : ℤ × ℤ} {S : RunIn (List ℚ)} (h0 : 0 ≤ size.1)
    (h : runInputs wallLibs dearer size = .ok S) : GoodPump S :=
  C99_simple_pump h (Or.inr ⟨h0, ⟨"Simple", rfl, by decide +kernel⟩, fun cop hc => by
    rw [holds_inj hc (show Holds dearer "Heat pump" 'D' 12 3 from rfl)]; norm_num⟩)

theorem dearer_known : KnownProcesses dearer := ⟨served_known.1, served_known.2⟩

theorem dearer_boiler : Lists dearer 8 9 ∧ Lists dearer 9 9 := served_boiler

theorem dearer_same : SameBut ["Grid", "Aux heat"] served dearer := by
  intro name hn
  simp only [List.mem_cons, List.not_mem_nil, or_false, not_or] at hn
  unfold dearer
  rw [if_neg hn.1, if_neg hn.2]

theorem dearer_fuels : SameFuels served dearer := by
  unfold SameFuels
  simp only [List.forall_mem_cons, List.not_mem_nil, false_implies, implies_true, and_true]
  exact ⟨⟨rfl, rfl, rfl, rfl⟩, rfl, rfl, rfl, rfl⟩

theorem dearer_cells : Says served "Grid" 'D' 5 "Flat rates" ∧ Says dearer "Grid" 'D' 5 "Flat rates" ∧
    Holds served "Controller" 'D' 7 1 ∧ Holds served "Grid" 'C' 9 3 ∧ Holds dearer "Grid" 'C' 9 7 ∧
    Holds dearer "Heat pump" 'D' 8 0 ∧ Holds dearer "Controller" 'G' 5 (24 : ℕ) ∧
    Holds dearer "Controller" 'G' 6 (48 : ℕ) := ⟨rfl, rfl, rfl, rfl, rfl, rfl, rfl, rfl⟩

/-- The workbook without a battery of C112, with the turbines of the sample of C97. -/
def gusty : Pandas.Workbook := fun name => if name = "Wind inputs" then windy name else storeless name

theorem gusty_top : TopRowsEmpty gusty := by
  intro name s hs k
  unfold gusty at hs
  split_ifs at hs
  · exact windy_top name s hs k
  · exact storeless_top name s hs k

theorem gusty_readable : Readable gusty :=
  let R := storeless_readable
  { parametric := R.parametric, controller := R.controller, weather := R.weather, demandGen := R.demandGen,
    demandInput := R.demandInput, pv := R.pv, wind := ⟨_, rfl, by decide, by decide⟩, windFarm := R.windFarm,
    battery := R.battery, grid := R.grid, aux := R.aux, thermal := R.thermal, heatPump := R.heatPump,
    orderAbove := R.orderAbove, orderBelow := R.orderBelow, fuel := R.fuel, fuel1 := R.fuel1, fuel2 := R.fuel2,
    fuel3 := R.fuel3 }

theorem gusty_filled {L : Libs} (hk : L.knownModule "Some_Module" = true) : Filled L gusty :=
  let F := storeless_filled hk
  { readable := gusty_readable, weather := F.weather, air := F.air, water := F.water, demand := F.demand,
    source := F.source, ret := F.ret, battery := F.battery, turbines := (windy_filled hk).turbines, pv := F.pv,
    tank := F.tank, layers := F.layers, tankNumbers := F.tankNumbers, hpType := F.hpType, hpData := F.hpData,
    hpNumbers := F.hpNumbers, duties := F.duties, model := F.model, efficiency := F.efficiency, fuel := F.fuel,
    tariff := ⟨_, "Flat rates", rfl, rfl, by decide, fun _ => ⟨3, rfl⟩,
        fun h => absurd h (by decide), fun h => absurd h (by decide), fun h => absurd h (by decide)⟩ }

theorem calm_ready (hp : ℤ) : Ready strong storeless hp :=
  let R := storeless_ready hp
  { objects := storeless_filled rfl, demand := R.demand, delta := R.delta, exportPrice := R.exportPrice,
    setpoint := ⟨1, rfl⟩
    prices := fun t h => by
      cases says_inj h (show Says _ _ _ _ "Flat rates" from rfl)
      exact ⟨fun h => absurd h (by decide), fun h => absurd h (by decide), fun h => absurd h (by decide),
        fun h => absurd h (by decide)⟩
    turbines := by
      intro s hs
      refine ⟨fun row hrow => ?_, fun row hrow => ?_⟩
      · cases firstComplete_unique hrow (userRow "Simple" hs)
        exact ⟨0, rfl, fun h => absurd rfl h⟩
      · cases firstComplete_unique hrow (databaseRow "Simple" hs)
        exact ⟨0, rfl, fun h => absurd rfl h⟩
    panels := by
      intro s row site name hs h1 h2 h3
      cases firstComplete_unique h1 (pvRow "Simple" hs)
      exact ⟨0, rfl, fun h => absurd rfl h⟩
    performance := Or.inr (Or.inl ⟨"Simple", rfl, by decide +kernel⟩) }

theorem gusty_ready (hp : ℤ) : Ready strong gusty hp :=
  let R := calm_ready hp
  { objects := gusty_filled rfl, demand := R.demand, delta := R.delta, exportPrice := R.exportPrice,
    setpoint := ⟨1, rfl⟩
    prices := fun t h => by
      cases says_inj h (show Says _ _ _ _ "Flat rates" from rfl)
      exact ⟨fun h => absurd h (by decide), fun h => absurd h (by decide), fun h => absurd h (by decide),
        fun h => absurd h (by decide)⟩
    turbines := by
      intro s hs
      refine ⟨fun row hrow => ?_, fun row hrow => ?_⟩
      · cases firstComplete_unique hrow (windy_user hs)
        exact ⟨3, rfl, fun _ => ⟨_, rfl⟩⟩
      · cases firstComplete_unique hrow (windy_data hs)
        exact ⟨1, rfl, fun _ => ⟨_, rfl⟩⟩
    panels := R.panels
    performance := R.performance }

theorem calm_run (size : ℤ × ℤ) : ∃ S, runInputs strong storeless size = .ok S :=
  (C94_ready strong_farm storeless_top (tail_of_height (s := pump "Simple") rfl (Nat.le_refl 47))).mpr
    (calm_ready size.1)

theorem gusty_run (size : ℤ × ℤ) : ∃ S, runInputs strong gusty size = .ok S :=
  (C94_ready strong_farm gusty_top (tail_of_height (s := pump "Simple") rfl (Nat.le_refl 47))).mpr
    (gusty_ready size.1)

theorem strong_year : WholeYear strong := by
  refine ⟨fun _ _ _ _ _ xs h => ?_, fun _ _ _ _ xs h => ?_⟩ <;>
  · rw [← Except.ok.inj h]
    exact List.length_replicate

theorem gusty_same : SameBut ["PV inputs", "Wind inputs"] storeless gusty := by
  intro name hn
  simp only [List.mem_cons, List.not_mem_nil, or_false, not_or] at hn
  unfold gusty
  rw [if_neg hn.2]

theorem gusty_known : KnownProcesses gusty := ⟨storeless_known.1, storeless_known.2⟩

theorem gusty_cells : Holds gusty "Controller" 'G' 5 (24 : ℕ) ∧ Holds gusty "Controller" 'G' 6 (48 : ℕ) := ⟨rfl, rfl⟩

theorem calm_pump {L : Libs} {S : RunIn (List ℚ)} (h : runInputs L storeless (10, 0) = .ok S) : GoodPump S :=
  C99_simple_pump h (Or.inr ⟨by decide, ⟨"Simple", rfl, by decide +kernel⟩, fun cop hc => by
    rw [holds_inj hc (show Holds _ _ _ _ 3 from rfl)]; norm_num⟩)

theorem calm_generation {size : ℤ × ℤ} {S : RunIn (List ℚ)} (h : runInputs strong storeless size = .ok S) :
    generation S = List.replicate 8760 0 := by
  obtain ⟨o, T⟩ := start_ok h
  obtain ⟨p1, p2, p3⟩ := storeless_no_power T.objects
  unfold generation wind
  rw [Except.ok.inj (T.windUser.symm.trans p1), Except.ok.inj (T.windData.symm.trans p2),
    Except.ok.inj (T.pv.symm.trans p3)]
  simp only [List.zipWith_replicate]
  exact congrArg _ (by norm_num)

theorem gusty_generation {size : ℤ × ℤ} {S : RunIn (List ℚ)} (h : runInputs strong gusty size = .ok S) :
    generation S = List.replicate 8760 350 := by
  obtain ⟨o, T⟩ := start_ok h
  obtain ⟨s, hs, ⟨r, f1, -, -, -, a4, -⟩, -, ⟨t, f2, -, -, -, a10⟩⟩ := C91_turbines gusty_top T.objects
  cases firstComplete_unique f1 (windy_user hs)
  cases firstComplete_unique f2 (windy_data hs)
  obtain ⟨⟨m, m1, -, m3⟩, ⟨n, n1, -, n3⟩⟩ := C97_wind gusty_top h T.objects
  have e1 : m = 3 := Except.ok.inj (congrArg numOf (m1.symm.trans a4))
  have e2 : n = 1 := Except.ok.inj (congrArg numOf (n1.symm.trans a10))
  subst e1 e2
  obtain ⟨p, hp, hu⟩ := m3 (by norm_num)
  obtain ⟨q, hq, hd⟩ := n3 (by norm_num)
  obtain ⟨s', hs', ⟨r3, _, f3, -, -, m3, -⟩, -⟩ := C91_pv_partial gusty_top T.objects
  cases firstComplete_unique f3 (pvRow "Simple" hs')
  have e3 : numOf o.pv.multiplier = .ok 0 := by rw [m3]; rfl
  have hpv : pvSeries strong o.pv = .ok (List.replicate 8760 0) := by
    unfold pvSeries Renewables.pvPower
    rw [e3, okBind, if_pos rfl, if_pos rfl]
  have k1 : S.windUser = List.replicate 8760 300 := by
    rw [hu, ← Except.ok.inj hp, List.map_replicate]
    exact congrArg _ (show pyRound (100000 * 3 / 1000) 2 = 300 by decide +kernel)
  have k2 : S.windData = List.replicate 8760 50 := by
    rw [hd, ← Except.ok.inj hq, List.map_replicate]
    exact congrArg _ (show pyRound (100000 * 1 * (1 / 2) / 1000) 2 = 50 by decide +kernel)
  unfold generation wind
  rw [k1, k2, Except.ok.inj (T.pv.symm.trans hpv)]
  simp only [List.zipWith_replicate]
  exact congrArg _ (by norm_num)

end Sample

attribute [local irreducible] Sample.served Sample.dearer Sample.storeless Sample.gusty simulate

/-- C104: with electricity and fuels at more than twice the price the two days of the heat pump of size 10 and the store
of three cubic metres go on as before. -/
example : ∃ rs rs', simulate Sample.wallLibs Sample.served (10, 3000) = .ok rs ∧
    simulate Sample.wallLibs Sample.dearer (10, 3000) = .ok rs' ∧ rs.length = 48 ∧
    rs'.map energyOf = rs.map energyOf := by
  obtain ⟨S, hS⟩ := Sample.served_run (10, 3000)
  obtain ⟨S', hS'⟩ := Sample.dearer_run (10, 3000)
  obtain ⟨c1, -, c3, c4⟩ := Sample.served_cells
  obtain ⟨d1, d2, d3, d4, d5, d6, d7, d8⟩ := Sample.dearer_cells
  obtain ⟨rs, h, hl⟩ := C126_simulates Sample.wallLibs_year Sample.served_top Sample.served_sensible Sample.served_known
    Sample.served_boiler c1 Sample.served_store hS (Sample.served_pump (by decide) hS) c3 c4 (by omega)
  obtain ⟨rs', h', -⟩ := C126_simulates Sample.wallLibs_year Sample.dearer_top Sample.dearer_sensible Sample.dearer_known
    Sample.dearer_boiler d6 Sample.dearer_store hS' (Sample.dearer_pump (by decide) hS') d7 d8 (by omega)
  exact ⟨rs, rs', h, h', hl, C104_flat_rates Sample.served_top Sample.dearer_top Sample.dearer_same Sample.dearer_fuels
    d1 d2 d3 d4 d5 (by norm_num) h h'⟩

/-- C102: turbines of 350 kW where there were none. -/
example : ∃ rs rs', simulate Sample.strong Sample.storeless (10, 0) = .ok rs ∧
    simulate Sample.strong Sample.gusty (10, 0) = .ok rs' ∧ rs.length = 48 ∧
    List.Forall₂ (fun r r' => r.res.generationTotal = 0 ∧ r'.res.generationTotal = 350 ∧
      r'.grid.totalImport ≤ r.grid.totalImport ∧ r.grid.totalExport ≤ r'.grid.totalExport) rs rs' := by
  obtain ⟨S, hS⟩ := Sample.calm_run (10, 0)
  obtain ⟨S', hS'⟩ := Sample.gusty_run (10, 0)
  obtain ⟨c1, c2, -⟩ := Sample.storeless_cells
  obtain ⟨d1, d2⟩ := Sample.gusty_cells
  obtain ⟨rs, h, hl⟩ := C99_simulates_partial Sample.strong_year Sample.storeless_top Sample.storeless_known rfl hS
    c1 c2 (by omega)
  obtain ⟨rs', h', hl'⟩ := C99_simulates_partial Sample.strong_year Sample.gusty_top Sample.gusty_known rfl hS'
    d1 d2 (by omega)
  have hall := C102_workbook Sample.storeless_top Sample.storeless_plain.sensible Sample.storeless_plain.battery
    (fun S hS => Sample.calm_pump hS) Sample.gusty_same h h'
  refine ⟨rs, rs', h, h', hl, ?_⟩
  refine List.forall₂_iff_get.mpr ⟨hl.trans hl'.symm, fun k hk hk' => ?_⟩
  obtain ⟨T, first, n, hT, -, -, hrun⟩ := simulate_ok.mp h
  obtain ⟨T', first', n', hT', -, -, hrun'⟩ := simulate_ok.mp h'
  have g := run_generation hrun (List.getElem?_eq_getElem hk) (C27_one_result_per_hour hrun ▸ hk)
  have g' := run_generation hrun' (List.getElem?_eq_getElem hk') (C27_one_result_per_hour hrun' ▸ hk')
  rw [Sample.calm_generation hT] at g
  rw [Sample.gusty_generation hT'] at g'
  have e : (rs.get ⟨k, hk⟩).res.generationTotal = 0 := List.eq_of_mem_replicate (List.mem_of_getElem? g)
  have e' : (rs'.get ⟨k, hk'⟩).res.generationTotal = 350 := List.eq_of_mem_replicate (List.mem_of_getElem? g')
  obtain ⟨a1, a2, -⟩ := (List.forall₂_iff_get.mp hall).2 k hk hk' (by rw [e, e']; norm_num)
  exact ⟨e, e', a1, a2⟩

end Verif
