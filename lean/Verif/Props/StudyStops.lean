import Verif.Props.StoreStops
import Verif.Props.UnusedStore
import Verif.Props.Power

/-!
# A study that a thermal store stops (C125)
-/

set_option autoImplicit false

namespace Verif
open Pandas Simulation Spec Programme FixedOrder Tank

variable {F K : Type} {L : Libs} {gekko : Gekko} {wb : Pandas.Workbook}

/-- **One combination stops the whole study.** If for one of its combinations the heat pump would, without its
minimum output, run in the first hour, and its minimum output is more than that and the room in the store, then the
program never gets to its indicators, whatever the other combinations are. -/
theorem C125_study_stops {out : Outputs F K} (ht : TopRowsEmpty wb) (hw : Sensible wb)
    (hc : Says wb "Controller" 'D' 5 "Fixed order control") {pa : Para.Ranges} {sizes : List (ℤ × ℤ)}
    (hpa : RangesIn wb pa) (hz : Para.combos pa = .ok sizes) {size : ℤ × ℤ} (hm : size ∈ sizes) (h0 : 0 < size.2)
    {S : RunIn (List ℚ)} (hS : runInputs L wb size = .ok S) (hp : GoodPump S) {first n : ℕ}
    (hf : Holds wb "Controller" 'G' 5 first) (hn : Holds wb "Controller" 'G' 6 n) (h1 : 1 ≤ n)
    {r : Results (List ℚ)} (hr : runTimesteps (freely S) first 1 = .ok [r]) (hpump : 1 / 10 < r.hp.heatTotalOutput)
    {room : ℚ} (hroom : S.tank.maxInOut first .charging S.tank.initTemps = .ok room)
    (hmin : r.hp.heatTotalOutput + room < leastOutput S r.hp.duty) :
    (∃ e, simulate L wb size = .error e) ∧
    (∃ answer, Ends L gekko wb out answer) ∧ ∀ answer, Ends L gekko wb out answer → ∀ k, answer.1 ≠ .ok k := by
  have hsim : ∃ e, simulate L wb size = .error e := by
    cases h : simulate L wb size with
    | error e => exact ⟨e, rfl⟩
    | ok rs =>
      exfalso
      obtain ⟨S', first', n', hS', hf', hn', hrun⟩ := simulate_ok.mp h
      cases Except.ok.inj (hS.symm.trans hS')
      have e1 : first = first' := by exact_mod_cast Except.ok.inj (congrArg numOf (hf.symm.trans hf'))
      have e2 : n = n' := by exact_mod_cast Except.ok.inj (congrArg numOf (hn.symm.trans hn'))
      subst e1 e2
      obtain ⟨hR, hO⟩ := C99_meaningful ht hw hS hp h0.le
      obtain ⟨-, -, o, source, flow, ret, delta, ho, htank, -⟩ := C93_demand ht hS
      rw [htank] at hroom
      obtain ⟨e, he⟩ := C125_large_pump_stops hR hO htank
        (by rw [(C91_tank ho).1]; exact_mod_cast h0.ne') h1 rfl hr hpump hroom hmin
      cases he.symm.trans hrun
  refine ⟨hsim, (C99_always_ends L gekko wb out).1, ?_⟩
  rintro ⟨a, st⟩ h k rfl
  obtain ⟨pb, sizes', hpb, hz', -, hall, -⟩ := C99_study hc h
  cases Except.ok.inj (hz'.symm.trans ((ranges_combos hpb hpa).trans hz))
  obtain ⟨rs, hrs, -⟩ := hall size hm
  obtain ⟨e, he⟩ := hsim
  cases he.symm.trans hrs

/-! ## A sample study that is stopped -/

/-- With the orders of the sample the heat pump gives what it can of the demand. -/
theorem pump_alone {N : Type} {P : Plant N} {i : StepIn N} {b : Bool} {c : Checks} {r : Results N}
    (h : dispatch P i b (if b then [1, 2, 6, 9] else [1, 2, 3, 8, 9]) = .ok (c, r)) :
    r.hp.heatTotalOutput = (if P.hp.capacity = 0 then 0 else min i.heatDemand i.perf.duty) ∧ r.hp.duty = i.perf.duty := by
  cases b
  all_goals
    unfold dispatch at h
    simp only [Bool.false_eq_true, if_false, if_true, except_bind_ok, except_pure_ok] at h
    obtain ⟨s, hs, nodes, -, he⟩ := h
    have hs' := Except.ok.inj hs
    obtain ⟨-, rfl⟩ := Prod.mk.inj he
    rw [← hs']
    refine ⟨?_, rfl⟩
    show (0 : ℚ) + (if P.hp.capacity = 0 then 0 else min i.heatDemand (i.perf.duty - 0)) + 0 + (0 + 0) = _
    rw [sub_zero]
    ring

/-- Indoors the air of the weather sheet does not matter. -/
theorem maxEnergy_inside {tk : Tank} (h : tk.location = .inside) (hour : ℕ) (state : TankState) (net : NetTemps)
    (nodes : List ℚ) (air : List ℚ) : maxEnergy { tk with air := air } hour state net nodes = maxEnergy tk hour state net nodes := by
  have he : ∀ nodes, env { tk with air := air } hour nodes = env tk hour nodes := by
    intro nodes
    unfold env
    have : ambTemp { tk with air := air } hour = ambTemp tk hour := by
      unfold ambTemp
      dsimp only
      rw [h]
    rw [this]
    rfl
  have hl : ∀ cp t nodes, energyLoop { tk with air := air } hour state net cp t nodes =
      energyLoop tk hour state net cp t nodes := by
    intro cp t
    induction t with
    | zero => intro nodes; rfl
    | succ t ih =>
      intro nodes
      unfold energyLoop
      simp only [he, ih]
      rfl
  unfold maxEnergy
  simp only [he, hl]

namespace Sample
open Pandas Workbook InputReader Enums Simulation Spec FixedOrder Programme Tariff

/-- The heat pump sheet with a minimum output of 100 %. -/
def eagerPump : Pandas.Sheet :=
  sheet 19 47 (put (all 20) [((3, 3), text "ashp"), ((4, 3), text "Simple"), ((8, 3), num 100),
      ((9, 3), text "Integrated performance"), ((12, 3), num 3), ((30, 2), none),
      ((5, 13), text "Domestic"), ((6, 13), text "Fixed")])

/-- The sample with stores of 0 and 10 litres and that heat pump. -/
def eager : Pandas.Workbook := fun name => if name = "Heat pump" then some eagerPump else stores name

theorem eager_top : TopRowsEmpty eager := by
  intro name s hs k
  unfold eager at hs
  split_ifs at hs
  · cases Option.some.inj hs; rfl
  · exact stores_top name s hs k

theorem eager_readable : Readable eager :=
  { parametric := ⟨_, rfl, by decide, by decide⟩, controller := ⟨_, rfl, by decide, by decide⟩,
    weather := ⟨_, rfl, by decide, by decide⟩, demandGen := ⟨_, rfl, by decide, by decide⟩,
    demandInput := ⟨_, rfl, by decide, by decide⟩, pv := ⟨_, rfl, by decide, by decide⟩,
    wind := ⟨_, rfl, by decide, by decide⟩, windFarm := ⟨_, rfl, by decide, by decide⟩,
    battery := ⟨_, rfl, by decide, by decide⟩, grid := ⟨_, rfl, by decide, by decide⟩,
    aux := ⟨_, rfl, by decide, by decide⟩, thermal := ⟨_, rfl, by decide, by decide⟩,
    heatPump := ⟨eagerPump, rfl, Nat.le_refl 19, by show 26 ≤ 47; decide⟩,
    orderAbove := ⟨"1, 2, 3, 8, 9", [1, 2, 3, 8, 9], rfl, by decide +kernel⟩,
    orderBelow := ⟨"1,2,6,9", [1, 2, 6, 9], rfl, by decide +kernel⟩,
    fuel := ⟨"Gas", rfl, by decide +kernel⟩, fuel1 := ⟨"Wood chips", rfl, by decide +kernel⟩,
    fuel2 := ⟨"gas", rfl, by decide +kernel⟩, fuel3 := ⟨"Kerosene", rfl, by decide +kernel⟩ }

theorem eager_tables : TestTables eagerPump := by
  refine ⟨rfl, (by decide : 36 ≤ 47), ?_, ?_, ?_, ?_, ?_⟩
  · intro i hi h1 h2 h3 h4 h5
    interval_cases i <;> first | exact ⟨⟨20, rfl⟩, ⟨20, rfl⟩, ⟨20, rfl⟩, ⟨20, rfl⟩⟩ | cases h1
  · intro i hi _ _ _ _ _
    interval_cases i <;> exact ⟨⟨20, rfl⟩, ⟨20, rfl⟩, ⟨20, rfl⟩, ⟨20, rfl⟩⟩
  · intro i hi _ _ _ _ _
    interval_cases i <;> exact ⟨⟨20, rfl⟩, ⟨20, rfl⟩, ⟨20, rfl⟩, ⟨20, rfl⟩⟩
  · intro i hi _ _ _ _ _
    interval_cases i <;> exact ⟨⟨20, rfl⟩, ⟨20, rfl⟩, ⟨20, rfl⟩, ⟨20, rfl⟩⟩
  · intro h
    have : (testPoints eagerPump 1).length = 29 := rfl
    rw [h] at this
    cases this

theorem eager_filled {L : Libs} (hk : L.knownModule "Some_Module" = true) : Filled L eager := by
  have F := filled hk (model := "Simple") (by decide)
  refine
    { readable := eager_readable, weather := F.weather, air := F.air, water := F.water, demand := F.demand,
      source := F.source, ret := F.ret, battery := F.battery, turbines := F.turbines, pv := F.pv,
      tank := F.tank, layers := F.layers, tankNumbers := F.tankNumbers,
      hpType := ⟨.ashp, "ashp", rfl, by decide +kernel⟩,
      hpData := ⟨.integrated, "Integrated performance", rfl, by decide +kernel⟩, hpNumbers := ?_,
      duties := ?_, model := ⟨.simple, ⟨_, rfl, by decide +kernel⟩, by decide, fun _ => ⟨3, rfl⟩, fun _ => ?_,
        fun _ => ⟨_, rfl, eager_tables⟩⟩,
      efficiency := F.efficiency, fuel := F.fuel,
      tariff := ⟨_, "Flat rates", rfl, rfl, by decide, fun _ => ⟨3, rfl⟩,
        fun h => absurd h (by decide), fun h => absurd h (by decide), fun h => absurd h (by decide)⟩ }
  · simp only [List.forall_mem_cons, List.not_mem_nil, false_implies, implies_true, and_true]
    exact ⟨⟨_, rfl⟩, ⟨_, rfl⟩, ⟨_, rfl⟩, ⟨_, rfl⟩⟩
  · intro col hcol r hr t ht
    have hr' : 27 ≤ r ∧ r ≤ 47 := by omega
    obtain ⟨h1, h2⟩ := hr'
    simp only [List.mem_cons, List.not_mem_nil, or_false] at hcol
    rcases hcol with rfl | rfl <;> interval_cases r <;> cases ht
  · simp only [List.forall_mem_cons, List.not_mem_nil, false_implies, implies_true, and_true]
    exact ⟨⟨20, rfl⟩, ⟨20, rfl⟩, ⟨20, rfl⟩, ⟨20, rfl⟩, ⟨20, rfl⟩, ⟨20, rfl⟩⟩

theorem eager_ready (hp : ℤ) : Ready wallLibs eager hp where
  objects := eager_filled rfl
  demand := by
    simp only [List.forall_mem_cons, List.not_mem_nil, false_implies, implies_true, and_true]
    exact ⟨fun r h _ => (number_lower (model := "Simple") h).2.2.1,
      fun r h _ => (number_lower (model := "Simple") h).2.2.2.1,
      fun r h _ => (number_lower (model := "Simple") h).2.2.2.2.1⟩
  delta := ⟨5, rfl⟩
  exportPrice := ⟨3, rfl⟩
  setpoint := ⟨1, rfl⟩
  prices t h := by
    cases says_inj h (show Says _ _ _ _ "Flat rates" from rfl)
    exact ⟨fun h => absurd h (by decide), fun h => absurd h (by decide), fun h => absurd h (by decide),
      fun h => absurd h (by decide)⟩
  turbines := by
    intro s hs
    refine ⟨fun row hrow => ?_, fun row hrow => ?_⟩
    · cases firstComplete_unique hrow (userRow "Simple" hs)
      exact ⟨0, rfl, fun h => absurd rfl h⟩
    · cases firstComplete_unique hrow (databaseRow "Simple" hs)
      exact ⟨0, rfl, fun h => absurd rfl h⟩
  panels := by
    intro s row site name hs h1 h2 h3
    cases firstComplete_unique h1 (pvRow "Simple" hs)
    exact ⟨0, rfl, fun h => absurd rfl h⟩
  performance := Or.inr (Or.inl ⟨"Simple", rfl, by decide +kernel⟩)

theorem eager_run (size : ℤ × ℤ) : ∃ S, runInputs wallLibs eager size = .ok S :=
  (C94_ready (fun _ _ _ _ _ _ xs h => by rw [← Except.ok.inj h]; exact List.length_replicate) eager_top
    (tail_of_height (s := eagerPump) rfl (Nat.le_refl 47))).mpr (eager_ready size.1)

theorem eager_sensible : Sensible eager :=
  ⟨(sensible "Simple").battery, (sensible "Simple").heat, (sensible "Simple").network, (sensible "Simple").above,
    (sensible "Simple").below⟩

theorem eager_processes : NoStoreProcesses eager := stores_processes

theorem eager_idle : IdleStore wallLibs eager 10 :=
  ⟨stores_idle.1, stores_idle.2, stores_idle.3, stores_idle.4, stores_idle.5, stores_idle.6⟩

theorem eager_ranges : RangesIn eager ⟨0, 20, 10, 0, 10, 10⟩ :=
  ⟨rfl, rfl, rfl, rfl, fun _ => rfl, fun _ => rfl⟩

theorem eager_cells : Holds eager "Heat pump" 'D' 8 100 ∧ Holds eager "Heat pump" 'D' 7 20 ∧
    Says eager "Controller" 'D' 5 "Fixed order control" ∧ Holds eager "Controller" 'G' 5 (24 : ℕ) ∧
    Holds eager "Controller" 'G' 6 (48 : ℕ) := ⟨rfl, rfl, rfl, rfl, rfl⟩

theorem eager_pump {size : ℤ × ℤ} {S : RunIn (List ℚ)} (h0 : 0 ≤ size.1)
    (h : runInputs wallLibs eager size = .ok S) : GoodPump S :=
  C99_simple_pump h (Or.inr ⟨h0, ⟨"Simple", rfl, by decide +kernel⟩, fun cop hc => by
    rw [holds_inj hc (show Holds eager "Heat pump" 'D' 12 3 from rfl)]; norm_num⟩)

/-- The tank the sample makes, but for the air outside. -/
def tenLitres : Tank :=
  { capacity := 10, number := 5, insulation := "polyurethane", location := .inside, air := [], wall := 1 / 100, connection := 0 }

theorem eager_tank {o : Objects} (h : objects wallLibs eager (10, 10) = .ok o) :
    o.tank = { tenLitres with air := o.tank.air } := by
  obtain ⟨e1, e2, e3, e4, ⟨_, _, -, -, e5⟩, ⟨_, _, _, _, _, _, -, -, -, -, -, -, e6⟩⟩ := C91_tank h
  have e7 : o.tank.number = 5 := by exact_mod_cast holds_inj e2 (show Holds eager "Thermal storage" 'D' 8 5 from rfl)
  have e8 : o.tank.insulation = "polyurethane" := e3.trans (by decide +kernel)
  have e9 : o.tank.location = .inside := e4.trans (by decide +kernel)
  generalize o.tank = tk at *
  obtain ⟨a, b, c, d, e, f, g⟩ := tk
  dsimp only at *
  subst e1 e7 e8 e9 e5 e6
  rfl

theorem eager_orders {S : RunIn (List ℚ)} {size : ℤ × ℤ} (hS : runInputs wallLibs eager size = .ok S) :
    S.orderAbove = [1, 2, 3, 8, 9] ∧ S.orderBelow = [1, 2, 6, 9] := by
  obtain ⟨-, -, ⟨a, a1, a2⟩, ⟨b, b1, b2⟩⟩ := C91_controller hS
  constructor
  · cases says_inj a1 (show Says eager "Controller" 'D' 8 "1, 2, 3, 8, 9" from rfl)
    exact Except.ok.inj (a2.symm.trans (by decide +kernel))
  · cases says_inj b1 (show Says eager "Controller" 'D' 9 "1,2,6,9" from rfl)
    exact Except.ok.inj (b2.symm.trans (by decide +kernel))

theorem eager_heat {S : RunIn (List ℚ)} {size : ℤ × ℤ} (hS : runInputs wallLibs eager size = .ok S) {heat : ℚ}
    (h : S.heatDemand[24]? = some heat) : heat = 2 := by
  obtain ⟨⟨s, -, -, hc⟩, -⟩ := C93_demand eager_top hS
  have h30 : Holds eager "Demand input" 'D' (6 + 24) heat := hc 24 heat h
  rw [holds_inj h30 (show Holds eager "Demand input" 'D' (6 + 24) ((30 % 7 : ℕ) : ℚ) from rfl)]
  norm_num

theorem eager_perf {S : RunIn (List ℚ)} (hS : runInputs wallLibs eager (10, 10) = .ok S) {perf : Perf}
    (hmem : perf ∈ S.perf) : perf = ⟨3, 10⟩ := by
  obtain ⟨o, T⟩ := start_ok hS
  obtain ⟨hcap, -, -, -, -, -, ⟨t, m, S3, R3, hgen, hsim, -⟩⟩ := C91_heat_pump T.objects
  cases reads_unique ⟨t, S3, R3⟩ (show Reads eager "Heat pump" 'D' 4 ModelName.simple from ⟨"Simple", rfl, by decide +kernel⟩)
  obtain ⟨cop, hcell, hm⟩ := hsim rfl
  rw [holds_inj hcell (show Holds eager "Heat pump" 'D' 12 3 from rfl)] at hm
  have hpe := T.perf
  unfold HpConfig.performance at hpe
  rw [if_neg (by rw [hcap]; norm_num), hm] at hpe
  dsimp only at hpe
  rw [mkPerformance_eq (by rw [List.length_replicate, List.length_replicate])] at hpe
  rw [← Except.ok.inj hpe, List.zipWith_replicate] at hmem
  rw [List.eq_of_mem_replicate hmem]
  norm_num

theorem eager_room {S : RunIn (List ℚ)} (hS : runInputs wallLibs eager (10, 10) = .ok S) :
    ∃ room, S.tank.maxInOut 24 .charging S.tank.initTemps = .ok room ∧ room < 1 := by
  obtain ⟨o, T⟩ := start_ok hS
  obtain ⟨D1, -, o', source, flow, ret, delta, ho', htank, hs, hf, hret, hd⟩ := C93_demand eager_top hS
  cases Except.ok.inj (ho'.symm.trans T.objects)
  have hl : S.heatDemand.length = 8760 := (C99_whole_year wallLibs_year eager_top hS).heatDemand
  have h24 : (24 : ℕ) < 8760 := by omega
  have es : source.getD 24 0 = 55 := by
    have hlt : 24 < source.length := by rw [hourly_length hs D1, hl]; exact h24
    obtain ⟨_, -, -, hc⟩ := hs
    rw [List.getD_eq_getElem?_getD, List.getElem?_eq_getElem hlt, Option.getD_some]
    exact holds_inj (hc 24 _ (List.getElem?_eq_getElem hlt)) (show Holds eager "Demand input" 'G' (6 + 24) 55 from rfl)
  have ef : flow.getD 24 0 = 60 := by
    have hlt : 24 < flow.length := by rw [hourly_length hf D1, hl]; exact h24
    obtain ⟨_, -, -, hc⟩ := hf
    rw [List.getD_eq_getElem?_getD, List.getElem?_eq_getElem hlt, Option.getD_some]
    exact holds_inj (hc 24 _ (List.getElem?_eq_getElem hlt)) (show Holds eager "Demand input" 'F' (6 + 24) 60 from rfl)
  have er : ret = 40 := holds_inj hret (show Holds eager "Demand input" 'I' 6 40 from rfl)
  have ed : delta = 5 := holds_inj hd (show Holds eager "Demand input" 'I' 8 5 from rfl)
  subst er ed
  obtain ⟨room, h1, h2⟩ : ∃ room, maxEnergy tenLitres 24 .charging ⟨55, 5, 60, 40⟩ (initTemps tenLitres 40) = .ok room ∧
      room < 1 := exists_of_checks (by decide +kernel)
  refine ⟨room, ?_, h2⟩
  rw [htank]
  show maxEnergy o.tank 24 .charging ⟨source.getD 24 0, 5, flow.getD 24 0, 40⟩ (initTemps o.tank 40) = .ok room
  rw [es, ef, eager_tank T.objects, maxEnergy_inside rfl]
  exact h1

attribute [local irreducible] eager wallLibs

/-- A year of the sample without the minimum output: 2 kWh from the pump in hour 24. -/
theorem eager_free {S : RunIn (List ℚ)} (hS : runInputs wallLibs eager (10, 10) = .ok S) :
    ∃ r, runTimesteps (freely S) 24 1 = .ok [r] ∧ r.hp.heatTotalOutput = 2 ∧ r.hp.duty = 10 := by
  obtain ⟨o, T⟩ := start_ok hS
  obtain ⟨-, -, o', source, flow, ret, delta, ho', htank, -, -, hret, -⟩ := C93_demand eager_top hS
  cases Except.ok.inj (ho'.symm.trans T.objects)
  obtain ⟨oa, ob⟩ := eager_orders hS
  have hy := C99_whole_year wallLibs_year eager_top hS
  obtain ⟨rs, hrs⟩ := C27_accepts_unused_store (S := freely S) htank (idle_tank T.objects eager_idle hret)
    ⟨min_le_right _ _, le_max_right _ _⟩ ⟨hy.1, hy.2, hy.3, hy.4, hy.5, hy.6, hy.7⟩ rfl
    (fun m hm => by
      have hm' : m ∈ S.orderAbove := hm
      rw [oa] at hm'
      simp only [List.mem_cons, List.not_mem_nil, or_false] at hm'
      rcases hm' with rfl | rfl | rfl | rfl | rfl <;> exact ⟨_, rfl, rfl⟩)
    (fun m hm => by
      have hm' : m ∈ S.orderBelow := hm
      rw [ob] at hm'
      simp only [List.mem_cons, List.not_mem_nil, or_false] at hm'
      rcases hm' with rfl | rfl | rfl | rfl <;> exact ⟨_, rfl, rfl⟩) (first := 24) (n := 1) (by omega)
  have hcap : S.hp.capacity = 10 := by
    rw [T.hp]
    exact (C91_heat_pump T.objects).1.trans (by norm_num)
  obtain ⟨r, rfl⟩ := List.length_eq_one_iff.mp (C27_one_result_per_hour hrs)
  obtain ⟨rows, -, hk⟩ := C27_chained hrs
  obtain ⟨r', hr, hq⟩ := hk 0 Nat.one_pos
  cases Option.some.inj hr
  clear hy hk
  obtain ⟨heat, price, row, perf, gen, wnd, pv, elec, r0, ho⟩ := hourStep_ok.mp hq
  cases eager_heat hS ho.heatEq
  cases eager_perf hS (List.mem_of_getElem? ho.perfEq)
  refine ⟨r, hrs, ?_⟩
  obtain ⟨c, r1, hd, hm⟩ := step_ok ho.stepEq
  have hord : (if price > S.setpoint then S.orderAbove else S.orderBelow) =
      if decide (price ≤ S.setpoint) then [1, 2, 6, 9] else [1, 2, 3, 8, 9] := by
    by_cases h : price > S.setpoint
    · rw [if_pos h, decide_eq_false (not_le.mpr h), oa]; rfl
    · rw [if_neg h, decide_eq_true (not_lt.mp h), ob]; rfl
  have hd' : dispatch (plant (freely S)) _ (decide (price ≤ S.setpoint))
    (if price > S.setpoint then S.orderAbove else S.orderBelow) = .ok (c, r1) := hd
  rw [hord] at hd'
  obtain ⟨e1, e2⟩ := pump_alone hd'
  have e1' : r1.hp.heatTotalOutput = if S.hp.capacity = 0 then 0 else min (2 : ℚ) 10 := e1
  rw [hcap, if_neg (by norm_num), min_eq_left (by norm_num)] at e1'
  have hfree : r0 = r1 := by
    have free : ∀ i, minOut (plant (freely S)) i = 0 := by
      intro i
      unfold minOut
      show (0 : ℚ) * S.hp.minimumRuntime / 60 / 100 * i.perf.duty = 0
      ring
    rcases rule_outcome hm with ⟨h, -⟩ | ⟨_, hu, -⟩ | ⟨_, hu, -, -⟩ | ⟨_, _, hu, -, -, -⟩
    · exact h
    all_goals
      exfalso
      have h1 := hu.1
      rw [free, e1'] at h1
      norm_num at h1
  subst hfree
  rw [ho.resultEq]
  exact ⟨e1', e2⟩

end Sample

attribute [local irreducible] Ends Sample.eager Sample.wallLibs

/-- The study of the sample with a heat pump that runs at full power or not at all never gets to its indicators. With
no minimum output it does (`sample_study_written`). -/
theorem C125_sample_study {out : Outputs F K} : ∀ answer, Ends Sample.wallLibs gekko Sample.eager out answer →
    ∀ k, answer.1 ≠ .ok k := by
  obtain ⟨S, hS⟩ := Sample.eager_run (10, 10)
  obtain ⟨r, hr, e1, e2⟩ := Sample.eager_free hS
  obtain ⟨c1, c2, c3, c4, c5⟩ := Sample.eager_cells
  obtain ⟨room, hroom, hlt⟩ := Sample.eager_room hS
  refine (C125_study_stops Sample.eager_top Sample.eager_sensible c3 Sample.eager_ranges Sample.stores_sizes
    (size := (10, 10)) (by decide) (by decide) hS (Sample.eager_pump (by decide) hS) c4 c5 (by decide) hr
    (by rw [e1]; norm_num) hroom ?_).2.2
  obtain ⟨o, T⟩ := start_ok hS
  obtain ⟨-, -, m1, m2, -⟩ := C91_heat_pump T.objects
  rw [e1, e2]
  unfold leastOutput
  rw [T.hp]
  dsimp only
  rw [Sample.holds_inj m1 c2, Sample.holds_inj m2 c1]
  linarith

end Verif
