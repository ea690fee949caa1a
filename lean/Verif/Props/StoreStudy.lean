import Verif.Props.StoreServes
import Verif.Props.UnusedStore

/-!
# Studies whose stores serve (C126)
-/

set_option autoImplicit false

namespace Verif
open Pandas Simulation Spec Programme FixedOrder Tank

variable {L : Libs} {gekko : Gekko} {wb : Pandas.Workbook} {root : String}

/-- What the workbook says of a store of capacity `ts` that serves: two or three layers, an insulation the program
knows (it conducts at most 144 J/hmK), indoors, no loss at its openings, a wall through which a layer loses in an
hour something, but at most a tenth of its excess over the air; a source that is always as warm, a return
temperature above the 15 degrees indoors and below source and flow, both at most 100 degrees and the same when
rounded to tens; and a half of a layer that holds the heat of any hour's demand. -/
structure Spec.ServingStore (L : Libs) (wb : Pandas.Workbook) (ts : ℤ) : Prop where
  positive : 0 < ts
  layers : ∀ n : ℕ, Holds wb "Thermal storage" 'D' 8 n → (n = 2 ∨ n = 3) ∧
    ∀ fi fe, Holds wb "Thermal storage" 'D' 22 fi → Holds wb "Thermal storage" 'D' 23 fe →
      0 < L.wall fe fi ts ∧ L.wall fe fi ts * 144 * 10 ≤ ts / n * 4178
  insulation : ∃ t, Says wb "Thermal storage" 'D' 6 t ∧
    ∃ word ∈ ["polyurethane", "fibreglass", "polystyrene"], Spells t word
  inside : ∃ t, Says wb "Thermal storage" 'D' 7 t ∧ Spells t "inside"
  sealed : ∀ a da u du i di, Holds wb "Thermal storage" 'D' 14 a → Holds wb "Thermal storage" 'D' 15 da →
    Holds wb "Thermal storage" 'D' 16 u → Holds wb "Thermal storage" 'D' 17 du →
    Holds wb "Thermal storage" 'D' 18 i → Holds wb "Thermal storage" 'D' 19 di → L.connection a da u du i di = 0
  spread : ¬ Holds wb "Demand input" 'I' 8 0
  temps : ∀ ret, Holds wb "Demand input" 'I' 6 ret → 15 < ret ∧
    ∃ source, ret < source ∧ source ≤ 100 ∧ (∀ row ≥ 6, ∀ x, Holds wb "Demand input" 'G' row x → x = source) ∧
      ∀ row ≥ 6, ∀ x, Holds wb "Demand input" 'F' row x → ret < x ∧ x ≤ 100 ∧ pyRoundTens source = pyRoundTens x
  holds : ∀ (n : ℕ) ret, Holds wb "Thermal storage" 'D' 8 n → Holds wb "Demand input" 'I' 6 ret → ∀ row ≥ 6,
    ∀ heat flow, Holds wb "Demand input" 'D' row heat → Holds wb "Demand input" 'F' row flow →
      heat * 3600 * 1000 ≤ ts / n / 2 * 4178 * (flow - ret)

/-- The tank made from such entries is steady at every hour. -/
theorem serving_tank {size : ℤ × ℤ} {o : Objects} (h : objects L wb size = .ok o) (H : ServingStore L wb size.2)
    {net : NetTemps} {source : ℚ}
    (hd : Holds wb "Demand input" 'I' 8 net.sourceDelta) (hret : 15 < net.ret)
    (hs : net.source = source ∧ net.ret < source ∧ source ≤ 100)
    (hf : net.ret < net.flow ∧ net.flow ≤ 100 ∧ pyRoundTens source = pyRoundTens net.flow) :
    SteadyStore o.tank net 15 := by
  obtain ⟨e1, e2, -, -, ⟨fi, fe, f1, f2, e5⟩, ⟨a, da, u, du, i, di, g1, g2, g3, g4, g5, g6, e6⟩⟩ := C91_tank h
  obtain ⟨t, ht, word, hword, hsp⟩ := H.insulation
  obtain ⟨t', ht', hsp'⟩ := H.inside
  obtain ⟨k1, k2, -⟩ := C91_tank_words h ht ht'
  obtain ⟨h2, hw⟩ := H.layers _ e2
  obtain ⟨w0, w1⟩ := hw fi fe f1 f2
  obtain ⟨rfl, s1, s2⟩ := hs
  have hk : ∃ k, o.tank.kValue = .ok k ∧ k ≤ 144 := by
    have hin := (k1 word hword).mpr hsp
    unfold kValue
    rw [hin]
    simp only [List.mem_cons, List.not_mem_nil, or_false] at hword
    rcases hword with rfl | rfl | rfl
    · exact ⟨_, if_pos rfl, by norm_num⟩
    · exact ⟨_, (if_neg (by decide)).trans (if_pos rfl), by norm_num⟩
    · exact ⟨_, (if_neg (by decide)).trans ((if_neg (by decide)).trans (if_pos rfl)), by norm_num⟩
  obtain ⟨k, hk, hk'⟩ := hk
  refine
    { usable := ⟨by rw [e1]; exact_mod_cast H.positive, by omega⟩, layers := by omega,
      sealed := by rw [e6]; exact H.sealed _ _ _ _ _ _ g1 g2 g3 g4 g5 g6,
      wall := by rw [e5]; exact w0, insulation := ⟨k, hk, ?_⟩, surroundings := fun hour _ => ?_,
      warmAir := by linarith, ret := hret, flow := ⟨hf.1, hf.2.1⟩, source := ⟨s1, s2⟩,
      spread := fun h0 => H.spread (h0 ▸ hd), heats := hf.2.2 }
  · rw [e5]
    have := mul_le_mul_of_nonneg_left hk' w0.le
    unfold nodeMass
    rw [e1]
    linarith
  · unfold ambTemp
    rw [k2.mpr hsp']

/-- What the theorems about stores need of a run started from such entries. -/
theorem serving_run (hL : WholeYear L) {size : ℤ × ℤ} {S : RunIn (List ℚ)} (ht : TopRowsEmpty wb)
    (hw : Sensible wb) (h9 : Lists wb 8 9 ∧ Lists wb 9 9)
    (hmin : Holds wb "Heat pump" 'D' 8 0) (hs : ServingStore L wb size.2)
    (h : runInputs L wb size = .ok S) (hp : GoodPump S) : RunOk S ∧ OrdersOk S ∧ FullYear S ∧
      (9 ∈ S.orderAbove ∧ 9 ∈ S.orderBelow) ∧ S.hp.minimumOutput = 0 ∧
      ∃ tk net source ret, S.tank = toTankI tk net ret ∧ tk.capacity = size.2 ∧ Holds wb "Demand input" 'I' 6 ret ∧
        (∀ hour < 8760, SteadyStore tk (net hour) 15 ∧ (net hour).source = source ∧ (net hour).ret = ret) ∧
        ∀ hour de, S.heatDemand[hour]? = some de → LayersHold tk (net hour) de := by
  obtain ⟨o, T⟩ := start_ok h
  obtain ⟨Dh, -, o', source, flow, ret, delta, ho', htank, Ds, Df, hret, hdelta⟩ := C93_demand ht h
  cases Except.ok.inj (ho'.symm.trans T.objects)
  obtain ⟨-, -, ⟨a, a1, a2⟩, ⟨b, b1, b2⟩⟩ := C91_controller h
  have hm0 : S.hp.minimumOutput = 0 := by
    rw [T.hp]
    exact Sample.holds_inj (C91_heat_pump T.objects).2.2.2.1 hmin
  obtain ⟨H1, H2⟩ := C99_meaningful ht hw h hp hs.positive.le
  have hy := C99_whole_year hL ht h
  have hin : ∀ {r : ℕ} {l : List ℤ} {t : String}, Says wb "Controller" 'D' r t →
      InputText.readOrder t.toList = .ok l → Lists wb r 9 → 9 ∈ l := by
    rintro r l t q1 q2 ⟨t', l', q1', q2', q3⟩
    cases Sample.says_inj q1 q1'
    cases Except.ok.inj (q2.symm.trans q2')
    exact q3
  obtain ⟨r1, src, s1, s2, s3, s4⟩ := hs.temps ret hret
  have hls : source.length = 8760 := (hourly_length Ds Dh).trans hy.heatDemand
  have hlf : flow.length = 8760 := (hourly_length Df Dh).trans hy.heatDemand
  obtain ⟨-, -, -, Ch⟩ := Dh
  obtain ⟨-, -, -, Cs⟩ := Ds
  obtain ⟨-, -, -, Cf⟩ := Df
  have hcs : ∀ hour < 8760, Holds wb "Demand input" 'G' (6 + hour) (source.getD hour 0) := fun hour hh => by
    refine Cs hour _ ?_
    rw [List.getD_eq_getElem?_getD, List.getElem?_eq_getElem (by rw [hls]; exact hh)]
    rfl
  have hcf : ∀ hour < 8760, Holds wb "Demand input" 'F' (6 + hour) (flow.getD hour 0) := fun hour hh => by
    refine Cf hour _ ?_
    rw [List.getD_eq_getElem?_getD, List.getElem?_eq_getElem (by rw [hlf]; exact hh)]
    rfl
  refine ⟨H1, H2, hy, ⟨hin a1 a2 h9.1, hin b1 b2 h9.2⟩, hm0, o.tank, _, src, ret, htank, (C91_tank T.objects).1, hret, ?_, ?_⟩
  · intro hour hh
    have e := s3 (6 + hour) (Nat.le_add_right ..) _ (hcs hour hh)
    exact ⟨serving_tank T.objects hs hdelta r1 ⟨e, s1, s2⟩ (s4 (6 + hour) (Nat.le_add_right ..) _ (hcf hour hh)),
      e, rfl⟩
  · intro hour de hde
    have hh : hour < 8760 := by
      rw [← hy.heatDemand]
      exact (List.getElem?_eq_some_iff.mp hde).1
    have e2 := (C91_tank T.objects).2.1
    have := hs.holds _ ret e2 hret (6 + hour) (Nat.le_add_right ..) _ _ (Ch hour de hde) (hcf hour hh)
    unfold LayersHold nodeMass
    rw [(C91_tank T.objects).1]
    exact this

/-- C126: with such a store, a heat pump without minimum output and the boiler in both orders, the simulation of a
combination gives the results of all the hours. -/
theorem C126_simulates (hL : WholeYear L) {size : ℤ × ℤ} {S : RunIn (List ℚ)} (ht : TopRowsEmpty wb)
    (hw : Sensible wb) (hk : KnownProcesses wb) (h9 : Lists wb 8 9 ∧ Lists wb 9 9)
    (hmin : Holds wb "Heat pump" 'D' 8 0) (hs : ServingStore L wb size.2)
    (h : runInputs L wb size = .ok S) (hp : GoodPump S) {first n : ℕ} (hf : Holds wb "Controller" 'G' 5 first)
    (hn : Holds wb "Controller" 'G' 6 n) (hyear : first + n ≤ 8760) :
    ∃ rs, simulate L wb size = .ok rs ∧ rs.length = n := by
  obtain ⟨H1, H2, hy, h9', hm0, tk, net, source, ret, htank, -, -, hst, hhold⟩ := serving_run hL ht hw h9 hmin hs h hp
  obtain ⟨-, -, ⟨a, a1, a2⟩, ⟨b, b1, b2⟩⟩ := C91_controller h
  obtain ⟨rs, hrs, hlen, -⟩ := C126_run_ends H1 H2
    ⟨fun p hp => hk.1 p ⟨a, _, a1, a2, hp⟩, fun p hp => hk.2 p ⟨b, _, b1, b2, hp⟩⟩ h9' hy hm0 htank hst hhold hyear
  exact ⟨rs, simulate_ok.mpr ⟨S, first, n, h, hf, hn, hrs⟩, hlen⟩

/-- C126: a study over sizes of heat pump and of store, where every store serves, gets to its end: six tables,
eight charts and no exception. -/
theorem C126_study_ends (hL : WholeYear L) (ht : TopRowsEmpty wb) (hw : Sensible wb) (hk : KnownProcesses wb)
    (h9 : Lists wb 8 9 ∧ Lists wb 9 9) (hmin : Holds wb "Heat pump" 'D' 8 0) {s : Setup}
    (hs : setup L gekko wb = .ok s) (hc : Says wb "Controller" 'D' 5 "Fixed order control") {first n : ℕ}
    (hf : Holds wb "Controller" 'G' 5 first) (hn : Holds wb "Controller" 'G' 6 n) (h2 : 2 ≤ n)
    (hyear : first + n ≤ 8760) (hinc : Incentive wb) {pa : Para.Ranges} {sizes : List (ℤ × ℤ)}
    (hpa : RangesIn wb pa) (hz : Para.combos pa = .ok sizes)
    (hstart : ∀ z ∈ sizes, ∃ S, runInputs L wb z = .ok S ∧ GoodPump S)
    (hpos : ∀ z ∈ sizes, 0 ≤ z.1 ∧ (z.2 = 0 ∨ ServingStore L wb z.2)) (htwo : TwoDimensional sizes) (root : String) :
    ∃ files st, Report.Ends L gekko wb root (.ok (files, none), st) ∧
      files.map (·.1) = Spec.tableFiles root ++ Spec.chartFiles := by
  obtain ⟨⟨files, e⟩, st, h⟩ := C101_ends_partial hs hpa hz (fun z hzm => by
    obtain ⟨S, hS, hgood⟩ := hstart z hzm
    rcases (hpos z hzm).2 with h0 | hi
    · obtain ⟨rs, hrs, -⟩ := C99_simulates_partial hL ht hk h0 hS hf hn hyear
      exact ⟨rs, Or.inl ⟨hc, hrs⟩⟩
    · obtain ⟨rs, hrs, -⟩ := C126_simulates hL ht hw hk h9 hmin hi hS hgood hf hn hyear
      exact ⟨rs, Or.inl ⟨hc, hrs⟩⟩) hn h2 root
  obtain ⟨hwr, rfl⟩ := (C101_written ht h hinc hpa hz fun z hzm => ⟨(hpos z hzm).1, by
    rcases (hpos z hzm).2 with h0 | hi
    · exact le_of_eq h0.symm
    · exact hi.positive.le⟩).1 htwo
  exact ⟨files, st, h, hwr⟩

/-! ## A sample study of three heat pumps and a store of three cubic metres -/

namespace Sample

/-- Heat demand by hour, electrical demand 2, flow temperature 55, source temperature 60, return temperature 40. -/
def servedDemand (r c : ℕ) : Value :=
  if c = 3 then num ((r % 7 : ℕ) : ℚ)
  else if c = 4 then num 2
  else if c = 5 then num 55
  else if c = 6 then num 60
  else if c = 8 then num (if r = 6 then 40 else 5)
  else num 1

/-- The sample with all processes in both orders, a store of three layers and no or three cubic metres, and a source
warmer than the flow. -/
def served : Pandas.Workbook := fun name =>
  if name = "Parametric" then some (sheet 6 7 (put (all 10) [((6, 3), num 20), ((6, 4), num 0), ((7, 3), num 3000),
    ((7, 4), num 0), ((7, 5), num 3000)]))
  else if name = "Controller" then some (sheet 7 9 (put (all 1) [((5, 3), text "Fixed order control"),
    ((5, 6), num 24), ((6, 6), num 48), ((8, 3), text "1,2,3,4,5,6,7,8,9,10,11,12,13"),
    ((9, 3), text "1,2,3,4,5,6,7,8,9,10,11,12,13,14,15")]))
  else if name = "Demand input" then some (sheet 9 8765 servedDemand)
  else if name = "Thermal storage" then some (sheet 14 23 (put (all 1) [((6, 3), text "Polyurethane"),
    ((7, 3), text "Inside"), ((8, 3), num 3)]))
  else book "Simple" name

theorem served_top : TopRowsEmpty served := by
  intro name s hs k
  unfold served at hs
  split_ifs at hs
  · cases Option.some.inj hs; rfl
  · cases Option.some.inj hs; rfl
  · cases Option.some.inj hs; rfl
  · cases Option.some.inj hs; rfl
  · exact top "Simple" name s hs k

theorem served_above : InputText.readOrder "1,2,3,4,5,6,7,8,9,10,11,12,13".toList =
    .ok [1, 2, 3, 4, 5, 6, 7, 8, 9, 10, 11, 12, 13] := by decide +kernel

theorem served_below : InputText.readOrder "1,2,3,4,5,6,7,8,9,10,11,12,13,14,15".toList =
    .ok [1, 2, 3, 4, 5, 6, 7, 8, 9, 10, 11, 12, 13, 14, 15] := by decide +kernel

theorem served_readable : Readable served :=
  { parametric := ⟨_, rfl, by decide, by decide⟩, controller := ⟨_, rfl, by decide, by decide⟩,
    weather := ⟨_, rfl, by decide, by decide⟩, demandGen := ⟨_, rfl, by decide, by decide⟩,
    demandInput := ⟨_, rfl, by decide, by decide⟩, pv := ⟨_, rfl, by decide, by decide⟩,
    wind := ⟨_, rfl, by decide, by decide⟩, windFarm := ⟨_, rfl, by decide, by decide⟩,
    battery := ⟨_, rfl, by decide, by decide⟩, grid := ⟨_, rfl, by decide, by decide⟩,
    aux := ⟨_, rfl, by decide, by decide⟩, thermal := ⟨_, rfl, by decide, by decide⟩,
    heatPump := ⟨pump "Simple", rfl, Nat.le_refl 19, by show 26 ≤ 47; decide⟩,
    orderAbove := ⟨_, _, rfl, served_above⟩, orderBelow := ⟨_, _, rfl, served_below⟩,
    fuel := ⟨"Gas", rfl, by decide +kernel⟩, fuel1 := ⟨"Wood chips", rfl, by decide +kernel⟩,
    fuel2 := ⟨"gas", rfl, by decide +kernel⟩, fuel3 := ⟨"Kerosene", rfl, by decide +kernel⟩ }

theorem served_row {r : ℕ} (h : 6 ≤ r) :
    Holds served "Demand input" 'D' r ((r % 7 : ℕ) : ℚ) ∧ Holds served "Demand input" 'E' r 2 ∧
    Holds served "Demand input" 'F' r 55 ∧ Holds served "Demand input" 'G' r 60 := by
  have h1 : ¬ r ≤ 1 := by omega
  exact ⟨if_neg h1, if_neg h1, if_neg h1, if_neg h1⟩

theorem served_filled {L : Libs} (hk : L.knownModule "Some_Module" = true) : Filled L served := by
  have F := filled hk (model := "Simple") (by decide)
  exact
    { readable := served_readable, weather := F.weather, air := F.air, water := F.water, demand := ⟨_, rfl, rfl⟩,
      source := fun r h _ => ⟨_, (served_row h).2.2.2⟩, ret := ⟨40, rfl⟩, battery := F.battery,
      turbines := F.turbines, pv := F.pv,
      tank := ⟨_, rfl, by decide, by decide⟩, layers := ⟨3, rfl⟩, tankNumbers := by
        simp only [List.forall_mem_cons, List.not_mem_nil, false_implies, implies_true, and_true]
        exact ⟨⟨_, rfl⟩, ⟨_, rfl⟩, ⟨_, rfl⟩, ⟨_, rfl⟩, ⟨_, rfl⟩, ⟨_, rfl⟩, ⟨_, rfl⟩, ⟨_, rfl⟩⟩,
      hpType := F.hpType, hpData := F.hpData, hpNumbers := F.hpNumbers, duties := F.duties, model := F.model,
      efficiency := F.efficiency, fuel := F.fuel,
      tariff := ⟨_, "Flat rates", rfl, rfl, by decide, fun _ => ⟨3, rfl⟩,
        fun h => absurd h (by decide), fun h => absurd h (by decide), fun h => absurd h (by decide)⟩ }

theorem served_ready (hp : ℤ) : Ready wallLibs served hp where
  objects := served_filled rfl
  demand := by
    simp only [List.forall_mem_cons, List.not_mem_nil, false_implies, implies_true, and_true]
    exact ⟨fun r h _ => ⟨_, (served_row h).1⟩, fun r h _ => ⟨_, (served_row h).2.1⟩,
      fun r h _ => ⟨_, (served_row h).2.2.1⟩⟩
  delta := ⟨5, rfl⟩
  exportPrice := ⟨3, rfl⟩
  setpoint := ⟨1, rfl⟩
  prices t h := by
    cases says_inj h (show Says _ _ _ _ "Flat rates" from rfl)
    exact ⟨fun h => absurd h (by decide), fun h => absurd h (by decide), fun h => absurd h (by decide),
      fun h => absurd h (by decide)⟩
  turbines := by
    intro s hs
    refine ⟨fun row hrow => ?_, fun row hrow => ?_⟩
    · cases firstComplete_unique hrow (userRow "Simple" hs)
      exact ⟨0, rfl, fun h => absurd rfl h⟩
    · cases firstComplete_unique hrow (databaseRow "Simple" hs)
      exact ⟨0, rfl, fun h => absurd rfl h⟩
  panels := by
    intro s row site name hs h1 h2 h3
    cases firstComplete_unique h1 (pvRow "Simple" hs)
    exact ⟨0, rfl, fun h => absurd rfl h⟩
  performance := Or.inr (Or.inl ⟨"Simple", rfl, by decide +kernel⟩)

theorem served_run (size : ℤ × ℤ) : ∃ S, runInputs wallLibs served size = .ok S :=
  (C94_ready (fun _ _ _ _ _ _ xs h => by rw [← Except.ok.inj h]; exact List.length_replicate) served_top
    (tail_of_height (s := pump "Simple") rfl (Nat.le_refl 47))).mpr (served_ready size.1)

theorem served_sensible : Sensible served where
  battery := (sensible "Simple").battery
  heat r hr y h := by
    rw [holds_inj h (served_row hr).1]
    exact Nat.cast_nonneg _
  network ret hret r hr y h := by
    rw [holds_inj hret (show Holds _ _ _ _ 40 from rfl), holds_inj h (served_row hr).2.2.1]
    norm_num
  above t order h1 h2 := by
    cases says_inj h1 (show Says served "Controller" 'D' 8 "1,2,3,4,5,6,7,8,9,10,11,12,13" from rfl)
    cases Except.ok.inj (h2.symm.trans served_above)
    exact ⟨sampleRun_orders.1, sampleRun_orders.3⟩
  below t order h1 h2 := by
    cases says_inj h1 (show Says served "Controller" 'D' 9 "1,2,3,4,5,6,7,8,9,10,11,12,13,14,15" from rfl)
    cases Except.ok.inj (h2.symm.trans served_below)
    exact ⟨sampleRun_orders.2, sampleRun_orders.4⟩

theorem served_known : KnownProcesses served := by
  refine ⟨fun p h => ?_, fun p h => ?_⟩
  · have := lists_mem h ⟨"1,2,3,4,5,6,7,8,9,10,11,12,13", rfl, served_above⟩
    simp only [List.mem_cons, List.not_mem_nil, or_false] at this
    omega
  · have := lists_mem h ⟨"1,2,3,4,5,6,7,8,9,10,11,12,13,14,15", rfl, served_below⟩
    simp only [List.mem_cons, List.not_mem_nil, or_false] at this
    omega

theorem served_boiler : Lists served 8 9 ∧ Lists served 9 9 :=
  ⟨⟨_, _, rfl, served_above, by decide⟩, ⟨_, _, rfl, served_below, by decide⟩⟩

theorem served_pump {size : ℤ × ℤ} {S : RunIn (List ℚ)} (h0 : 0 ≤ size.1)
    (h : runInputs wallLibs served size = .ok S) : GoodPump S :=
  C99_simple_pump h (Or.inr ⟨h0, ⟨"Simple", rfl, by decide +kernel⟩, fun cop hc => by
    rw [holds_inj hc (show Holds served "Heat pump" 'D' 12 3 from rfl)]; norm_num⟩)

theorem served_store : ServingStore wallLibs served 3000 where
  positive := by decide
  layers n h := by
    have e : n = 3 := by exact_mod_cast holds_inj h (show Holds served "Thermal storage" 'D' 8 3 from rfl)
    subst e
    refine ⟨by decide, fun _ _ _ _ => ?_⟩
    show (0 : ℚ) < 1 / 100 ∧ (1 / 100 : ℚ) * 144 * 10 ≤ ((3000 : ℤ) : ℚ) / ((3 : ℕ) : ℚ) * 4178
    norm_num
  insulation := ⟨"Polyurethane", rfl, "polyurethane", by decide, 0, 0, "Polyurethane".toList, by decide, by decide⟩
  inside := ⟨"Inside", rfl, 0, 0, "Inside".toList, by decide, by decide⟩
  sealed _ _ _ _ _ _ _ _ _ _ _ _ := rfl
  spread h := by
    have := holds_inj h (show Holds served "Demand input" 'I' 8 5 from rfl)
    norm_num at this
  temps ret h := by
    rw [holds_inj h (show Holds served "Demand input" 'I' 6 40 from rfl)]
    refine ⟨by norm_num, 60, by norm_num, by norm_num, fun r hr x hx => holds_inj hx (served_row hr).2.2.2,
      fun r hr x hx => ?_⟩
    rw [holds_inj hx (served_row hr).2.2.1]
    exact ⟨by norm_num, by norm_num, by decide +kernel⟩
  holds n ret h hret r hr heat flow h1 h2 := by
    have e : n = 3 := by exact_mod_cast holds_inj h (show Holds served "Thermal storage" 'D' 8 3 from rfl)
    subst e
    rw [holds_inj hret (show Holds served "Demand input" 'I' 6 40 from rfl), holds_inj h1 (served_row hr).1,
      holds_inj h2 (served_row hr).2.2.1]
    have : ((r % 7 : ℕ) : ℚ) ≤ 6 := by exact_mod_cast (show r % 7 ≤ 6 by omega)
    norm_num
    linarith

theorem served_ranges : RangesIn served ⟨0, 20, 10, 0, 3000, 3000⟩ :=
  ⟨rfl, rfl, rfl, rfl, fun _ => rfl, fun _ => rfl⟩

theorem served_sizes : Para.combos ⟨0, 20, 10, 0, 3000, 3000⟩ =
    .ok [(0, 0), (0, 3000), (10, 0), (10, 3000), (20, 0), (20, 3000)] := by decide +kernel

theorem served_setup (gekko : Gekko) : ∃ s, setup wallLibs gekko served = .ok s := by
  refine (C99_sets_up served_top).mpr ⟨served_readable, ⟨0, 20, 10, 0, 3000, 3000⟩, _, 24, 48,
    served_ranges, served_sizes, by decide, rfl, rfl, fun size _ => ?_⟩
  obtain ⟨S, hS⟩ := served_run size
  unfold runInputs at hS
  obtain ⟨c, hc, -⟩ := except_bind_ok.mp hS
  exact ⟨c, hc⟩

theorem served_cells : Holds served "Heat pump" 'D' 8 0 ∧ Says served "Controller" 'D' 5 "Fixed order control" ∧
    Holds served "Controller" 'G' 5 (24 : ℕ) ∧ Holds served "Controller" 'G' 6 (48 : ℕ) :=
  ⟨rfl, rfl, rfl, rfl⟩

theorem served_incentive : Incentive served := ⟨Or.inl rfl, Or.inl ⟨rfl, 20, rfl⟩⟩

end Sample

attribute [local irreducible] Report.Ends Sample.served

/-- C126: the run of the heat pump of size 10 with the store of three cubic metres gives 48 hours. -/
example : ∃ rs, simulate Sample.wallLibs Sample.served (10, 3000) = .ok rs ∧ rs.length = 48 := by
  obtain ⟨S, hS⟩ := Sample.served_run (10, 3000)
  obtain ⟨c1, -, c3, c4⟩ := Sample.served_cells
  exact C126_simulates Sample.wallLibs_year Sample.served_top Sample.served_sensible Sample.served_known
    Sample.served_boiler c1 Sample.served_store hS (Sample.served_pump (by decide) hS) c3 c4 (by omega)

/-- C126: the study of the sample writes all its files. -/
theorem C126_sample_study (gekko : Gekko) (root : String) : ∃ files st,
    Report.Ends Sample.wallLibs gekko Sample.served root (.ok (files, none), st) ∧
      files.map (·.1) = Spec.tableFiles root ++ Spec.chartFiles := by
  obtain ⟨s, hs⟩ := Sample.served_setup gekko
  obtain ⟨c1, c2, c3, c4⟩ := Sample.served_cells
  have hpos : ∀ z ∈ [((0 : ℤ), (0 : ℤ)), (0, 3000), (10, 0), (10, 3000), (20, 0), (20, 3000)],
      0 ≤ z.1 ∧ (z.2 = 0 ∨ ServingStore Sample.wallLibs Sample.served z.2) := by
    intro z hz
    simp only [List.mem_cons, List.not_mem_nil, or_false] at hz
    rcases hz with rfl | rfl | rfl | rfl | rfl | rfl
    · exact ⟨by decide, Or.inl rfl⟩
    · exact ⟨by decide, Or.inr Sample.served_store⟩
    · exact ⟨by decide, Or.inl rfl⟩
    · exact ⟨by decide, Or.inr Sample.served_store⟩
    · exact ⟨by decide, Or.inl rfl⟩
    · exact ⟨by decide, Or.inr Sample.served_store⟩
  refine C126_study_ends Sample.wallLibs_year Sample.served_top Sample.served_sensible Sample.served_known
    Sample.served_boiler c1 hs c2 c3 c4 (by omega) (by omega) Sample.served_incentive Sample.served_ranges
    Sample.served_sizes (fun z hz => ?_) hpos ⟨⟨(0, 0), by decide, (10, 0), by decide, by decide⟩,
      ⟨(0, 0), by decide, (0, 3000), by decide, by decide⟩⟩ root
  obtain ⟨S, hS⟩ := Sample.served_run z
  exact ⟨S, hS, Sample.served_pump (hpos z hz).1 hS⟩

end Verif
