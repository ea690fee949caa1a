import Verif.Props.Power
import Verif.Props.SampleIgnored

/-!
# Examples for C94 and C97: a sample workbook with panels, turbines and a purchase agreement
-/

set_option autoImplicit false

namespace Verif
namespace Sample
open Pandas Workbook InputReader Enums Simulation Spec FixedOrder Programme Tariff

/-- The sample with two systems of panels, a turbine of each kind and a wind farm that decides the price. -/
def windy : Pandas.Workbook := fun name =>
  if name = "PV inputs" then some (sheet 8 20 (fun r c =>
      if r = 16 ∧ c ≤ 5 then num 50
      else if r = 20 then (if c ≤ 3 then text "Some Module" else num 2)
      else none))
  else if name = "Wind inputs" then some (sheet 7 25 (fun r c =>
      if r = 15 ∧ c ≤ 5 then num 1
      else if r = 20 then num 3
      else if 24 ≤ r ∧ c ≤ 3 then num r
      else none))
  else if name = "Wind farm" then some (sheet 7 8779 (all 1))
  else if name = "Grid" then some (sheet 23 42 (put (all 3) [((5, 3), text "Time of use - PPA + FR"),
      ((9, 9), num (67 / 100)), ((9, 10), num (33 / 100))]))
  else book "Simple" name

theorem windy_top : TopRowsEmpty windy := by
  intro name s hs k
  unfold windy at hs
  split_ifs at hs
  · cases Option.some.inj hs; rfl
  · cases Option.some.inj hs; rfl
  · cases Option.some.inj hs; rfl
  · cases Option.some.inj hs; rfl
  · exact top "Simple" name s hs k

theorem windy_readable : Readable windy :=
  { parametric := ⟨_, rfl, by decide, by decide⟩, controller := ⟨_, rfl, by decide, by decide⟩,
    weather := ⟨_, rfl, by decide, by decide⟩, demandGen := ⟨_, rfl, by decide, by decide⟩,
    demandInput := ⟨_, rfl, by decide, by decide⟩, pv := ⟨_, rfl, by decide, by decide⟩,
    wind := ⟨_, rfl, by decide, by decide⟩, windFarm := ⟨_, rfl, by decide, by decide⟩,
    battery := ⟨_, rfl, by decide, by decide⟩, grid := ⟨_, rfl, by decide, by decide⟩,
    aux := ⟨_, rfl, by decide, by decide⟩, thermal := ⟨_, rfl, by decide, by decide⟩,
    heatPump := ⟨pump "Simple", rfl, Nat.le_refl 19, by show 26 ≤ 47; decide⟩,
    orderAbove := ⟨"1, 2, 3, 8, 9", [1, 2, 3, 8, 9], rfl, by decide +kernel⟩,
    orderBelow := ⟨"1,2,6,9", [1, 2, 6, 9], rfl, by decide +kernel⟩,
    fuel := ⟨"Gas", rfl, by decide +kernel⟩, fuel1 := ⟨"Wood chips", rfl, by decide +kernel⟩,
    fuel2 := ⟨"gas", rfl, by decide +kernel⟩, fuel3 := ⟨"Kerosene", rfl, by decide +kernel⟩ }

theorem windy_user {s : Pandas.Sheet} (hs : windy "Wind inputs" = some s) : FirstComplete s [19] [0, 1] 20 := by
  cases Option.some.inj hs
  refine ⟨by decide, by decide, by decide, fun r h1 h2 => ?_⟩
  interval_cases r <;> decide

theorem windy_data {s : Pandas.Sheet} (hs : windy "Wind inputs" = some s) :
    FirstComplete s [14, 19, 20] [0, 1, 6] 15 := by
  cases Option.some.inj hs
  refine ⟨by decide, by decide, by decide, fun r h1 h2 => ?_⟩
  interval_cases r <;> decide

theorem windy_pv {s : Pandas.Sheet} (hs : windy "PV inputs" = some s) : FirstComplete s [19] [0, 1] 20 := by
  cases Option.some.inj hs
  refine ⟨by decide, by decide, by decide, fun r h1 h2 => ?_⟩
  interval_cases r <;> decide

theorem windy_site {s : Pandas.Sheet} (hs : windy "PV inputs" = some s) :
    FirstComplete s [15, 19, 20] [0, 1, 6, 7] 16 := by
  cases Option.some.inj hs
  refine ⟨by decide, by decide, by decide, fun r h1 h2 => ?_⟩
  interval_cases r <;> decide

theorem windy_filled {L : Libs} (hk : L.knownModule "Some_Module" = true) : Filled L windy := by
  have F := filled hk (model := "Simple") (by decide)
  refine
    { readable := windy_readable, weather := F.weather, air := F.air, water := F.water, demand := F.demand,
      source := F.source, ret := F.ret, battery := F.battery,
      turbines := ⟨_, rfl, ⟨20, windy_user rfl⟩, ⟨15, windy_data rfl⟩, ?_⟩,
      pv := ⟨_, rfl, ⟨20, "Some Module", "Some Module", windy_pv rfl, rfl, rfl, hk⟩, ⟨16, windy_site rfl⟩⟩,
      tank := F.tank, layers := F.layers, tankNumbers := F.tankNumbers, hpType := F.hpType,
      hpData := F.hpData, hpNumbers := F.hpNumbers, duties := F.duties, model := F.model,
      efficiency := F.efficiency, fuel := F.fuel,
      tariff := ⟨_, "Time of use - PPA + FR", rfl, rfl, by decide, fun _ => ⟨3, rfl⟩,
        fun h => absurd h (by decide), fun h => absurd h (by decide), fun _ => ?_⟩ }
  · intro r hr
    have hr' : r ∈ [24, 25] := hr
    simp only [List.mem_cons, List.not_mem_nil, or_false] at hr'
    rcases hr' with rfl | rfl
    · exact ⟨fun t (h : num _ = _) => (nomatch h), fun t (h : num _ = _) => (nomatch h)⟩
    · exact ⟨fun t (h : num _ = _) => (nomatch h), fun t (h : num _ = _) => (nomatch h)⟩
  · simp only [List.forall_mem_cons, List.not_mem_nil, false_implies, implies_true, and_true]
    exact ⟨⟨_, rfl⟩, ⟨_, rfl⟩, ⟨_, rfl⟩, ⟨_, rfl⟩⟩

/-- Libraries that always give 100 kW. -/
def strong : Libs where
  kernels := ⟨fun _ _ _ _ _ => 3, fun _ => ⟨[]⟩, fun _ => ⟨[]⟩⟩
  knownModule s := s = "Some_Module"
  pvAc _ _ _ _ _ _ _ _ _ _ _ := .ok (List.replicate 8760 (some 100000))
  userTurbine _ _ _ _ _ := .ok (List.replicate 8760 100000)
  dataTurbine _ _ _ _ := .ok (List.replicate 8760 100000)
  windFarm _ _ _ _ _ _ := .ok (List.replicate 8760 100000)
  wall _ _ _ := 0
  connection _ _ _ _ _ _ := 0

theorem no_gap {col : Char} (h : windy "Weather resources" = some (sheet 15 8765 (all 10))) :
    NoGap (entries windy "Weather resources" col 6) := by
  refine ⟨by rw [Power.entries_length h]; rfl, fun x hx => ?_⟩
  rw [entries_eq h] at hx
  obtain ⟨t, -, rfl⟩ := List.mem_map.mp hx
  unfold sheet all
  dsimp only
  rw [if_neg (by omega)]
  rfl

theorem windy_ready (hp : ℤ) : Ready strong windy hp where
  objects := windy_filled rfl
  demand := by
    simp only [List.forall_mem_cons, List.not_mem_nil, false_implies, implies_true, and_true]
    exact ⟨fun r h _ => (number_lower (model := "Simple") h).2.2.1,
      fun r h _ => (number_lower (model := "Simple") h).2.2.2.1,
      fun r h _ => (number_lower (model := "Simple") h).2.2.2.2.1⟩
  delta := ⟨5, rfl⟩
  exportPrice := ⟨3, rfl⟩
  setpoint := ⟨1, rfl⟩
  prices t h := by
    cases says_inj h (show Says _ _ _ _ "Time of use - PPA + FR" from rfl)
    refine ⟨fun h => absurd h (by decide), fun h => absurd h (by decide), fun _ => ?_,
      fun _ => ⟨1, rfl, fun _ => ⟨rfl, _, rfl⟩⟩⟩
    simp only [List.forall_mem_cons, List.not_mem_nil, false_implies, implies_true, and_true]
    exact ⟨⟨67 / 100, rfl, 67, by decide, by norm_num⟩, ⟨33 / 100, rfl, 33, by decide, by norm_num⟩⟩
  turbines := by
    intro s hs
    refine ⟨fun row hrow => ?_, fun row hrow => ?_⟩
    · cases firstComplete_unique hrow (windy_user hs)
      exact ⟨3, rfl, fun _ => ⟨_, rfl⟩⟩
    · cases firstComplete_unique hrow (windy_data hs)
      exact ⟨1, rfl, fun _ => ⟨_, rfl⟩⟩
  panels := by
    intro s row site name hs h1 h2 h3
    cases firstComplete_unique h1 (windy_pv hs)
    exact ⟨2, rfl, fun _ => ⟨fun col _ => no_gap rfl, _, rfl, by rw [List.length_replicate]⟩⟩
  performance := Or.inr (Or.inl ⟨"Simple", rfl, by decide +kernel⟩)

theorem strong_farm : FarmYear strong := by
  intro a b c d e w xs h
  rw [← Except.ok.inj h]
  exact List.length_replicate

theorem windy_run (size : ℤ × ℤ) : ∃ S, runInputs strong windy size = .ok S :=
  (C94_ready strong_farm windy_top (tail_of_height (s := pump "Simple") rfl (Nat.le_refl 47))).mpr
    (windy_ready size.1)

end Sample

open Pandas Workbook InputReader Enums Simulation Spec FixedOrder Programme Sample Tariff

/-- C97: three turbines of 100 kW give 300 kW, the turbine of the database half of its 100 kW. -/
example (size : ℤ × ℤ) : ∃ S, runInputs strong windy size = .ok S ∧
    S.windUser = List.replicate 8760 300 ∧ S.windData = List.replicate 8760 50 := by
  obtain ⟨S, h⟩ := windy_run size
  obtain ⟨o, T⟩ := start_ok h
  obtain ⟨s, hs, ⟨r, f1, -, -, -, a4, -⟩, -, ⟨t, f2, -, -, -, a10⟩⟩ := C91_turbines windy_top T.objects
  cases firstComplete_unique f1 (windy_user hs)
  cases firstComplete_unique f2 (windy_data hs)
  obtain ⟨⟨m, m1, -, m3⟩, ⟨n, n1, -, n3⟩⟩ := C97_wind windy_top h T.objects
  have e1 : m = 3 := Except.ok.inj (congrArg numOf (m1.symm.trans a4))
  have e2 : n = 1 := Except.ok.inj (congrArg numOf (n1.symm.trans a10))
  subst e1 e2
  obtain ⟨p, hp, hu⟩ := m3 (by norm_num)
  obtain ⟨q, hq, hd⟩ := n3 (by norm_num)
  refine ⟨S, h, ?_, ?_⟩
  · rw [hu, ← Except.ok.inj hp, List.map_replicate]
    exact congrArg _ (show pyRound (100000 * 3 / 1000) 2 = 300 by decide +kernel)
  · rw [hd, ← Except.ok.inj hq, List.map_replicate]
    exact congrArg _ (show pyRound (100000 * 1 * (1 / 2) / 1000) 2 = 50 by decide +kernel)

/-- C97: two systems of 100 kW in the first hour of the year, with the losses and the correction of January. -/
example (size : ℤ × ℤ) : ∃ S, runInputs strong windy size = .ok S ∧
    S.pv[0]? = some (200 * (85 / 100) * (85 / 100) * (1042785944 / 1000000000)) := by
  obtain ⟨S, h⟩ := windy_run size
  obtain ⟨o, T⟩ := start_ok h
  obtain ⟨s, hs, ⟨r, _, f1, -, -, a4, -⟩, -⟩ := C91_pv_partial windy_top T.objects
  cases firstComplete_unique f1 (windy_pv hs)
  obtain ⟨m, m1, -, m3⟩ := C97_pv windy_top h T.objects
  have e1 : m = 2 := Except.ok.inj (congrArg numOf (m1.symm.trans a4))
  subst e1
  obtain ⟨-, ac, hac, hp⟩ := m3 (by norm_num)
  refine ⟨S, h, ?_⟩
  rw [← Except.ok.inj hac] at hp
  unfold Renewables.pvPower at hp
  rw [if_neg (by norm_num)] at hp
  obtain ⟨y, hy, hc⟩ := mapM_range_get hp (t := 0) (by omega)
  rw [hy]
  unfold Renewables.corrected at hc
  rw [List.map_replicate, List.getElem?_replicate_of_lt (by omega)] at hc
  exact congrArg some ((Except.ok.inj hc).symm.trans
    (show Renewables.pvRaw 2 (some 100000) * (1042785944 / 1000000000) = _ by decide +kernel))

/-- C97: the farm decides the price. -/
example (size : ℤ × ℤ) : ∃ S power o, runInputs strong windy size = .ok S ∧
    objects strong windy size = .ok o ∧ power = List.replicate 8760 50 ∧
    Tariff.importCostSeries o.grid power = .ok (some S.importPrice) := by
  obtain ⟨S, h⟩ := windy_run size
  obtain ⟨o, T⟩ := start_ok h
  have e : o.grid.tariff = "Time of use - PPA + FR" :=
    Except.ok.inj (congrArg textOf ((C91_grid windy_top T.objects).1.symm.trans
      (show excel windy "Grid" 'D' 5 = some (.text "Time of use - PPA + FR") from rfl)))
  obtain ⟨m, power, hm, hi, -, m3⟩ := (C97_farm windy_top h T.objects).2 (by rw [e]; decide)
  have e1 : m = 1 := holds_inj hm (show Holds _ _ _ _ 1 from rfl)
  subst e1
  obtain ⟨p, hp, hpow⟩ := m3 (by norm_num)
  refine ⟨S, power, o, h, T.objects, ?_, hi⟩
  rw [hpow, ← Except.ok.inj hp, List.map_replicate]
  exact congrArg _ (show pyRound (100000 * (1 / 2) / 1000) 2 = 50 by decide +kernel)

end Verif
