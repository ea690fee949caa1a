import Verif.Props.MpcStore
import Verif.Props.StoreStudy
import Verif.Props.SamplePredictive

/-!
# Predictive studies whose stores serve (C131)

The workbook's side of `C131_ends` and `C131_gives_back`.
-/

set_option autoImplicit false

namespace Verif
open Pandas Workbook Simulation Spec Programme FixedOrder Tank

variable {L : Libs} {gekko : Gekko} {wb : Pandas.Workbook} {root : String}

/-- Half a layer of a store of capacity `ts` holds the heat of any hour's demand and 0.005 kWh, at the flow temperature
of the second hour of the year: that is the one the predictive controller always passes. -/
def Spec.HoldsPlans (wb : Pandas.Workbook) (ts : ℤ) : Prop :=
  ∀ (n : ℕ) ret flow, Holds wb "Thermal storage" 'D' 8 n → Holds wb "Demand input" 'I' 6 ret →
    Holds wb "Demand input" 'F' 7 flow → ∀ row ≥ 6, ∀ heat, Holds wb "Demand input" 'D' row heat →
      (heat + 1 / 200) * 3600 * 1000 ≤ ts / n / 2 * 4178 * (flow - ret)

/-- The entries of such a store make a steady tank at every hour of the year. -/
theorem serving_hours {size : ℤ × ℤ} {o : Objects} (ht : TopRowsEmpty wb) (ho : objects L wb size = .ok o)
    (hs : ServingStore L wb size.2) {source flow : List ℚ} {ret delta : ℚ}
    (Ds : Hourly wb "Demand input" 'G' 6 source) (Df : Hourly wb "Demand input" 'F' 6 flow)
    (hret : Holds wb "Demand input" 'I' 6 ret) (hdelta : Holds wb "Demand input" 'I' 8 delta) :
    ∃ src, ∀ hour < 8760, Holds wb "Demand input" 'F' (6 + hour) (flow.getD hour 0) ∧ source.getD hour 0 = src ∧
      SteadyStore o.tank ⟨source.getD hour 0, delta, flow.getD hour 0, ret⟩ 15 := by
  obtain ⟨_, _, _, _, -, -, E3, -, -, -, E7, -⟩ := C93_temperatures ht ho
  have hls := (hourly_length Ds E3).trans E7
  have hlf := (hourly_length Df E3).trans E7
  obtain ⟨r1, src, s1, s2, s3, s4⟩ := hs.temps ret hret
  refine ⟨src, fun hour hh => ?_⟩
  have cs := hourly_get Ds (t := hour) (by omega)
  have cf := hourly_get Df (t := hour) (by omega)
  have e := s3 (6 + hour) (Nat.le_add_right ..) _ cs
  exact ⟨cf, e, serving_tank ho hs hdelta r1 ⟨e, s1, s2⟩ (s4 (6 + hour) (Nat.le_add_right ..) _ cf)⟩

/-- What the predictive controller gets from such a workbook. -/
theorem planned_store (hL : WholeYear L) {size : ℤ × ℤ} {first n : ℕ} {S : MpcIn (List ℚ)} {mc : List ℚ}
    (ht : TopRowsEmpty wb) (hw : Sensible wb)
    (hel : Workbook.fuelOf (excel wb "Aux heat" 'C' 6) = .ok .electric) (hs : ServingStore L wb size.2)
    (hplan : HoldsPlans wb size.2) (hS : mpcInputs L wb size first n = .ok (S, mc)) :
    S.aux.electric = true ∧ 0 ≤ S.es.dischargeEff ∧ ∃ (tk : Tank) (net : ℕ → NetTemps) (ret source : ℚ),
      tk.capacity = size.2 ∧ Holds wb "Demand input" 'I' 6 ret ∧ S.tank = Mpc.ofTank tk net ret ∧
      (∀ hour < 8760, SteadyStore tk (net hour) 15 ∧ (net hour).source = source ∧ (net hour).ret = ret) ∧
      ∀ hour < 8760, LayersHold tk (net 1) (S.heatDemand hour + 1 / 200) := by
  obtain ⟨o, heat, xs, us, ds, ps, prs, pfs, T⟩ := mpcIn_ok ht hS
  obtain ⟨l1, -⟩ := predict_lengths hL ht T
  obtain ⟨source, flow, ret, delta, Ds, Df, hret, hdelta, htank, -⟩ := T.tank
  obtain ⟨fuel, hfu, -, hel', -⟩ := C91_heater T.objects
  obtain ⟨s, row, hs', hrow, b1, b2, b3, b4, b5, b6, b7⟩ := C91_battery ht T.objects
  obtain ⟨K1, -⟩ := hw.battery s row hs' hrow
  simp only [List.forall_mem_cons, List.not_mem_nil, false_implies, implies_true, and_true] at K1
  obtain ⟨src, H⟩ := serving_hours ht T.objects hs Ds Df hret hdelta
  obtain ⟨e1, e2, -⟩ := C91_tank T.objects
  refine ⟨?_, ?_, o.tank, _, ret, src, e1, hret, htank, fun hour hh => ⟨(H hour hh).2.2, (H hour hh).2.1, rfl⟩,
    fun hour hh => ?_⟩
  · rw [T.aux]
    exact hel'.mpr (Except.ok.inj (hfu.symm.trans hel))
  · rw [T.es]
    exact K1.2.2.2.2.2.1 _ b6
  · rw [T.heatDemand]
    unfold LayersHold nodeMass
    rw [e1]
    exact hplan _ ret _ e2 hret (H 1 (by norm_num)).1 (6 + hour) (Nat.le_add_right ..) _
      (hourly_get T.heat (by omega))

/-- **C131, from the workbook.** With a store that serves and an electric heater a predictive run ends with one result
for each hour, if the fixed order controller could start too, the optimiser solves the first hour at once and every later
one at one of two attempts, its answers satisfy what is posted, and horizon and hours are as in `C100_needs`. -/
theorem C131_predicts (hL : WholeYear L) {size : ℤ × ℤ} {R : RunIn (List ℚ)} (ht : TopRowsEmpty wb)
    (hw : Sensible wb) (h : runInputs L wb size = .ok R)
    (hel : Workbook.fuelOf (excel wb "Aux heat" 'C' 6) = .ok .electric) (hs : ServingStore L wb size.2)
    (hplan : HoldsPlans wb size.2) {first n horizon : ℕ} (hf : Holds wb "Controller" 'G' 5 first)
    (hn : Holds wb "Controller" 'G' 6 n) (hh : Holds wb "Controller" 'G' 9 horizon)
    (hg : ∀ S maxCap, mpcInputs L wb size first n = .ok (S, maxCap) → Obeys S (gekko S maxCap) ∧
      (∃ p, gekko S maxCap first 0 = .ok p) ∧
      ∀ hour, (∃ p, gekko S maxCap hour 0 = .ok p) ∨ ∃ p, gekko S maxCap hour 1 = .ok p)
    (hb : first + n + 2 * horizon < 8759 ∨ 8759 ≤ first + n + horizon) (h2 : 2 ≤ horizon) (hn2 : 2 ≤ n)
    (hfirst : first ≤ 8757) (hyear : first + n ≤ 8760) :
    ∃ rs, predict L gekko wb size = .ok rs ∧ rs.length = n := by
  obtain ⟨S, mc, hS⟩ := predict_starts_of hL ht h (fun o source flow ret delta ho Ds Df hret hdelta t hlt => by
    obtain ⟨src, H⟩ := serving_hours ht ho hs Ds Df hret hdelta
    obtain ⟨-, -, HS⟩ := H t hlt
    refine between_offer HS hlt .charging ⟨List.length_replicate, List.pairwise_replicate_of_refl, fun x hx => ?_⟩
    rw [List.eq_of_mem_replicate hx]
    exact ⟨HS.ret, HS.source.1⟩) (first := first) (n := n) hh (by omega)
  obtain ⟨_, _, _, _, _, _, _, _, T⟩ := mpcIn_ok ht hS
  have e3 : horizon = S.horizon := by exact_mod_cast Except.ok.inj (congrArg numOf (hh.symm.trans T.horizon))
  obtain ⟨k1, k2, tk, net, ret, source, -, -, k5, k6, k7⟩ := planned_store hL ht hw hel hs hplan hS
  obtain ⟨g1, g2, g3⟩ := hg S mc hS
  obtain ⟨rs, hrs, hl⟩ := C131_ends g1 k1 k2 k5 k6 k7 (by omega) g2 g3 hn2 hfirst hyear
  exact ⟨rs, predict_ok.mpr ⟨first, n, S, mc, hS, hf, hn, hrs⟩, hl⟩

/-- **C131, from the workbook.** With a store that serves and an electric heater, and an optimiser that never needs a
second attempt: up to any hour of the run but the last of the year, all the heat drawn from the store is less than all the
heat put into it, the heat in the water of a store at the return temperature above the 15 degrees indoors, and 0.005 kWh
for each hour. -/
theorem C131_workbook (hL : WholeYear L) {size : ℤ × ℤ} (ht : TopRowsEmpty wb) (hw : Sensible wb)
    (hel : Workbook.fuelOf (excel wb "Aux heat" 'C' 6) = .ok .electric) (hs : ServingStore L wb size.2)
    (hplan : HoldsPlans wb size.2) {first : ℕ} (hf : Holds wb "Controller" 'G' 5 first) {ret : ℚ}
    (hret : Holds wb "Demand input" 'I' 6 ret)
    (hg : ∀ first n S maxCap, mpcInputs L wb size first n = .ok (S, maxCap) → Obeys S (gekko S maxCap) ∧
      ∀ hour p, gekko S maxCap hour 1 ≠ .ok p)
    {rs : List (Mpc.MpcResults (List ℚ))} (h : predict L gekko wb size = .ok rs) {i : ℕ} (hi : i < rs.length)
    (h8 : first + i ≠ 8759) :
    ((rs.take (i + 1)).map (·.ts.dischargingTotal)).sum < ((rs.take (i + 1)).map (·.ts.chargingTotal)).sum +
      size.2 * 4217 * (ret - 15) / 3600000 + (i : ℚ) / 200 := by
  obtain ⟨first', n, S, mc, hS, hf', hn, hrun⟩ := predict_ok.mp h
  have e1 : first = first' := by exact_mod_cast Except.ok.inj (congrArg numOf (hf.symm.trans hf'))
  subst e1
  obtain ⟨k1, k2, tk, net, ret', source, k3, k4, k5, k6, k7⟩ := planned_store hL ht hw hel hs hplan hS
  cases Sample.holds_inj hret k4
  have hyear : first + n ≤ 8760 := by
    by_contra hlt
    rw [C47_beyond_year _ _ _ _ (by omega)] at hrun
    cases hrun
  have hn2 : 2 ≤ n := by
    by_contra hlt
    have : rs = [] := by
      unfold Mpc.movingHorizon at hrun
      rw [if_neg (by omega), show n - 1 = 0 by omega] at hrun
      exact (Except.ok.inj hrun).symm
    rw [this] at hi
    exact absurd hi (Nat.not_lt_zero _)
  have hl := C47_count_partial hn2 hrun
  obtain ⟨HS, -, hr⟩ := k6 1 (by norm_num)
  obtain ⟨g1, g2⟩ := hg first n S mc hS
  obtain ⟨cp, hcp, -, hc2⟩ := specificHeat_ok (t := (net 1).source)
    (by linarith [HS.source.1, HS.ret, steady_pos HS]) HS.source.2
  have := C131_gives_back hrun hn2 g1 k1 k2 k5 HS hr hcp k7 g2 (i := i) (by omega) h8
  have hlt : tk.capacity * cp * (ret - 15) / 3600000 ≤ size.2 * 4217 * (ret - 15) / 3600000 := by
    have a1 : 0 < tk.capacity := HS.usable.1
    have a2 : 15 < ret := by rw [← hr]; exact HS.ret
    rw [← k3]
    have := mul_le_mul_of_nonneg_right (mul_le_mul_of_nonneg_left hc2 a1.le) (by linarith : 0 ≤ ret - 15)
    linarith
  linarith

/-- C131: a predictive study over sizes of heat pump and of store, where every store serves, gets to its end: six tables,
eight charts and no exception. -/
theorem C131_study_ends (hL : WholeYear L) (ht : TopRowsEmpty wb) (hw : Sensible wb) {s : Setup}
    (hs : setup L gekko wb = .ok s) (hc : Says wb "Controller" 'D' 5 "Model predictive control")
    (hel : Workbook.fuelOf (excel wb "Aux heat" 'C' 6) = .ok .electric) {first n horizon : ℕ}
    (hf : Holds wb "Controller" 'G' 5 first) (hn : Holds wb "Controller" 'G' 6 n)
    (hh : Holds wb "Controller" 'G' 9 horizon)
    (hb : first + n + 2 * horizon < 8759 ∨ 8759 ≤ first + n + horizon) (h2 : 2 ≤ horizon) (hn2 : 2 ≤ n)
    (hfirst : first ≤ 8757) (hyear : first + n ≤ 8760) (hinc : Incentive wb) {pa : Para.Ranges} {sizes : List (ℤ × ℤ)}
    (hpa : RangesIn wb pa) (hz : Para.combos pa = .ok sizes) (hstart : ∀ z ∈ sizes, ∃ S, runInputs L wb z = .ok S)
    (hpos : ∀ z ∈ sizes, 0 ≤ z.1 ∧ (z.2 = 0 ∨ ServingStore L wb z.2 ∧ HoldsPlans wb z.2))
    (hg : ∀ S maxCap, ((∃ p, gekko S maxCap first 0 = .ok p) ∧
        ∀ hour, (∃ p, gekko S maxCap hour 0 = .ok p) ∨ ∃ p, gekko S maxCap hour 1 = .ok p) ∧
      ∀ z ∈ sizes, mpcInputs L wb z first n = .ok (S, maxCap) → Obeys S (gekko S maxCap))
    (htwo : TwoDimensional sizes) (root : String) :
    ∃ files st, Report.Ends L gekko wb root (.ok (files, none), st) ∧
      files.map (·.1) = Spec.tableFiles root ++ Spec.chartFiles := by
  obtain ⟨⟨files, e⟩, st, h⟩ := C101_ends_partial hs hpa hz (fun z hzm => by
    obtain ⟨S, hS⟩ := hstart z hzm
    rcases (hpos z hzm).2 with h0 | ⟨hi, hpl⟩
    · obtain ⟨rs, hrs, -⟩ := C100_predicts_partial hL ht hS h0 hf hn hh
        (fun S mc _ => ⟨(hg S mc).1.1, fun hour _ _ _ => (hg S mc).1.2 hour⟩) hb h2 hn2 hfirst hyear
      exact ⟨_, Or.inr ⟨hc, rs, hrs, rfl⟩⟩
    · obtain ⟨rs, hrs, -⟩ := C131_predicts hL ht hw hS hel hi hpl hf hn hh
        (fun S mc hS => ⟨(hg S mc).2 z hzm hS, (hg S mc).1⟩)
        hb h2 hn2 hfirst hyear
      exact ⟨_, Or.inr ⟨hc, rs, hrs, rfl⟩⟩) hn hn2 root
  obtain ⟨hwr, rfl⟩ := (C101_written ht h hinc hpa hz fun z hzm => ⟨(hpos z hzm).1, by
    rcases (hpos z hzm).2 with h0 | ⟨hi, -⟩
    · exact le_of_eq h0.symm
    · exact hi.positive.le⟩).1 htwo
  exact ⟨files, st, h, hwr⟩

/-! ## A sample study of three heat pumps and a store of three cubic metres -/

namespace Sample

/-- The workbook of C126 with an electric heater and the predictive controller, looking 6 hours ahead. -/
def planned : Pandas.Workbook := fun name =>
  if name = "Controller" then some (sheet 7 9 (put (all 1) [((5, 3), text "Model predictive control"),
    ((5, 6), num 24), ((6, 6), num 48), ((9, 6), num 6), ((8, 3), text "1,2,3,4,5,6,7,8,9,10,11,12,13"),
    ((9, 3), text "1,2,3,4,5,6,7,8,9,10,11,12,13,14,15")]))
  else if name = "Aux heat" then some (sheet 5 11 (put (all 1) [((6, 2), text "Electric"), ((9, 2), text "Wood chips"),
    ((10, 2), text "gas"), ((11, 2), text "Kerosene")]))
  else served name

theorem planned_top : TopRowsEmpty planned := by
  intro name s hs k
  unfold planned at hs
  split_ifs at hs
  · cases Option.some.inj hs; rfl
  · cases Option.some.inj hs; rfl
  · exact served_top name s hs k

theorem planned_readable : Readable planned :=
  { parametric := ⟨_, rfl, by decide, by decide⟩, controller := ⟨_, rfl, by decide, by decide⟩,
    weather := ⟨_, rfl, by decide, by decide⟩, demandGen := ⟨_, rfl, by decide, by decide⟩,
    demandInput := ⟨_, rfl, by decide, by decide⟩, pv := ⟨_, rfl, by decide, by decide⟩,
    wind := ⟨_, rfl, by decide, by decide⟩, windFarm := ⟨_, rfl, by decide, by decide⟩,
    battery := ⟨_, rfl, by decide, by decide⟩, grid := ⟨_, rfl, by decide, by decide⟩,
    aux := ⟨_, rfl, by decide, by decide⟩, thermal := ⟨_, rfl, by decide, by decide⟩,
    heatPump := ⟨pump "Simple", rfl, Nat.le_refl 19, by show 26 ≤ 47; decide⟩,
    orderAbove := ⟨_, _, rfl, served_above⟩, orderBelow := ⟨_, _, rfl, served_below⟩,
    fuel := ⟨"Electric", rfl, by decide +kernel⟩, fuel1 := ⟨"Wood chips", rfl, by decide +kernel⟩,
    fuel2 := ⟨"gas", rfl, by decide +kernel⟩, fuel3 := ⟨"Kerosene", rfl, by decide +kernel⟩ }

theorem planned_electric : Workbook.fuelOf (excel planned "Aux heat" 'C' 6) = .ok .electric :=
  show Workbook.fuelOf (text "Electric") = _ by decide +kernel

theorem planned_filled {L : Libs} (hk : L.knownModule "Some_Module" = true) : Filled L planned := by
  have F := served_filled hk
  exact
    { readable := planned_readable, weather := F.weather, air := F.air, water := F.water, demand := F.demand,
      source := F.source, ret := F.ret, battery := F.battery,
      turbines := F.turbines, pv := F.pv, tank := F.tank, layers := F.layers, tankNumbers := F.tankNumbers,
      hpType := F.hpType, hpData := F.hpData, hpNumbers := F.hpNumbers, duties := F.duties, model := F.model,
      efficiency := ⟨1, rfl⟩, fuel := ⟨.electric, planned_electric, fun h => absurd rfl h⟩,
      tariff := ⟨_, "Flat rates", rfl, rfl, by decide, fun _ => ⟨3, rfl⟩,
        fun h => absurd h (by decide), fun h => absurd h (by decide), fun h => absurd h (by decide)⟩ }

theorem planned_ready (hp : ℤ) : Ready wallLibs planned hp :=
  let R := served_ready hp
  { objects := planned_filled rfl, demand := R.demand, delta := R.delta, exportPrice := R.exportPrice,
    setpoint := ⟨1, rfl⟩
    prices := fun t h => by
      cases says_inj h (show Says _ _ _ _ "Flat rates" from rfl)
      exact ⟨fun h => absurd h (by decide), fun h => absurd h (by decide), fun h => absurd h (by decide),
        fun h => absurd h (by decide)⟩
    turbines := R.turbines, panels := R.panels,
    performance := R.performance }

theorem planned_run (size : ℤ × ℤ) : ∃ S, runInputs wallLibs planned size = .ok S :=
  (C94_ready (fun _ _ _ _ _ _ xs h => by rw [← Except.ok.inj h]; exact List.length_replicate) planned_top
    (tail_of_height (s := pump "Simple") rfl (Nat.le_refl 47))).mpr (planned_ready size.1)

theorem planned_sensible : Sensible planned := by
  have S := served_sensible
  exact { battery := S.battery, heat := S.heat, network := S.network
          above := fun t order h1 h2 => by
            cases says_inj h1 (show Says _ _ _ _ "1,2,3,4,5,6,7,8,9,10,11,12,13" from rfl)
            exact S.above _ order rfl h2
          below := fun t order h1 h2 => by
            cases says_inj h1 (show Says _ _ _ _ "1,2,3,4,5,6,7,8,9,10,11,12,13,14,15" from rfl)
            exact S.below _ order rfl h2 }

theorem planned_store_serves : ServingStore wallLibs planned 3000 :=
  let S := served_store
  { positive := S.positive, layers := S.layers, insulation := S.insulation, inside := S.inside, sealed := S.sealed,
    spread := S.spread, temps := S.temps, holds := S.holds }

theorem planned_holds : HoldsPlans planned 3000 := by
  intro n ret flow h hret hflow r hr heat h1
  have e : n = 3 := by exact_mod_cast holds_inj h (show Holds planned "Thermal storage" 'D' 8 3 from rfl)
  subst e
  rw [holds_inj hret (show Holds planned "Demand input" 'I' 6 40 from rfl), holds_inj h1 (served_row hr).1,
    holds_inj hflow (served_row (r := 7) (by norm_num)).2.2.1]
  have : ((r % 7 : ℕ) : ℚ) ≤ 6 := by exact_mod_cast (show r % 7 ≤ 6 by omega)
  norm_num
  linarith

theorem planned_ranges : RangesIn planned ⟨0, 20, 10, 0, 3000, 3000⟩ :=
  ⟨rfl, rfl, rfl, rfl, fun _ => rfl, fun _ => rfl⟩

theorem planned_setup (gekko : Gekko) : ∃ s, setup wallLibs gekko planned = .ok s := by
  refine (C99_sets_up planned_top).mpr ⟨planned_readable, ⟨0, 20, 10, 0, 3000, 3000⟩, _, 24, 48,
    planned_ranges, served_sizes, by decide, rfl, rfl, fun size _ => ?_⟩
  obtain ⟨S, hS⟩ := planned_run size
  unfold runInputs at hS
  obtain ⟨c, hc, -⟩ := except_bind_ok.mp hS
  exact ⟨c, hc⟩

theorem planned_cells : Says planned "Controller" 'D' 5 "Model predictive control" ∧
    Holds planned "Controller" 'G' 5 (24 : ℕ) ∧ Holds planned "Controller" 'G' 6 (48 : ℕ) ∧
    Holds planned "Controller" 'G' 9 (6 : ℕ) ∧ Holds planned "Demand input" 'I' 6 40 := ⟨rfl, rfl, rfl, rfl, rfl⟩

theorem planned_incentive : Incentive planned := ⟨Or.inl rfl, Or.inl ⟨rfl, 20, rfl⟩⟩

theorem planned_no_power {L : Libs} {size : ℤ × ℤ} {o : Objects} (h : objects L planned size = .ok o) :
    userSeries L o.windUser = .ok (List.replicate 8760 0) ∧
    databaseSeries L o.windDatabase = .ok (List.replicate 8760 0) ∧
    pvSeries L o.pv = .ok (List.replicate 8760 0) := by
  obtain ⟨s, hs, ⟨r1, f1, -, -, -, m1, -⟩, -, ⟨r2, f2, -, -, -, m2⟩⟩ := C91_turbines planned_top h
  obtain ⟨s', hs', ⟨r3, _, f3, -, -, m3, -⟩, -⟩ := C91_pv_partial planned_top h
  cases firstComplete_unique f1 (userRow "Simple" hs)
  cases firstComplete_unique f2 (databaseRow "Simple" hs)
  cases firstComplete_unique f3 (pvRow "Simple" hs')
  have e1 : numOf o.windUser.multiplier = .ok 0 := by rw [m1]; rfl
  have e2 : numOf o.windDatabase.multiplier = .ok 0 := by rw [m2]; rfl
  have e3 : numOf o.pv.multiplier = .ok 0 := by rw [m3]; rfl
  refine ⟨?_, ?_, ?_⟩
  · unfold userSeries Renewables.userPower
    rw [e1, okBind, if_pos rfl, if_pos rfl]
    rfl
  · unfold databaseSeries Renewables.databasePower
    rw [e2, okBind, if_pos rfl, if_pos rfl]
    rfl
  · unfold pvSeries Renewables.pvPower
    rw [e3, okBind, if_pos rfl, if_pos rfl]

/-- An optimiser that runs the heater at the peak demand and fills the store with what is over, and draws the demand of
an hour of peak demand from the store. It never answers a second attempt. -/
def levelHeater : Gekko := fun S _ hour attempt =>
  if attempt = 0 then .ok
    (if S.heatDemand (hour + 1) < S.peakHeatDemand then
      { Mpc.Samples.zero with
        exp := S.generation (hour + 1), impEd := S.elecDemand (hour + 1), hptVar := (S.perf (hour + 1)).duty
        auxD := S.heatDemand (hour + 1), auxS := S.peakHeatDemand - S.heatDemand (hour + 1)
        tsc := S.peakHeatDemand - S.heatDemand (hour + 1), aux := S.peakHeatDemand }
    else
      { Mpc.Samples.zero with
        exp := S.generation (hour + 1), impEd := S.elecDemand (hour + 1), hptVar := (S.perf (hour + 1)).duty
        tsd := S.heatDemand (hour + 1), soc := S.heatDemand (hour + 1) })
  else .error .other

theorem levelHeater_answers (S : MpcIn (List ℚ)) (mc : List ℚ) (hour : ℕ) :
    (∃ p, levelHeater S mc hour 0 = .ok p) ∧ ∀ p, levelHeater S mc hour 1 ≠ .ok p :=
  ⟨⟨_, if_pos rfl⟩, fun p hp => by
    unfold levelHeater at hp
    rw [if_neg (by decide)] at hp
    cases hp⟩

theorem levelHeater_obeys {size : ℤ × ℤ} (h0 : 0 ≤ size.1) {first n : ℕ} {S : MpcIn (List ℚ)} {maxCap : List ℚ}
    (h : mpcInputs wallLibs planned size first n = .ok (S, maxCap)) : Obeys S (levelHeater S maxCap) := by
  obtain ⟨o, hs, xs, us, ds, ps, prs, pfs, T⟩ := mpcIn_ok planned_top h
  obtain ⟨R, hR⟩ := planned_run size
  have hgood : GoodPump R := by
    refine C99_simple_pump hR (Or.inr ⟨h0, ⟨"Simple", rfl, by decide +kernel⟩, fun cop hc => ?_⟩)
    rw [holds_inj hc (show Holds _ _ _ _ 3 from rfl)]
    norm_num
  obtain ⟨o', T'⟩ := start_ok hR
  cases Except.ok.inj (T'.objects.symm.trans T.objects)
  have e1 : R.perf = pfs := Except.ok.inj (T'.perf.symm.trans T.performance)
  obtain ⟨p1, p2, p3⟩ := planned_no_power T.objects
  have z1 : us = List.replicate 8760 0 := Except.ok.inj (T.windUser.symm.trans p1)
  have z2 : ds = List.replicate 8760 0 := Except.ok.inj (T.windData.symm.trans p2)
  have z3 : ps = List.replicate 8760 0 := Except.ok.inj (T.pvPower.symm.trans p3)
  have hgen : ∀ t, S.generation t = 0 := by
    intro t
    rw [T.generation, z1, z2, z3, List.zipWith_replicate', List.zipWith_replicate']
    rcases getD_cases (List.replicate 8760 ((0 : ℚ) + 0 + 0)) t 0 with e | e
    · exact e
    · exact (List.eq_of_mem_replicate e).trans (by norm_num)
  have hheat : ∀ x ∈ hs, 0 ≤ x := by
    intro x hx
    obtain ⟨t, ht⟩ := List.mem_iff_getElem?.mp hx
    obtain ⟨_, -, -, hc⟩ := T.heat
    exact planned_sensible.heat (6 + t) (Nat.le_add_right _ _) x (hc t x ht)
  have helec : ∀ x ∈ xs, 0 ≤ x := by
    intro x hx
    obtain ⟨t, ht⟩ := List.mem_iff_getElem?.mp hx
    obtain ⟨_, -, -, hc⟩ := T.elec
    have e : x = 2 := holds_inj (hc t x ht) (served_row (r := 6 + t) (by omega)).2.1
    rw [e]
    norm_num
  obtain ⟨s, row, hs', hrow, b1, b2, b3, b4, b5, b6, b7⟩ := C91_battery planned_top T.objects
  obtain ⟨K1, K2⟩ := planned_sensible.battery s row hs' hrow
  simp only [List.forall_mem_cons, List.not_mem_nil, false_implies, implies_true, and_true] at K1
  have hmin : o.minimumOutput = 0 :=
    holds_inj (C91_heat_pump T.objects).2.2.2.1 (show Holds _ _ _ _ 0 from rfl)
  have hel : S.aux.electric = true := by
    obtain ⟨fuel, hfu, -, hel', -⟩ := C91_heater T.objects
    rw [T.aux]
    exact hel'.mpr (Except.ok.inj (hfu.symm.trans planned_electric))
  have hpeak : 0 ≤ S.peakHeatDemand := by
    obtain ⟨l1, -⟩ := predict_lengths wallLibs_year planned_top T
    obtain ⟨x, hx⟩ := List.exists_mem_of_ne_nil hs (fun e => by rw [e] at l1; cases l1)
    rw [T.peak]
    exact le_trans (hheat x hx) (le_listMax hx)
  intro hour a p hp
  have a1 : 0 ≤ S.heatDemand (hour + 1) := by
    rw [T.heatDemand]
    rcases getD_cases hs (hour + 1) 0 with e | e
    · exact le_of_eq e.symm
    · exact hheat _ e
  have a2 : 0 ≤ S.elecDemand (hour + 1) := by
    rw [T.elecDemand]
    rcases getD_cases xs (hour + 1) 0 with e | e
    · exact le_of_eq e.symm
    · exact helec _ e
  have a3 : 0 ≤ (S.perf (hour + 1)).duty := by
    rw [T.perf]
    rcases getD_cases pfs (hour + 1) ⟨0, 0⟩ with e | e
    · exact le_of_eq (congrArg Perf.duty e).symm
    · exact (hgood _ (by rw [e1]; exact e)).2
  have a5 : Mpc.hpMin S (hour + 1) = 0 := by
    unfold Mpc.hpMin
    rw [T.hp]
    dsimp only
    rw [hmin]
    ring
  have a6 : 0 ≤ S.generation (hour + 1) := le_of_eq (hgen _).symm
  have z : (0 : ℚ) ≤ 0 := le_refl _
  have es := T.es
  have c1 : 0 ≤ S.es.capacity := by rw [es]; exact K1.1 _ b1
  have c2 : 0 ≤ S.es.chargeMax * S.es.chargeEff := by
    rw [es]
    exact mul_nonneg (K1.2.2.1 _ b3) (K1.2.2.2.2.1 _ b5)
  have c3 : 0 ≤ S.es.dischargeMax := by rw [es]; exact K1.2.2.2.1 _ b4
  unfold levelHeater at hp
  split_ifs at hp with k1 k2
  · cases Except.ok.inj hp
    have a7 : 0 ≤ S.peakHeatDemand - S.heatDemand (hour + 1) := by linarith
    refine ⟨S.peakHeatDemand, ?_, fun _ => ?_, fun h => absurd (hel.symm.trans h) (by decide), ?_⟩
    · constructor <;> dsimp only [Mpc.Samples.zero] <;>
        first | exact z | exact a1 | exact a2 | exact a3 | exact a6 | exact a7 | exact hpeak
    · constructor <;> dsimp only [Mpc.Samples.zero] <;> ring
    · constructor <;> dsimp only [Mpc.Samples.zero] <;>
        first | exact z | exact le_refl _ | exact c1 | exact c2 | exact c3 | (rw [a5]; exact a3) | linarith
  · cases Except.ok.inj hp
    refine ⟨S.heatDemand (hour + 1), ?_, fun _ => ?_, fun h => absurd (hel.symm.trans h) (by decide), ?_⟩
    · constructor <;> dsimp only [Mpc.Samples.zero] <;>
        first | exact z | exact a1 | exact a2 | exact a3 | exact a6
    · constructor <;> dsimp only [Mpc.Samples.zero] <;> ring
    · constructor <;> dsimp only [Mpc.Samples.zero] <;>
        first | exact z | exact le_refl _ | exact c1 | exact c2 | exact c3 | (rw [a5]; exact a3) | linarith

end Sample

attribute [local irreducible] Report.Ends Sample.planned predict

/-- C131: the run of the heat pump of size 10 with the store of three cubic metres gives 48 hours, and at each of them the
store has given back less than it got, 88 kWh and the rounding. -/
example : ∃ rs, predict Sample.wallLibs Sample.levelHeater Sample.planned (10, 3000) = .ok rs ∧ rs.length = 48 ∧
    ∀ i < 48, ((rs.take (i + 1)).map (·.ts.dischargingTotal)).sum <
      ((rs.take (i + 1)).map (·.ts.chargingTotal)).sum + 88 + (i : ℚ) / 200 := by
  obtain ⟨S, hS⟩ := Sample.planned_run (10, 3000)
  obtain ⟨-, c2, c3, c4, c5⟩ := Sample.planned_cells
  obtain ⟨rs, hrs, hl⟩ := C131_predicts Sample.wallLibs_year Sample.planned_top Sample.planned_sensible hS
    Sample.planned_electric Sample.planned_store_serves Sample.planned_holds c2 c3 c4
    (gekko := Sample.levelHeater)
    (fun S mc hm => ⟨Sample.levelHeater_obeys (by decide) hm, (Sample.levelHeater_answers S mc _).1,
      fun _ => Or.inl (Sample.levelHeater_answers S mc _).1⟩)
    (Or.inl (by norm_num)) (by norm_num) (by norm_num) (by norm_num) (by norm_num)
  refine ⟨rs, hrs, hl, fun i hi => ?_⟩
  have := C131_workbook Sample.wallLibs_year Sample.planned_top Sample.planned_sensible Sample.planned_electric
    (gekko := Sample.levelHeater) (size := (10, 3000)) Sample.planned_store_serves Sample.planned_holds c2 c5
    (fun _ _ _ _ hm => ⟨Sample.levelHeater_obeys (by decide) hm,
      fun _ => (Sample.levelHeater_answers _ _ _).2⟩)
    hrs (i := i) (lt_of_lt_of_eq hi hl.symm)
    (Nat.ne_of_lt (lt_of_lt_of_le (Nat.add_lt_add_left hi 24) (by norm_num)))
  have e : (((10, 3000) : ℤ × ℤ).2 : ℚ) * 4217 * (40 - 15) / 3600000 < 88 := by norm_num
  linarith

/-- C131: the study of the sample writes all its files. -/
theorem C131_sample_study (root : String) : ∃ files st,
    Report.Ends Sample.wallLibs Sample.levelHeater Sample.planned root (.ok (files, none), st) ∧
      files.map (·.1) = Spec.tableFiles root ++ Spec.chartFiles := by
  obtain ⟨s, hs⟩ := Sample.planned_setup Sample.levelHeater
  obtain ⟨c1, c2, c3, c4, -⟩ := Sample.planned_cells
  have hpos : ∀ z ∈ [((0 : ℤ), (0 : ℤ)), (0, 3000), (10, 0), (10, 3000), (20, 0), (20, 3000)],
      0 ≤ z.1 ∧ (z.2 = 0 ∨ ServingStore Sample.wallLibs Sample.planned z.2 ∧ HoldsPlans Sample.planned z.2) := by
    have k := And.intro Sample.planned_store_serves Sample.planned_holds
    intro z hz
    simp only [List.mem_cons, List.not_mem_nil, or_false] at hz
    rcases hz with rfl | rfl | rfl | rfl | rfl | rfl
    · exact ⟨by decide, Or.inl rfl⟩
    · exact ⟨by decide, Or.inr k⟩
    · exact ⟨by decide, Or.inl rfl⟩
    · exact ⟨by decide, Or.inr k⟩
    · exact ⟨by decide, Or.inl rfl⟩
    · exact ⟨by decide, Or.inr k⟩
  exact C131_study_ends Sample.wallLibs_year Sample.planned_top Sample.planned_sensible hs c1 Sample.planned_electric
    c2 c3 c4 (Or.inl (by norm_num)) (by norm_num) (by norm_num) (by norm_num) (by norm_num) Sample.planned_incentive
    Sample.planned_ranges Sample.served_sizes (fun z _ => Sample.planned_run z) hpos
    (fun S mc => ⟨⟨(Sample.levelHeater_answers S mc _).1, fun _ => Or.inl (Sample.levelHeater_answers S mc _).1⟩,
      fun z hz hm => Sample.levelHeater_obeys (hpos z hz).1 hm⟩)
    ⟨⟨(0, 0), by decide, (10, 0), by decide, by decide⟩, ⟨(0, 0), by decide, (0, 3000), by decide, by decide⟩⟩ root

/-- That study has several heat pump sizes and several tank sizes, as every study must whose charts are drawn. -/
example : Spec.TwoDimensional [((0 : ℤ), (0 : ℤ)), (0, 3000), (10, 0), (10, 3000), (20, 0), (20, 3000)] := by
  obtain ⟨files, st, h, -⟩ := C131_sample_study (String.ofList ['w'])
  exact C101_needs_two_sizes h Sample.planned_ranges (by decide +kernel)

end Verif
