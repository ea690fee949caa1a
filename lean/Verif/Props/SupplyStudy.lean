import Verif.Props.RunBalance
import Verif.Props.StoreStudy
import Verif.Props.PumpStudy
import Verif.Props.SamplePumpStudy

/-!
# Studies are supplied with the energy they use (C129, C132)
-/

set_option autoImplicit false

namespace Verif
open Spec Pandas Workbook Simulation HpConfig FixedOrder Programme Tank

variable {L : Libs} {gekko : Gekko} {wb : Pandas.Workbook} {root : String}

/-- No battery, a heat pump with the simple model, a COP of at least one and no minimum output, an electric auxiliary
heater, and orders that buy, heat and sell. -/
structure Spec.SupplyStudy (wb : Pandas.Workbook) : Prop where
  top : TopRowsEmpty wb
  sensible : Sensible wb
  model : Reads wb "Heat pump" 'D' 4 ModelName.simple
  cop : NotBelow wb "Heat pump" 'D' 12 1
  minimum : Holds wb "Heat pump" 'D' 8 0
  battery : ∀ s row, wb "Electrical storage" = some s → FirstComplete s [5] [0, 1] row →
    Holds wb "Electrical storage" 'C' row 0
  heater : fuelOf (excel wb "Aux heat" 'C' 6) = .ok .electric
  above : Lists wb 8 3 ∧ Lists wb 8 9 ∧ Lists wb 8 13
  below : Lists wb 9 2 ∧ Lists wb 9 9 ∧ Lists wb 9 15

theorem cheapHours_le (prices : List ℚ) (setpoint : ℚ) (first k : ℕ) : cheapHours prices setpoint first k ≤ k := by
  unfold cheapHours
  exact List.countP_le_length.trans (List.length_take_le ..)

theorem listed_in {r : ℕ} {l : List ℤ} {t : String} {p : ℤ} (q1 : Says wb "Controller" 'D' r t)
    (q2 : InputText.readOrder t.toList = .ok l) (h : Lists wb r p) : p ∈ l := by
  obtain ⟨t', l', q1', q2', q3⟩ := h
  cases Sample.says_inj q1 q1'
  cases Except.ok.inj (q2.symm.trans q2')
  exact q3

theorem store_heat {ts cp ret : ℚ} (h0 : 0 ≤ ts) (h1 : cp ≤ 4217) (h2 : 15 ≤ ret) :
    ts * cp * (ret - 15) / 3600000 ≤ ts * 4217 * (ret - 15) / 3600000 := by
  have a : ts * cp ≤ ts * 4217 := mul_le_mul_of_nonneg_left h1 h0
  have b := mul_le_mul_of_nonneg_right a (show 0 ≤ ret - 15 by linarith)
  exact div_le_div_of_nonneg_right b (by norm_num)

/-- **C129 from the workbook.** In the results of a combination whose store serves, over any number of hours the heat
drawn is less than the heat booked into the store, the heat of a store at the return temperature above the 15 degrees
indoors, and 0.05 kWh an hour. -/
theorem C129_workbook (hL : WholeYear L) (ht : TopRowsEmpty wb) (hw : Sensible wb) (h9 : Lists wb 8 9 ∧ Lists wb 9 9)
    (hmin : Holds wb "Heat pump" 'D' 8 0) {size : ℤ × ℤ} (hs : ServingStore L wb size.2)
    (hp : ∀ S, runInputs L wb size = .ok S → GoodPump S) {rs : List (Results (List ℚ))}
    (h : simulate L wb size = .ok rs) {ret : ℚ} (hret : Holds wb "Demand input" 'I' 6 ret) {k : ℕ}
    (hk : k ≤ rs.length) :
    tally (rs.take k) (·.ts.dischargingTotal) < tally (rs.take k) (·.ts.chargingTotal) +
      size.2 * 4217 * (ret - 15) / 3600000 + k / 20 := by
  obtain ⟨S, first, n, hS, -, -, hrun⟩ := simulate_ok.mp h
  obtain ⟨H1, H2, -, h9', hm0, tk, net, source, ret', htank, hcap, hret', hst, hhold⟩ :=
    serving_run hL ht hw h9 hmin hs hS (hp S hS)
  cases Sample.holds_inj hret hret'
  obtain ⟨r1, -⟩ := hs.temps ret hret
  obtain ⟨st0, s0, -⟩ := hst 0 (by norm_num)
  have sp := steady_pos st0
  obtain ⟨cp, hcp, -, c2⟩ := specificHeat_ok (t := source) (by rw [← s0]; linarith [st0.source.1, st0.ret])
    (by rw [← s0]; exact st0.source.2)
  rw [C27_one_result_per_hour hrun] at hk
  have t := C129_gives_back H1 H2 h9' hm0 htank hst hcp hhold hrun hk
  have hpos : (0 : ℚ) ≤ size.2 := by exact_mod_cast hs.positive.le
  have a := store_heat hpos c2 r1.le
  rw [hcap] at t
  have b : (cheapHours S.importPrice S.setpoint first k : ℚ) ≤ k := by exact_mod_cast cheapHours_le ..
  unfold tally
  linarith

/-- **C132 from the workbook.** In the results of a combination with no store or one that serves, over any number of
hours, with the COP written in the workbook: the electric demand and the export times the COP, and the heat demand, are
at most the generation and the import times the COP, the heat of a store at the return temperature above the 15 degrees
indoors, and 0.055 kWh an hour. -/
theorem C132_workbook (hL : WholeYear L) (W : SupplyStudy wb) {size : ℤ × ℤ} (h1 : 0 ≤ size.1)
    (hs : size.2 = 0 ∨ ServingStore L wb size.2) {rs : List (Results (List ℚ))} (h : simulate L wb size = .ok rs)
    {cop ret : ℚ} (hcop : Holds wb "Heat pump" 'D' 12 cop) (hret : Holds wb "Demand input" 'I' 6 ret) {k : ℕ}
    (hk : k ≤ rs.length) :
    cop * (tally (rs.take k) (·.elecDemand.elecDemand) + tally (rs.take k) (·.grid.totalExport)) +
        tally (rs.take k) (·.heatDemand.heatDemand) ≤
      cop * (tally (rs.take k) (·.res.generationTotal) + tally (rs.take k) (·.grid.totalImport)) +
        size.2 * 4217 * (ret - 15) / 3600000 + k * 11 / 200 := by
  obtain ⟨S, first, n, hS, -, -, hrun⟩ := simulate_ok.mp h
  rw [C27_one_result_per_hour hrun] at hk
  have hgood : GoodPump S := C99_simple_pump hS (.inr ⟨h1, W.model, fun c hc => by linarith [W.cop c hc]⟩)
  obtain ⟨o, T⟩ := start_ok hS
  have hm0 : S.hp.minimumOutput = 0 := by
    rw [T.hp]
    exact Sample.holds_inj (C91_heat_pump T.objects).2.2.2.1 W.minimum
  obtain ⟨s, row, hs', hrow, hb, -⟩ := C91_battery W.top T.objects
  have hb0 : S.es.capacity = 0 := by
    rw [T.es]
    exact Sample.holds_inj hb (W.battery s row hs' hrow)
  obtain ⟨fuel, hfuel, -, hel, -⟩ := C91_heater T.objects
  have helec : S.aux.electric = true := by
    rw [T.aux]
    exact hel.mpr (Except.ok.inj (hfuel.symm.trans W.heater))
  have hf0 : tally (rs.take k) (fuelHeat S.aux) = 0 := by
    rw [tally_const (f := fuelHeat _) (x := 0) fun r _ => by unfold fuelHeat; exact if_pos helec, zero_mul]
  obtain ⟨-, -, ⟨a, a1, a2⟩, ⟨b, b1, b2⟩⟩ := C91_controller hS
  have hfull : FullOrders S :=
    ⟨⟨listed_in a1 a2 W.above.1, listed_in b1 b2 W.below.1⟩, ⟨listed_in a1 a2 W.above.2.1, listed_in b1 b2 W.below.2.1⟩,
      ⟨listed_in a1 a2 W.above.2.2, listed_in b1 b2 W.below.2.2⟩⟩
  obtain ⟨c, hc, hperf⟩ := simple_performance W.model hS
  cases Sample.holds_inj hcop hc
  have hc1 : 1 ≤ cop := W.cop cop hcop
  have hbest : ∀ p ∈ S.perf, p.cop ≤ cop := by
    intro p hp
    rw [hperf] at hp
    rw [List.eq_of_mem_replicate hp]
    dsimp only
    split_ifs <;> linarith
  have b : (cheapHours S.importPrice S.setpoint first k : ℚ) ≤ k := by exact_mod_cast cheapHours_le ..
  rcases hs with h0 | hs
  · obtain ⟨H, O⟩ := C99_meaningful W.top W.sensible hS hgood h0.ge
    obtain ⟨-, -, o', source, flow, ret', delta, ho', htank, -⟩ := C93_demand W.top hS
    cases Except.ok.inj (ho'.symm.trans T.objects)
    have hns : RunNoStores S := C102_no_tank htank (by rw [(C91_tank T.objects).1, h0]; rfl) hb0
    have t := C132_without_stores H hns O hfull hm0 hc1 hbest hrun hk
    rw [hf0] at t
    rw [h0, Int.cast_zero]
    linarith
  · obtain ⟨H1, H2, -, h9', -, tk, net, source, ret', htank, hcap, hret', hst, hhold⟩ :=
      serving_run hL W.top W.sensible ⟨W.above.2.1, W.below.2.1⟩ W.minimum hs hS hgood
    cases Sample.holds_inj hret hret'
    obtain ⟨r1, -⟩ := hs.temps ret hret
    obtain ⟨st0, s0, -⟩ := hst 0 (by norm_num)
    have sp := steady_pos st0
    obtain ⟨cp, hcp, -, c2⟩ := specificHeat_ok (t := source) (by rw [← s0]; linarith [st0.source.1, st0.ret])
      (by rw [← s0]; exact st0.source.2)
    have t := C132_supplied_partial H1 H2 hfull hm0 hc1 hbest htank hst hcp hhold hrun (.inl hb0) hk
    have hpos : (0 : ℚ) ≤ size.2 := by exact_mod_cast hs.positive.le
    have a := store_heat hpos c2 r1.le
    have e3 : S.es.initState = 0 := by
      unfold Battery.initState
      rw [hb0, mul_zero]
    rw [hcap, hf0, e3] at t
    linarith

/-! ## The sample with a store, an electric heater and no battery -/

namespace Sample

/-- The sample of C126 with an electric heater and without a battery. -/
def supplied : Pandas.Workbook := fun name =>
  if name = "Electrical storage" then allElectric "Electrical storage"
  else if name = "Aux heat" then allElectric "Aux heat"
  else served name

theorem supplied_top : TopRowsEmpty supplied := by
  intro name s hs k
  unfold supplied at hs
  split_ifs at hs
  · exact electric_top _ s hs k
  · exact electric_top _ s hs k
  · exact served_top name s hs k

theorem supplied_filled : Filled wallLibs supplied := by
  have F := served_filled (L := wallLibs) rfl
  have G := electric_filled (L := wallLibs) rfl
  exact
    { F with
      readable := { F.readable with
        battery := G.readable.battery, aux := G.readable.aux, fuel := G.readable.fuel, fuel1 := G.readable.fuel1,
        fuel2 := G.readable.fuel2, fuel3 := G.readable.fuel3 }
      battery := G.battery, efficiency := G.efficiency, fuel := G.fuel
      tariff := ⟨_, "Flat rates", rfl, rfl, by decide, fun _ => ⟨3, rfl⟩,
        fun h => absurd h (by decide), fun h => absurd h (by decide), fun h => absurd h (by decide)⟩ }

theorem supplied_run (size : ℤ × ℤ) : ∃ S, runInputs wallLibs supplied size = .ok S :=
  (C94_ready (fun _ _ _ _ _ _ xs h => by rw [← Except.ok.inj h]; exact List.length_replicate) supplied_top
    (tail_of_height (s := pump "Simple") rfl (Nat.le_refl 47))).mpr
    { served_ready size.1 with
      objects := supplied_filled
      prices := fun t h => by
        cases says_inj h (show Says _ _ _ _ "Flat rates" from rfl)
        exact ⟨fun h => absurd h (by decide), fun h => absurd h (by decide), fun h => absurd h (by decide),
          fun h => absurd h (by decide)⟩ }

theorem supplied_study : SupplyStudy supplied where
  top := supplied_top
  sensible := { served_sensible with battery := electric_sensible.battery }
  model := ⟨"Simple", rfl, by decide +kernel⟩
  cop := fun y h => by rw [holds_inj h (show Holds supplied "Heat pump" 'D' 12 3 from rfl)]; norm_num
  minimum := rfl
  battery := electric_study.battery
  heater := show fuelOf (text "Electric") = _ by decide +kernel
  above := ⟨⟨_, _, rfl, served_above, by decide⟩, ⟨_, _, rfl, served_above, by decide⟩,
    ⟨_, _, rfl, served_above, by decide⟩⟩
  below := ⟨⟨_, _, rfl, served_below, by decide⟩, ⟨_, _, rfl, served_below, by decide⟩,
    ⟨_, _, rfl, served_below, by decide⟩⟩

theorem supplied_store : ServingStore wallLibs supplied 3000 := { served_store with }

theorem supplied_cells : Holds supplied "Heat pump" 'D' 12 3 ∧ Holds supplied "Demand input" 'I' 6 40 ∧
    Holds supplied "Controller" 'G' 5 (24 : ℕ) ∧ Holds supplied "Controller" 'G' 6 (48 : ℕ) :=
  ⟨rfl, rfl, rfl, rfl⟩

theorem supplied_known : KnownProcesses supplied := served_known

theorem supplied_simulates : ∃ rs, simulate wallLibs supplied (10, 3000) = .ok rs ∧ rs.length = 48 := by
  obtain ⟨S, hS⟩ := supplied_run (10, 3000)
  obtain ⟨-, -, c3, c4⟩ := supplied_cells
  exact C126_simulates wallLibs_year supplied_top supplied_study.sensible supplied_known
    ⟨supplied_study.above.2.1, supplied_study.below.2.1⟩ supplied_study.minimum supplied_store hS
    (C99_simple_pump hS (Or.inr ⟨by decide, supplied_study.model, fun c hc => by linarith [supplied_study.cop c hc]⟩))
    c3 c4 (by omega)

end Sample

attribute [local irreducible] Sample.supplied simulate

/-- C129 and C132 of the heat pump of size 10 with the store of three cubic metres, over the first 24 of its 48 hours:
the store starts with at most 88 kWh. -/
example : ∃ rs, simulate Sample.wallLibs Sample.supplied (10, 3000) = .ok rs ∧
    tally (rs.take 24) (·.ts.dischargingTotal) < tally (rs.take 24) (·.ts.chargingTotal) + 88 + 24 / 20 ∧
    3 * (tally (rs.take 24) (·.elecDemand.elecDemand) + tally (rs.take 24) (·.grid.totalExport)) +
        tally (rs.take 24) (·.heatDemand.heatDemand) ≤
      3 * (tally (rs.take 24) (·.res.generationTotal) + tally (rs.take 24) (·.grid.totalImport)) + 88 + 24 * 11 / 200 := by
  obtain ⟨rs, h, hl⟩ := Sample.supplied_simulates
  obtain ⟨c1, c2, -⟩ := Sample.supplied_cells
  have W := Sample.supplied_study
  have t1 := C129_workbook Sample.wallLibs_year W.top W.sensible ⟨W.above.2.1, W.below.2.1⟩ W.minimum
    (size := (10, 3000)) Sample.supplied_store (fun S hS => C99_simple_pump hS
      (Or.inr ⟨by decide, W.model, fun c hc => by linarith [W.cop c hc]⟩)) h c2 (k := 24) (by omega)
  have t2 := C132_workbook Sample.wallLibs_year W (size := (10, 3000)) (by decide) (.inr Sample.supplied_store) h c1 c2
    (k := 24) (by omega)
  refine ⟨rs, h, ?_, ?_⟩
  · norm_num at t1 ⊢
    linarith
  · norm_num at t2 ⊢
    linarith

end Verif
