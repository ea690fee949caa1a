import Verif.Spec.BiggerPump
import Verif.Lemmas.BiggerPump
import Verif.Props.MoreGeneration

/-!
# A larger or more efficient heat pump never raises the electricity bill (C119)
-/

set_option autoImplicit false

namespace Verif
open Spec FixedOrder
variable {N : Type}

/-- C119 for an hour: without stores and with an electric auxiliary heater that is listed in the order, the
better of two heat pumps (no smaller, no less efficient, and with a COP of at least one) never raises the
import, and any fall of the export is made up by at least the same fall of the import. Whatever the minimum
outputs of the two, on either side of the setpoint, for all orders that do not run the electric heater on surplus after the heat pump on imports. -/
theorem C119_hour {P P' : Plant N} {i i' : StepIn N} (H : StepOk P i) (H' : StepOk P' i')
    (hn : NoStores P i) (hm : BetterPump P P' i i') (hk : 1 ≤ i'.perf.cop)
    (hel : P.aux.electric = true) {b : Bool} {order : List ℤ} (ho : PumpOrder b order)
    {r r' : Results N} (h : step P i b order = .ok r) (h' : step P' i' b order = .ok r') :
    r'.grid.totalImport ≤ r.grid.totalImport ∧
    r.grid.totalExport - r'.grid.totalExport ≤ r.grid.totalImport - r'.grid.totalImport := by
  have hes : P'.es = P.es := by rw [hm.plant]
  have htank : P'.tank = P.tank := by rw [hm.plant]
  have haux : P'.aux = P.aux := by rw [hm.plant]
  have hhour : i'.hour = i.hour := by rw [hm.hour]
  have hnodes : i'.nodes = i.nodes := by rw [hm.hour]
  have hn' : NoStores P' i' :=
    ⟨by rw [hes]; exact hn.battery, by rw [htank, hhour, hnodes]; exact hn.tank⟩
  have hel' : P'.aux.electric = true := by rw [haux]; exact hel
  obtain ⟨c, r1, hd, hr⟩ := step_ok h
  obtain ⟨c', r1', hd', hr'⟩ := step_ok h'
  obtain ⟨q, n, hq, e1⟩ := dispatch_ok hd
  obtain ⟨q', n', hq', e1'⟩ := dispatch_ok hd'
  dsimp only at e1 e1' hq hq'
  obtain ⟨g1, -⟩ := rule_grid hr
  obtain ⟨g1', -⟩ := rule_grid hr'
  obtain ⟨ps, hf, hp⟩ := runOrder_ok hq
  obtain ⟨ps', hf', hp'⟩ := runOrder_ok hq'
  have := procs_unique hf' hf
  subst this
  have e9 : keyOf b 9 = .ok .auxToDemand := by cases b <;> rfl
  have e5 : keyOf b 5 = .ok .eauxResToDemand := by cases b <;> rfl
  have e8 : keyOf b (if b then 6 else 8) = .ok .hpImportToDemand := by cases b <;> rfl
  have u : (initChecks P' i').heatUnmet = (initChecks P i).heatUnmet ∧
      (initChecks P' i').resLeft = (initChecks P i).resLeft ∧
      (initChecks P' i').elecUnmet = (initChecks P i).elecUnmet := by
    rw [hm.hour]; exact ⟨rfl, rfl, rfl⟩
  have G0 : Grown i'.perf.cop i.perf.duty i'.perf.duty [] (initChecks P i) (initChecks P' i')
      (initResults P i b) (initResults P' i' b) := by
    refine ⟨u.2.2, rfl, ⟨rfl, rfl⟩, ⟨rfl, rfl⟩, u.1.le, fun _ => ⟨rfl, rfl⟩, fun _ => ⟨rfl, rfl⟩,
      (fun hh => by cases hh), le_rfl, fun _ => ⟨rfl, rfl⟩, (fun hh => by cases hh), ?_, ?_, ?_, ?_,
      (fun hh => by cases hh), ?_, fun _ _ => ⟨u.1, u.2.1, rfl, rfl⟩⟩
    · rw [u.1]; exact le_rfl
    · rw [u.1, u.2.1]; exact le_rfl
    · intro _; right; rw [u.1]; simp only [initChecks, sub_zero]; linarith [hm.duty]
    · intro _ _; right; rw [u.1, u.2.1]; simp only [initChecks, sub_zero]; linarith [hm.duty]
    · intro _; right; right; rw [u.2.1]; exact le_rfl
  have G := grown_loop H H' hn hn' hk hm.cop hm.duty hel hel' ps' [] _ _ _ _
    (nodup_procs hf ho.nodup) (fun _ _ hh => by cases hh)
    (fun hs => ho.renewableFirst (sublist_of_procs hf (.cons e8 (.cons e5 .nil)) hs))
    (fun hh => by cases hh) hp hp' (idle_init H hn) (idle_init H' hn') G0
  rw [List.append_nil] at G
  obtain ⟨y1, y2, ⟨t1, t1'⟩, ⟨t2, t2'⟩, y5, y6, y7, y8, y9, y10, y11, y12, y13, -⟩ := G
  obtain ⟨z, z'⟩ := y8 ((mem_done hf e9).mpr ho.aux)
  dsimp only at z z' y2 t1 t1' t2 t2' y12 y13 y10 y11
  rw [g1, g1', e1, e1']
  have im : (totals2 P i b n (totals1 P b q)).grid.totalImport = q.grid.importForElecDemand
      + q.grid.importForHeatPumpToHeatDemand + q.heatDemand.aux := by
    simp only [totals2, totals1, hel, t1, t2]
    split_ifs <;> ring
  have im' : (totals2 P' i' b n' (totals1 P' b q')).grid.totalImport = q'.grid.importForElecDemand
      + q'.grid.importForHeatPumpToHeatDemand + q'.heatDemand.aux := by
    simp only [totals2, totals1, hel', t1', t2']
    split_ifs <;> ring
  have ex : (totals2 P i b n (totals1 P b q)).grid.totalExport = q.grid.totalExport := rfl
  have ex' : (totals2 P' i' b n' (totals1 P' b q')).grid.totalExport = q'.grid.totalExport := rfl
  rw [im, im', ex, ex']
  refine ⟨by linarith, ?_⟩
  by_cases he : Process.resToExport ∈ ps'.reverse
  · obtain ⟨w, w'⟩ := y11 he
    linarith
  · obtain ⟨w, w'⟩ := y10 he
    linarith

/-- C119, money: if an exported kWh earns no more than an imported one costs, the cash flow of the hour does
not fall. -/
theorem C119_hour_cash {P P' : Plant N} {i i' : StepIn N} (H : StepOk P i) (H' : StepOk P' i')
    (hn : NoStores P i) (hm : BetterPump P P' i i') (hk : 1 ≤ i'.perf.cop)
    (hel : P.aux.electric = true) {b : Bool} {order : List ℤ} (ho : PumpOrder b order)
    {r r' : Results N} (h : step P i b order = .ok r) (h' : step P' i' b order = .ok r')
    (he : 0 ≤ P.exportPrice) (hle : P.exportPrice ≤ i.importPrice) :
    r.grid.cashflow ≤ r'.grid.cashflow := by
  obtain ⟨hi, hx⟩ := C119_hour H H' hn hm hk hel ho h h'
  obtain ⟨c1, c2, c3, -⟩ := C24_cashflow H ho.nodup h
  obtain ⟨d1, d2, d3, -⟩ := C24_cashflow H' ho.nodup h'
  have f1 : P'.exportPrice = P.exportPrice := by rw [hm.plant]
  have f2 : i'.importPrice = i.importPrice := by rw [hm.hour]
  rw [f1] at d2
  rw [f2] at d1
  have k1 : (r.grid.totalExport - r'.grid.totalExport) * P.exportPrice ≤
      (r.grid.totalImport - r'.grid.totalImport) * P.exportPrice := mul_le_mul_of_nonneg_right hx he
  have k2 : (r.grid.totalImport - r'.grid.totalImport) * P.exportPrice ≤
      (r.grid.totalImport - r'.grid.totalImport) * i.importPrice :=
    mul_le_mul_of_nonneg_left hle (by linarith)
  rw [c3, d3, c1, c2, d1, d2]
  linarith

/-! ### A run -/

/-- C119 for a run: in every hour the run with the better heat pump imports at most as much, and the cash
flow of every hour with an import price of at least the export price is at least as high. -/
theorem C119_run {S S' : RunIn N} (H : RunOk S) (H' : RunOk S') (hs : RunNoStores S)
    (hm : BetterPumpRun S S') (hk : ∀ p ∈ S'.perf, 1 ≤ p.cop) (hel : S.aux.electric = true)
    (ha : PumpOrder false S.orderAbove) (hb : PumpOrder true S.orderBelow) {first n : ℕ}
    {rs rs' : List (Results N)} (h : runTimesteps S first n = .ok rs)
    (h' : runTimesteps S' first n = .ok rs') :
    List.Forall₂ (fun r r' => r'.grid.totalImport ≤ r.grid.totalImport ∧
      r.grid.totalExport - r'.grid.totalExport ≤ r.grid.totalImport - r'.grid.totalImport ∧
      (0 ≤ S.exportPrice → S.exportPrice ≤ r.grid.importPrice →
        r.grid.cashflow ≤ r'.grid.cashflow)) rs rs' := by
  have same := hm.same
  have etank : S'.tank = S.tank := by rw [same]
  have hs' : RunNoStores S' := by
    rw [same]; exact ⟨hs.battery, hs.tankCapacity, hs.tank⟩
  obtain ⟨rows, hall⟩ := run_hours H h
  obtain ⟨rows', hall'⟩ := run_hours H' h'
  have hl := C27_one_result_per_hour h
  have hl' := C27_one_result_per_hour h'
  refine List.forall₂_iff_get.mpr ⟨hl.trans hl'.symm, fun k hk1 hk1' => ?_⟩
  have hkn : k < n := hl ▸ hk1
  obtain ⟨r, heat, price, row, perf, gen, wnd, pv, elec, r0, hr, ho, hsp, hst⟩ := hall k hkn
  obtain ⟨r', heat', price', row', perf', gen', wnd', pv', elec', r0', hr', ho', hsp', hst'⟩ :=
    hall' k hkn
  have er : rs.get ⟨k, hk1⟩ = r := by
    have := List.getElem?_eq_getElem hk1
    rw [hr] at this
    exact (Option.some.inj this).symm
  have er' : rs'.get ⟨k, hk1'⟩ = r' := by
    have := List.getElem?_eq_getElem hk1'
    rw [hr'] at this
    exact (Option.some.inj this).symm
  rw [er, er']
  obtain ⟨b1, b2⟩ := bare_before H hs h k hkn.le
  obtain ⟨b1', b2'⟩ := bare_before H' hs' h' k hkn.le
  rw [b1, b2] at ho hst
  rw [b1', b2', etank] at ho' hst'
  have e1 : heat' = heat := by
    have := ho'.heatEq
    rw [same] at this
    exact Option.some.inj (this.symm.trans ho.heatEq)
  have e2 : price' = price := by
    have := ho'.priceEq
    rw [same] at this
    exact Option.some.inj (this.symm.trans ho.priceEq)
  have e3 : gen' = gen := by
    have := ho'.genEq
    rw [same] at this
    exact Option.some.inj (this.symm.trans ho.genEq)
  have e4 : elec' = elec := by
    have := ho'.elecEq
    rw [same] at this
    exact Option.some.inj (this.symm.trans ho.elecEq)
  subst e1 e2 e3 e4
  have hperf := forall₂_getElem? hm.perf ho.perfEq ho'.perfEq
  have es : S'.setpoint = S.setpoint := by rw [same]
  have eoa : S'.orderAbove = S.orderAbove := by rw [same]
  have eob : S'.orderBelow = S.orderBelow := by rw [same]
  have hrow : row'.surplus = row.surplus ∧ row'.deficit = row.deficit := by
    have b1 := hsp.balance
    have b2 := hsp'.balance
    have n1 := hsp.surplus_nonneg
    have n2 := hsp.deficit_nonneg
    have n3 := hsp'.surplus_nonneg
    have n4 := hsp'.deficit_nonneg
    constructor <;> rcases hsp.exclusive with x | x <;> rcases hsp'.exclusive with y | y <;> linarith
  have hst1 := ho.stepEq
  have hst2 := ho'.stepEq
  rw [es, eoa, eob] at hst2
  have hlarge : BetterPump (plant S) (plant S')
      (hourIn (first + k) heat' price' row perf S.tank.initTemps 0)
      (hourIn (first + k) heat' price' row' perf' S.tank.initTemps 0) := by
    refine ⟨?_, ?_, hperf.1, hperf.2⟩
    · rw [same]; rfl
    · simp only [hourIn, hrow.1, hrow.2]
  have hn1 : NoStores (plant S) (hourIn (first + k) heat' price' row perf S.tank.initTemps 0) :=
    ⟨hs.battery, fun s m hh => hs.tank _ s _ m hh⟩
  have hc1 : 1 ≤ perf'.cop := hk _ (List.mem_of_getElem? ho'.perfEq)
  have hord : PumpOrder (decide (price' ≤ S.setpoint))
      (if price' > S.setpoint then S.orderAbove else S.orderBelow) := by
    by_cases hpr : price' > S.setpoint
    · rw [if_pos hpr, decide_eq_false (not_le.mpr hpr)]; exact ha
    · rw [if_neg hpr, decide_eq_true (not_lt.mp hpr)]; exact hb
  rw [ho.resultEq, ho'.resultEq]
  have g := C119_hour hst hst' hn1 hlarge hc1 hel hord hst1 hst2
  refine ⟨g.1, g.2, fun he hp => ?_⟩
  obtain ⟨-, -, -, ep⟩ := C24_cashflow hst hord.nodup hst1
  have g3 := C119_hour_cash hst hst' hn1 hlarge hc1 hel hord hst1 hst2 he (hp.trans_eq ep)
  exact g3

/-- The price reported in an hour is one of the series. -/
theorem reported_price {S : RunIn N} (H : RunOk S) (ha : S.orderAbove.Nodup) (hb : S.orderBelow.Nodup)
    {first n : ℕ} {rs : List (Results N)} (h : runTimesteps S first n = .ok rs) :
    ∀ r ∈ rs, r.grid.importPrice ∈ S.importPrice := by
  intro r hr
  obtain ⟨k, hk, hkr⟩ := List.getElem_of_mem hr
  obtain ⟨rows, hall⟩ := run_hours H h
  obtain ⟨r', heat, price, row, perf, gen, wnd, pv, elec, r0, hr', ho, -, hst⟩ :=
    hall k (C27_one_result_per_hour h ▸ hk)
  have e : r = r' := Option.some.inj (by rw [← hr', List.getElem?_eq_getElem hk, hkr])
  have hnd : (if price > S.setpoint then S.orderAbove else S.orderBelow).Nodup := by
    split_ifs
    · exact ha
    · exact hb
  have hp : r'.grid.importPrice = price := by
    rw [ho.resultEq]
    exact (C24_cashflow hst hnd ho.stepEq).2.2.2
  rw [e, hp]
  exact List.mem_of_getElem? ho.priceEq

/-- C119 over the span simulated: total import and, with reported import prices of at least the export price, the
balance of the bill. -/
theorem C119_bill {S S' : RunIn N} (H : RunOk S) (H' : RunOk S') (hs : RunNoStores S)
    (hm : BetterPumpRun S S') (hk : ∀ p ∈ S'.perf, 1 ≤ p.cop) (hel : S.aux.electric = true)
    (ha : PumpOrder false S.orderAbove) (hb : PumpOrder true S.orderBelow) {first n : ℕ}
    {rs rs' : List (Results N)} (h : runTimesteps S first n = .ok rs)
    (h' : runTimesteps S' first n = .ok rs') :
    (rs'.map (·.grid.totalImport)).sum ≤ (rs.map (·.grid.totalImport)).sum ∧
    (0 ≤ S.exportPrice → (∀ r ∈ rs, S.exportPrice ≤ r.grid.importPrice) →
      (rs.map (·.grid.cashflow)).sum ≤ (rs'.map (·.grid.cashflow)).sum) := by
  have hall := C119_run H H' hs hm hk hel ha hb h h'
  refine ⟨?_, fun he hp => ?_⟩
  · exact sum_le_of_forall₂ _ _ hall.flip (fun a b hab => hab.1)
  · exact sum_le_of_forall₂ _ _ ((List.forall₂_and_left _ _).mpr ⟨hp, hall⟩) (fun a b hab => hab.2.2.2 he hab.1)

/-- The sample year with a heat pump of 12 kW and with one of 24 kW. -/
example : ∃ rs rs', runTimesteps bareRun 0 8760 = .ok rs ∧
    runTimesteps doublePumpRun 0 8760 = .ok rs' ∧
    (rs.map (·.grid.cashflow)).sum ≤ (rs'.map (·.grid.cashflow)).sum := by
  obtain ⟨rs, h⟩ := bareRun_runs (List.replicate 8760 1) List.length_replicate 0 8760 le_rfl
  obtain ⟨rs', h'⟩ : ∃ rs, runTimesteps doublePumpRun 0 8760 = .ok rs :=
    C27_accepts_span_inside_year (S := doublePumpRun)
      ⟨sampleRun_fullYear.windUser, sampleRun_fullYear.windData, sampleRun_fullYear.pv,
        sampleRun_fullYear.elecDemand, sampleRun_fullYear.heatDemand,
        sampleRun_fullYear.importPrice, List.length_replicate⟩
      ⟨show ∀ n ∈ bareRun.orderAbove, 1 ≤ n ∧ n ≤ 13 by decide,
        show ∀ n ∈ bareRun.orderBelow, 1 ≤ n ∧ n ≤ 15 by decide⟩
      (fun _ _ _ => ⟨_, rfl⟩) (fun _ _ _ _ _ => ⟨_, rfl⟩) (by omega)
  refine ⟨rs, rs', h, h', (C119_bill bareRun_ok doublePumpRun_ok bareRun_noStores
    doublePumpRun_better ?_ rfl ⟨by decide, by decide, by decide⟩ ⟨by decide, by decide, by decide⟩
    h h').2 ?_ ?_⟩
  · intro p hp
    rw [List.eq_of_mem_replicate (show p ∈ List.replicate 8760 (⟨3, 24⟩ : Perf) from hp)]
    norm_num
  · show (0 : ℚ) ≤ 40
    norm_num
  · intro r hr
    have hp := reported_price bareRun_ok (by decide) (by decide) h r hr
    rw [List.eq_of_mem_replicate (show _ ∈ List.replicate 8760 (100 : ℚ) from hp)]
    show (40 : ℚ) ≤ 100
    norm_num

/-- An hour with 30 kWh of heat demand and no surplus: a heat pump of 12 kW leaves 18 kWh to the electric
heater and the hour imports 22 kWh; one of 24 kW brings this down to 14 kWh. -/
example : (∃ r, step barePlant { sampleStep with soc := 0, surplus := 0 } false [1, 4, 5, 8, 9, 13]
      = .ok r ∧ r.grid.totalImport = 22) ∧
    (∃ r, step { barePlant with hp := { barePlant.hp with capacity := 24 } }
      { sampleStep with soc := 0, surplus := 0, perf := ⟨3, 24⟩ } false [1, 4, 5, 8, 9, 13]
      = .ok r ∧ r.grid.totalImport = 14) :=
  ⟨exists_of_checks (by decide +kernel), exists_of_checks (by decide +kernel)⟩

/-- The same hour with a heat pump of the same size and a COP of 4 instead of 3 imports 21 kWh. -/
example : ∃ r, step barePlant { sampleStep with soc := 0, surplus := 0, perf := ⟨4, 12⟩ } false
    [1, 4, 5, 8, 9, 13] = .ok r ∧ r.grid.totalImport = 21 := exists_of_checks (by decide +kernel)

/-! ### What the claim needs -/

/-- The two plants of the counterexamples: no heat pump, and one of 12 kW. -/
def noPump : Plant Unit := { barePlant with hp := { capacity := 0, minimumRuntime := 0, minimumOutput := 0 } }
def smallPump : Plant Unit :=
  { barePlant with hp := { capacity := 12, minimumRuntime := 0, minimumOutput := 0 } }

/-- An hour with 12 kWh of heat demand. -/
def pumpHour (surplus cop duty : ℚ) : StepIn Unit :=
  { sampleStep with soc := 0, surplus := surplus, heatDemand := 12, perf := ⟨cop, duty⟩ }

theorem pumpHour_ok {P : Plant Unit} {surplus cop duty : ℚ} (hes : P.es = barePlant.es)
    (htank : P.tank = noTank) (hpeak : P.peakHeatDemand = 50) (h1 : 0 ≤ surplus) (h2 : 0 < cop)
    (h3 : 0 ≤ duty) (h4 : P.hp.capacity = 0 → duty = 0) :
    StepOk P (pumpHour surplus cop duty) := by
  refine ⟨by rw [hes]; exact bareBattery_ok, le_rfl, by rw [hes]; exact le_rfl, h1, le_rfl, ?_, ?_, h2,
    h3, h4, ?_⟩
  · show (0 : ℚ) ≤ 12
    norm_num
  · rw [hpeak]
    show (12 : ℚ) ≤ 50
    norm_num
  · intro s m h
    rw [htank] at h
    exact (Except.ok.inj h).le

theorem pumpHour_noStores {P : Plant Unit} {surplus cop duty : ℚ} (hes : P.es = barePlant.es)
    (htank : P.tank = noTank) : NoStores P (pumpHour surplus cop duty) := by
  refine ⟨by rw [hes]; rfl, fun s m h => ?_⟩
  rw [htank] at h
  exact (Except.ok.inj h).symm

/-- With the heat pump on imports listed before the electric heater on surplus, the heat pump takes the
demand that the surplus could have served: with a COP of 3/2 and 12 kWh of surplus the import rises from
nothing to 8 kWh. -/
theorem C119_order_needed : ∃ (P P' : Plant Unit) (i i' : StepIn Unit) (order : List ℤ),
    StepOk P i ∧ StepOk P' i' ∧ NoStores P i ∧ BetterPump P P' i i' ∧ 1 ≤ i'.perf.cop ∧
    P.aux.electric = true ∧ order.Nodup ∧ 9 ∈ order ∧
    (∃ r, step P i false order = .ok r ∧ r.grid.totalImport = 0) ∧
    (∃ r, step P' i' false order = .ok r ∧ r.grid.totalImport = 8) := by
  refine ⟨noPump, smallPump, pumpHour 12 (3 / 2) 0, pumpHour 12 (3 / 2) 12, [8, 5, 9, 13],
    pumpHour_ok rfl rfl rfl (by norm_num) (by norm_num) le_rfl (fun _ => rfl),
    pumpHour_ok rfl rfl rfl (by norm_num) (by norm_num) (by norm_num) ?_,
    pumpHour_noStores rfl rfl, ⟨rfl, rfl, le_rfl, ?_⟩, ?_, rfl, by decide, by decide,
    exists_of_checks (by decide +kernel), exists_of_checks (by decide +kernel)⟩
  · intro h
    have h' : (12 : ℚ) = 0 := h
    norm_num at h'
  · show (0 : ℚ) ≤ 12
    norm_num
  · show (1 : ℚ) ≤ 3 / 2
    norm_num

/-- With a fuel boiler a heat pump does raise the import: it replaces fuel. -/
theorem C119_boiler_imports : ∃ (P P' : Plant Unit) (i i' : StepIn Unit) (order : List ℤ),
    StepOk P i ∧ StepOk P' i' ∧ NoStores P i ∧ BetterPump P P' i i' ∧ 1 ≤ i'.perf.cop ∧
    P.aux.electric = false ∧ PumpOrder false order ∧
    (∃ r, step P i false order = .ok r ∧ r.grid.totalImport = 0) ∧
    (∃ r, step P' i' false order = .ok r ∧ r.grid.totalImport = 4) := by
  refine ⟨{ noPump with aux := { electric := false, efficiency := 1, cost := 0, energyDensity := 1 } },
    { smallPump with aux := { electric := false, efficiency := 1, cost := 0, energyDensity := 1 } },
    pumpHour 0 3 0, pumpHour 0 3 12, [4, 5, 8, 9, 13],
    pumpHour_ok rfl rfl rfl le_rfl (by norm_num) le_rfl (fun _ => rfl),
    pumpHour_ok rfl rfl rfl le_rfl (by norm_num) (by norm_num) ?_,
    pumpHour_noStores rfl rfl, ⟨rfl, rfl, le_rfl, ?_⟩, ?_, rfl,
    ⟨by decide, by decide, by decide⟩,
    exists_of_checks (by decide +kernel), exists_of_checks (by decide +kernel)⟩
  · intro h
    have h' : (12 : ℚ) = 0 := h
    norm_num at h'
  · show (0 : ℚ) ≤ 12
    norm_num
  · show (1 : ℚ) ≤ 3
    norm_num

/-- With a COP below one, which the performance models do not exclude, a larger heat pump costs more than
the electric heater it replaces. -/
theorem C119_cop_needed : ∃ (P P' : Plant Unit) (i i' : StepIn Unit) (order : List ℤ),
    StepOk P i ∧ StepOk P' i' ∧ NoStores P i ∧ BetterPump P P' i i' ∧
    P.aux.electric = true ∧ PumpOrder false order ∧
    (∃ r, step P i false order = .ok r ∧ r.grid.totalImport = 12) ∧
    (∃ r, step P' i' false order = .ok r ∧ r.grid.totalImport = 24) := by
  refine ⟨noPump, smallPump, pumpHour 0 (1 / 2) 0, pumpHour 0 (1 / 2) 12, [4, 5, 8, 9, 13],
    pumpHour_ok rfl rfl rfl le_rfl (by norm_num) le_rfl (fun _ => rfl),
    pumpHour_ok rfl rfl rfl le_rfl (by norm_num) (by norm_num) ?_,
    pumpHour_noStores rfl rfl, ⟨rfl, rfl, le_rfl, ?_⟩, rfl, ⟨by decide, by decide, by decide⟩,
    exists_of_checks (by decide +kernel), exists_of_checks (by decide +kernel)⟩
  · intro h
    have h' : (12 : ℚ) = 0 := h
    norm_num at h'
  · show (0 : ℚ) ≤ 12
    norm_num

/-- If exports are paid better than imports cost, using the surplus in the heat pump loses money: with an
export price of 400 and an import price of 100 the cash flow falls from 3.6 to 3.2 although all the
imports are saved. -/
theorem C119_price_needed : ∃ (P P' : Plant Unit) (i i' : StepIn Unit) (order : List ℤ),
    StepOk P i ∧ StepOk P' i' ∧ NoStores P i ∧ BetterPump P P' i i' ∧ 1 ≤ i'.perf.cop ∧
    P.aux.electric = true ∧ PumpOrder false order ∧ 0 ≤ P.exportPrice ∧ 0 ≤ i.importPrice ∧
    (∃ r, step P i false order = .ok r ∧ r.grid.cashflow = 18 / 5) ∧
    (∃ r, step P' i' false order = .ok r ∧ r.grid.cashflow = 16 / 5) := by
  refine ⟨{ noPump with exportPrice := 400 }, { smallPump with exportPrice := 400 },
    pumpHour 12 3 0, pumpHour 12 3 12, [4, 8, 9, 13],
    pumpHour_ok rfl rfl rfl (by norm_num) (by norm_num) le_rfl (fun _ => rfl),
    pumpHour_ok rfl rfl rfl (by norm_num) (by norm_num) (by norm_num) ?_,
    pumpHour_noStores rfl rfl, ⟨rfl, rfl, le_rfl, ?_⟩, ?_, rfl,
    ⟨by decide, by decide, by decide⟩, ?_, ?_,
    exists_of_checks (by decide +kernel), exists_of_checks (by decide +kernel)⟩
  · intro h
    have h' : (12 : ℚ) = 0 := h
    norm_num at h'
  · show (0 : ℚ) ≤ 12
    norm_num
  · show (1 : ℚ) ≤ 3
    norm_num
  · show (0 : ℚ) ≤ 400
    norm_num
  · show (0 : ℚ) ≤ 100
    norm_num

/-- With a thermal store a larger heat pump may import to fill it: here 12 kWh of heat, at the expense of 4 kWh. -/
theorem C119_store_raises_import : ∃ (P P' : Plant Unit) (i i' : StepIn Unit) (order : List ℤ),
    StepOk P i ∧ StepOk P' i' ∧ BetterPump P P' i i' ∧ 1 ≤ i'.perf.cop ∧
    P.aux.electric = true ∧ PumpOrder true order ∧
    (∃ r, step P i true order = .ok r ∧ r.grid.totalImport = 0) ∧
    (∃ r, step P' i' true order = .ok r ∧ r.grid.totalImport = 4) := by
  refine ⟨{ noPump with tank := sampleTank }, { smallPump with tank := sampleTank },
    { pumpHour 0 3 0 with heatDemand := 0 }, { pumpHour 0 3 12 with heatDemand := 0 },
    [4, 5, 6, 9, 12, 15], ?_, ?_, ⟨rfl, rfl, le_rfl, ?_⟩, ?_, rfl, ⟨by decide, by decide, by decide⟩,
    exists_of_checks (by decide +kernel), exists_of_checks (by decide +kernel)⟩
  · have := pumpHour_ok (P := noPump) (surplus := 0) (cop := 3) (duty := 0) rfl rfl rfl le_rfl
      (by norm_num) le_rfl (fun _ => rfl)
    refine ⟨this.es, this.soc_nonneg, this.soc_le, this.surplus_nonneg, this.deficit_nonneg, le_rfl,
      ?_, this.cop_pos, this.duty_nonneg, this.zero_cap, sampleStep_ok.tank_nonneg⟩
    show (0 : ℚ) ≤ 50
    norm_num
  · have := pumpHour_ok (P := smallPump) (surplus := 0) (cop := 3) (duty := 12) rfl rfl rfl le_rfl
      (by norm_num) (by norm_num) (fun h => by
        have h' : (12 : ℚ) = 0 := h
        norm_num at h')
    refine ⟨this.es, this.soc_nonneg, this.soc_le, this.surplus_nonneg, this.deficit_nonneg, le_rfl,
      ?_, this.cop_pos, this.duty_nonneg, this.zero_cap, sampleStep_ok.tank_nonneg⟩
    show (0 : ℚ) ≤ 50
    norm_num
  · show (0 : ℚ) ≤ 12
    norm_num
  · show (1 : ℚ) ≤ 3
    norm_num

end Verif
