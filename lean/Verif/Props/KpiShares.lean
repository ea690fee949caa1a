import Verif.Props.Kpi

/-!
# C46 (levelised cost), C69-C72: shares, capital cost and part-year runs
-/

set_option autoImplicit false

namespace Verif
open FixedOrder Kpi Spec
variable {N : Type}

/-! ## C46 levelised cost of energy -/

/-- With electric heating, or no fuel bill, the levelised cost spreads capital cost, twenty years of
the running cost and the subsidy over twenty years of demand. -/
theorem C46_levelised_cost_partial {C : Calcs N} (h : AllHours C) {hp ts : ℕ}
    (hn : C.name = Para.folderName (hp, ts)) (h0 : C.timesteps ≠ 0)
    (he : C.electric = true ∨ (C.results.map (·.aux.cost)).sum = 0)
    {i : RhiIncome} (hi : rhiIncome C = .ok i) {demand : ℚ}
    (hd : demand = (C.results.map (·.heatDemand.heatDemand)).sum
      + (C.results.map (·.elecDemand.elecDemand)).sum) (hd0 : demand ≠ 0) : ∃ x : ℝ,
    levelisedCostOfEnergy C = .ok (some x) ∧
    x * (demand * (8760 / C.timesteps) * 20) = 1000 * capex hp ts +
      runningCost C.electric C.results * (8760 / C.timesteps) * 20 - i.total := by
  have hpos : (C.timesteps : ℚ) ≠ 0 := by exact_mod_cast h0
  have hne : demand * (8760 / (C.timesteps : ℚ)) * 20 ≠ 0 := by positivity
  have hneR : ((demand * (8760 / (C.timesteps : ℚ)) * 20 : ℚ) : ℝ) ≠ 0 := by exact_mod_cast hne
  have hz : (if C.electric then (0 : ℚ) else 999 / 1000000 * (C.results.map (·.aux.cost)).sum) = 0 := by
    rcases he with he | he
    · rw [he]; rfl
    · rw [he]; simp
  have e : levelisedCostOfEnergy C = .ok (npDivR ((capex hp ts * 1000 +
      ((runningCost C.electric C.results / 1000 * 1000 * (8760 / C.timesteps) * 20 : ℚ) : ℝ)) - (i.total : ℝ))
      ((demand * (8760 / C.timesteps) * 20 : ℚ) : ℝ)) := by
    unfold levelisedCostOfEnergy sumHd sumEd
    rw [energyCost_eq h, capitalCost_eq hn, hi, total_ok h, total_ok h, yearFactor, if_neg h0, hz, hd,
      add_zero]
    rfl
  rw [e]
  unfold npDivR
  rw [if_neg hneR]
  refine ⟨_, rfl, ?_⟩
  have hcast : (demand : ℝ) * (8760 / (C.timesteps : ℝ)) * 20 =
      ((demand * (8760 / (C.timesteps : ℚ)) * 20 : ℚ) : ℝ) := by push_cast; ring
  rw [hcast, div_mul_cancel₀ _ hneR]
  push_cast
  ring

example : ∃ (C : Calcs Unit) (i : RhiIncome), AllHours C ∧ C.name = Para.folderName (12, 1000) ∧
    C.timesteps = 1 ∧ C.electric = true ∧ rhiIncome C = .ok i ∧
    (C.results.map (·.heatDemand.heatDemand)).sum = 30 :=
  ⟨sampleCalcs [{ heatDemand := { heatDemand := 30 }, hp := { heatTotalOutput := 30 } }] 1, ⟨3, 21⟩,
    rfl, by decide +kernel, rfl, rfl, by decide +kernel, by decide +kernel⟩

/-! ## C69 renewable shares -/

/-- The heat pump makes at least COP times the renewable and imported electricity it reports. -/
theorem step_pump_heat {P : Plant N} {i : StepIn N} (H : StepOk P i) {b : Bool} {order : List ℤ}
    (hnd : order.Nodup) (hs : SafeOrder b order) {r : Results N} (h : step P i b order = .ok r) :
    r.hp.cop = i.perf.cop ∧
    r.hp.cop * (r.hp.elecResUsage + r.hp.elecImportUsage) ≤ r.hp.heatTotalOutput := by
  obtain ⟨c, r1, hd, hm⟩ := step_ok h
  obtain ⟨ps, r0, nodes, hf, hl, hr, hcr, -⟩ := dispatch_facts H hnd hd
  have hcop : r1.hp.cop = i.perf.cop := by subst hr; exact hl.frame.cop
  have hc := H.cop_pos
  have hnn := C21_dispatch_nonneg H hnd hs hd
  have hes := hnn.hpHeat.2.2.2.2.2.2.2
  have key : r1.hp.cop * (r1.hp.elecResUsage + r1.hp.elecImportUsage) ≤ r1.hp.heatTotalOutput := by
    rw [hcop]
    obtain ⟨t1, t2, t3, t4, t5, t6⟩ := hcr (safe2_done hf hs.2)
    have g1 : r1.hp.heatTotalOutput = r0.hp.heatFromResToDemand + r0.hp.heatFromImportToDemand
        + r0.hp.heatFromEsToDemand + (r0.hp.heatFromResToTs + r0.hp.heatFromImportToTs) := by
      subst hr; rfl
    have g2 : r1.hp.elecResUsage = r0.hp.elecFromResToDemand + r0.hp.elecFromResToTs := by
      subst hr; rfl
    have g3 : r1.hp.elecImportUsage = r0.hp.elecFromImportToDemand + r0.hp.elecFromImportToTs := by
      subst hr; rfl
    have g4 : r1.hp.heatFromEsToDemand = r0.hp.heatFromEsToDemand := by subst hr; rfl
    rw [g1, g2, g3]
    nlinarith
  rcases rule_outcome hm with ⟨rfl, _⟩ | ⟨_, hu, rfl⟩ | ⟨_, _, _, rfl⟩ | ⟨_, _, _, _, _, rfl⟩
  · exact ⟨hcop, key⟩
  · refine ⟨hcop, ?_⟩
    dsimp only
    have hne : r1.hp.cop ≠ 0 := by rw [hcop]; exact hc.ne'
    have : r1.hp.cop * ((minOut P i - r1.hp.heatTotalOutput) / r1.hp.cop) =
        minOut P i - r1.hp.heatTotalOutput := mul_div_cancel₀ _ hne
    linarith
  · exact ⟨hcop, by simp [zeroHp]⟩
  · exact ⟨hcop, by simp [zeroHp]⟩

/-- The same for every hour of a run, with the signs needed below. -/
theorem run_pump_heat {S : RunIn N} (H : RunOk S) (hord : OrdersOk S) {first n : ℕ}
    {rs : List (Results N)} (h : runTimesteps S first n = .ok rs) {r : Results N} (hr : r ∈ rs) :
    0 ≤ r.hp.elecResUsage * r.hp.cop ∧ 0 ≤ r.hp.elecImportUsage * r.hp.cop ∧
    r.hp.elecResUsage * r.hp.cop + r.hp.elecImportUsage * r.hp.cop ≤ r.hp.heatTotalOutput := by
  have hf := C21_run_flows_nonneg H hord h hr
  obtain ⟨_, _, _, _, heat, price, row, perf, gen, wnd, pv, elec, r0, ho, hsp, hst⟩ :=
    run_mem H h hr
  obtain ⟨hnd, hsafe⟩ := hour_order hord price
  obtain ⟨h1, h2⟩ := step_pump_heat hst hnd hsafe ho.stepEq
  have hc : 0 ≤ r0.hp.cop := by rw [h1]; exact hst.cop_pos.le
  have e : r.hp = r0.hp := by rw [ho.resultEq]; rfl
  have k1 := hf.hpElec.2.1
  have k2 := hf.hpElec.2.2.1
  rw [e] at k1 k2 ⊢
  exact ⟨mul_nonneg k1 hc, mul_nonneg k2 hc, by linarith⟩

/-- What the wind-farm indicators add up lies between nothing and the sum over all hours. -/
theorem gridRes_bounds {C : Calcs N} (h : AllHours C) {f : Results N → ℚ}
    (hf : ∀ r ∈ C.results, 0 ≤ f r) {x : ℚ} (hx : gridRes C f = .ok x) :
    0 ≤ x ∧ x ≤ (C.results.map f).sum := by
  have hs : 0 ≤ (C.results.map f).sum := sum_map_nonneg hf
  have key : ∀ {power : List ℚ} {band : ℚ} {xs : List ℚ},
      (List.range C.timesteps).mapM (fun i => do
        let p ← Tariff.position power i
        if p ≥ band then f <$> result C i else .ok 0) = .ok xs →
      0 ≤ xs.sum ∧ xs.sum ≤ (C.results.map f).sum := by
    intro power band xs hxs
    have hlen : xs.length = C.results.length := by
      rw [mapM_length hxs, List.length_range]; exact h.symm
    have hget : List.Forall₂ (fun y z => 0 ≤ y ∧ y ≤ z) xs (C.results.map f) := by
      rw [List.forall₂_iff_get]
      refine ⟨by simpa using hlen, fun i h1 h2 => ?_⟩
      have hi : i < C.results.length := by omega
      obtain ⟨y, hy, hfy⟩ := mapM_range_get hxs (t := i)
        (by rw [← show C.results.length = C.timesteps from h]; exact hi)
      rw [List.getElem?_eq_getElem h1] at hy
      simp only [List.get_eq_getElem, List.getElem_map]
      have hy' : xs[i] = y := Option.some.inj hy
      rw [hy']
      have hnn := hf _ (List.getElem_mem hi)
      rw [except_bind_ok] at hfy
      obtain ⟨p, -, hfy⟩ := hfy
      split_ifs at hfy
      · rw [result_ok hi] at hfy
        have : f C.results[i] = y := Except.ok.inj hfy
        rw [← this]
        exact ⟨hnn, le_rfl⟩
      · have : (0 : ℚ) = y := Except.ok.inj hfy
        rw [← this]
        exact ⟨le_rfl, hnn⟩
    clear hlen hxs
    generalize C.results.map f = zs at hget
    induction hget with
    | nil => simp
    | cons h1 _ ih => simp only [List.sum_cons]; exact ⟨by linarith [h1.1, ih.1], by linarith [h1.2, ih.2]⟩
  unfold gridRes at hx
  split_ifs at hx
  · cases hx; exact ⟨le_rfl, hs⟩
  · cases hx; exact ⟨le_rfl, hs⟩
  · cases hx; exact ⟨le_rfl, hs⟩
  · simp only [except_bind_ok, except_pure_ok] at hx
    obtain ⟨farm, -, xs, hxs, rfl⟩ := hx
    exact key hxs

/-- A quotient of parts by a whole is a percentage. -/
theorem percent_of {a b : ℚ} {x : ℚ} (h0 : 0 ≤ a) (h1 : a ≤ b)
    (h : (npDiv a b).map (· * 100) = some x) : 0 ≤ x ∧ x ≤ 100 := by
  unfold npDiv at h
  split_ifs at h with hb
  · simp at h
  have h := Option.some.inj h
  have hb' : 0 < b := lt_of_le_of_ne (le_trans h0 h1) (Ne.symm hb)
  have : a / b ≤ 1 := (div_le_one hb').mpr h1
  have : 0 ≤ a / b := div_nonneg h0 hb'.le
  subst h
  constructor <;> linarith

/-- The share of the heat pump's heat from renewable electricity is a percentage, in every run and
under every tariff. -/
theorem C69_pump_share {S : RunIn N} (H : RunOk S) (hord : OrdersOk S) {first n : ℕ} {C : Calcs N}
    (h : OfRun S first n C) {x : ℚ} (hx : hpMetRes C = .ok (some x)) : 0 ≤ x ∧ x ≤ 100 := by
  unfold hpMetRes sumHpOutput hpFromLocalRes hpFromGridRes at hx
  rw [total_ok h.all, total_ok h.all] at hx
  simp only [except_bind_ok, except_pure_ok, Except.ok.injEq] at hx
  obtain ⟨_, rfl, _, rfl, g, hg, hx⟩ := hx
  obtain ⟨g1, g2⟩ := gridRes_bounds h.all (fun r hr => (run_pump_heat H hord h.1 hr).2.1) hg
  refine percent_of ?_ ?_ hx
  · have := sum_map_nonneg fun r hr => (run_pump_heat H hord h.1 hr).1
    linarith
  · have := sum_le_sum_map fun r hr => (run_pump_heat H hord h.1 hr).2.2
    rw [sum_map_add'] at this
    linarith

example : ∃ rs, OfRun sampleRun 10 24 (sampleCalcs rs 24) ∧ ∀ x, hpMetRes (sampleCalcs rs 24) = .ok (some x) →
    0 ≤ x ∧ x ≤ 100 := by
  obtain ⟨rs, h⟩ := sampleCalcs_ofRun 10 24 (by norm_num)
  exact ⟨rs, h, fun x hx => C69_pump_share sampleRun_ok sampleRun_orders h hx⟩

/-- What the auxiliary reports, when the minimum output rule never interferes. -/
theorem run_aux_heat {S : RunIn N} (H : RunOk S) (hord : OrdersOk S) (hmin : S.hp.minimumOutput = 0)
    {first n : ℕ} {rs : List (Results N)} (h : runTimesteps S first n = .ok rs) {r : Results N}
    (hr : r ∈ rs) : 0 ≤ r.res.aux ∧ r.res.aux ≤ r.aux.demand := by
  have hf := C21_run_flows_nonneg H hord h hr
  obtain ⟨_, _, _, _, heat, price, row, perf, gen, wnd, pv, elec, r0, ho, hsp, hst⟩ :=
    run_mem H h hr
  obtain ⟨hnd, hsafe⟩ := hour_order hord price
  obtain ⟨c, r1, hd, hm⟩ := step_ok ho.stepEq
  have e : r.res.aux = r.aux.resToDemand + r.aux.resToTs := by rw [ho.resultEq]; rfl
  have e2 : r.aux = r0.aux := by rw [ho.resultEq]; rfl
  have hmo : ∀ i : StepIn N, minOut (plant S) i = 0 := by
    intro i; unfold minOut; rw [show (plant S).hp = S.hp from rfl, hmin]; ring
  have htrig : ∀ b, 0 ≤ minTrigger b := by intro b; unfold minTrigger; split_ifs <;> norm_num
  have habs : ∀ b : Bool, ∀ i : StepIn N, ¬ (r1.hp.heatTotalOutput < minOut (plant S) i ∧
      r1.hp.heatTotalOutput > minTrigger b) := by
    intro b i hu; rw [hmo] at hu; linarith [htrig b, hu.1, hu.2]
  have h10 : r0 = r1 := by
    rcases rule_outcome hm with ⟨h1, _⟩ | ⟨_, hu, _⟩ | ⟨_, hu, _, _⟩ | ⟨_, _, hu, _, _, _⟩
    · exact h1
    · exact absurd hu (habs _ _)
    · exact absurd hu (habs _ _)
    · exact absurd hu (habs _ _)
  have ha := hf.aux
  rw [e]
  refine ⟨add_nonneg ha.2.1 ha.2.2, ?_⟩
  rw [e2, h10]
  obtain ⟨ps, r', nodes, hf', hl, hr', -, -⟩ := dispatch_facts hst hnd hd
  obtain ⟨n1, n2, n3, n4, n5, n6, n7, n8, n9, n10, n11, n12, n13, n14, n15, n16, n17, n18, n19⟩ :=
    hl.nonneg (safe2_done hf' hsafe.2) (safe1_done hf' hsafe.1)
  subst hr'
  simp only [totals2, totals1]
  linarith

/-- The share of all heat from renewable electricity is a percentage, if the heat pump has no minimum
output. -/
theorem C69_heat_share_partial {S : RunIn N} (H : RunOk S) (hord : OrdersOk S)
    (hmin : S.hp.minimumOutput = 0) {first n : ℕ} {C : Calcs N} (h : OfRun S first n C) {x : ℚ}
    (hx : heatMetRes C = .ok (some x)) : 0 ≤ x ∧ x ≤ 100 := by
  unfold heatMetRes sumHpOutput sumAuxOutput heatFromLocalRes heatFromGridRes at hx
  simp only [total_ok h.all] at hx
  simp only [except_bind_ok, except_pure_ok, Except.ok.injEq] at hx
  obtain ⟨_, rfl, _, rfl, _, ⟨_, rfl, _, rfl, rfl⟩, g, hg, hx⟩ := hx
  have hP := fun r hr => run_pump_heat H hord h.1 (r := r) hr
  have hA := fun r hr => run_aux_heat H hord hmin h.1 (r := r) hr
  obtain ⟨g1, g2⟩ := gridRes_bounds h.all (f := fun r => r.aux.demand - r.res.aux
    + r.hp.elecImportUsage * r.hp.cop) (fun r hr => by
      have := (hP r hr).2.1; have := (hA r hr).2; linarith) hg
  refine percent_of ?_ ?_ hx
  · have := sum_map_nonneg fun r hr => (hP r hr).1
    have := sum_map_nonneg fun r hr => (hA r hr).1
    linarith
  · have := sum_le_sum_map fun r hr => (hP r hr).2.2
    rw [sum_map_add'] at this
    rw [sum_map_add', sum_map_sub'] at g2
    linarith

example : ∃ rs, OfRun { sampleRun with hp := { sampleRun.hp with minimumOutput := 0 } } 0 24
    (sampleCalcs rs 24) ∧ RunOk { sampleRun with hp := { sampleRun.hp with minimumOutput := 0 } } := by
  obtain ⟨rs, h⟩ := C27_accepts_span_inside_year
    (S := { sampleRun with hp := { sampleRun.hp with minimumOutput := 0 } })
    ⟨sampleRun_fullYear.1, sampleRun_fullYear.2, sampleRun_fullYear.3, sampleRun_fullYear.4,
      sampleRun_fullYear.5, sampleRun_fullYear.6, sampleRun_fullYear.7⟩ ⟨by decide, by decide⟩
    (fun _ _ _ => ⟨_, rfl⟩) (fun _ _ _ _ _ => ⟨_, rfl⟩) (first := 0) (n := 24) (by norm_num)
  exact ⟨rs, ⟨h, rfl⟩, ⟨sampleRun_ok.1, sampleRun_ok.2, sampleRun_ok.3, sampleRun_ok.4,
    fun hc => sampleRun_ok.5 hc, sampleRun_ok.6⟩⟩

/-- The share of all demand from renewables is a percentage if no hour takes in more electricity
than it uses and no hour sells more than it generates. -/
theorem C69_demand_share_partial {C : Calcs N} (h : AllHours C)
    (hin : ∀ r ∈ C.results, r.res.generationTotal - r.grid.totalExport + r.grid.totalImport ≤
      r.hp.elecTotalUsage + r.aux.demand + r.elecDemand.elecDemand)
    (hexp : ∀ r ∈ C.results, r.grid.totalExport ≤ r.res.generationTotal)
    (himp : ∀ r ∈ C.results, 0 ≤ r.grid.totalImport) {x : ℚ}
    (hx : demandMetRes C = .ok (some x)) : 0 ≤ x ∧ x ≤ 100 := by
  unfold demandMetRes sumHpUsage sumAuxOutput sumEd totalResUsed totalResSelfConsumption gridResUsed
    Kpi.sumRes sumExport at hx
  simp only [total_ok h] at hx
  simp only [except_bind_ok, except_pure_ok, Except.ok.injEq] at hx
  obtain ⟨_, rfl, _, rfl, _, rfl, _, ⟨g, hg, _, ⟨_, rfl, _, rfl, rfl⟩, rfl⟩, hx⟩ := hx
  obtain ⟨g1, g2⟩ := gridRes_bounds h himp hg
  have h1 := sum_le_sum_map hin
  have h2 := sum_le_sum_map hexp
  simp only [sum_map_add', sum_map_sub'] at h1
  set D := (C.results.map fun r => r.hp.elecTotalUsage).sum + (C.results.map fun r => r.aux.demand).sum
    + (C.results.map fun r => r.elecDemand.elecDemand).sum with hD
  unfold npDiv at hx
  split_ifs at hx with hb
  · simp at hx
  have hx := Option.some.inj hx
  dsimp only at hx
  have hge : 0 ≤ D := by linarith
  have hb' : 0 < D := lt_of_le_of_ne hge (Ne.symm hb)
  have e : ∀ u : ℚ, (1 - (D - u) / D) * 100 = u / D * 100 := by
    intro u; field_simp; ring
  rw [e] at hx
  refine percent_of (a := g + ((C.results.map fun r => r.res.generationTotal).sum
    - (C.results.map fun r => r.grid.totalExport).sum)) (b := D) (by linarith) (by linarith) ?_
  unfold npDiv
  rw [if_neg hb, Option.map_some, hx]

example : ∃ x, demandMetRes (sampleCalcs (N := Unit) [{ res := { generationTotal := 9 }, grid := { totalExport := 3, totalImport := 1 }, hp := { elecTotalUsage := 4 }, elecDemand := { elecDemand := 5 } }] 1) = .ok (some x) ∧
    0 ≤ x ∧ x ≤ 100 := by
  obtain ⟨x, h, hx⟩ : ∃ x, demandMetRes (sampleCalcs (N := Unit) [{ res := { generationTotal := 9 }, grid := { totalExport := 3, totalImport := 1 }, hp := { elecTotalUsage := 4 }, elecDemand := { elecDemand := 5 } }] 1) = .ok x ∧ x.isSome :=
    exists_of_checks (by decide +kernel)
  obtain ⟨y, rfl⟩ := Option.isSome_iff_exists.1 hx
  exact ⟨y, h, C69_demand_share_partial (C := sampleCalcs (N := Unit) [{ res := { generationTotal := 9 }, grid := { totalExport := 3, totalImport := 1 }, hp := { elecTotalUsage := 4 }, elecDemand := { elecDemand := 5 } }] 1) rfl
    (by decide +kernel) (by decide +kernel) (by decide +kernel) h⟩

/-- An hour that stores 5 kWh of wind in the battery and uses 1 kWh: 600 % of the demand is
renewable. -/
theorem C69_demand_share_exceeds_100 : ∃ r, step samplePlant { sampleStep with heatDemand := 0 } false
      [12] = .ok r ∧
    demandMetRes (sampleCalcs [complete ⟨5, 5, 0, 1⟩ 6 6 0 1 0 r] 1) = .ok (some 600) :=
  exists_of_checks (by decide +kernel)

/-- A gas boiler counts as renewable heat in a windy hour. -/
theorem C69_boiler_counts_as_renewable : ∃ r, step
    { samplePlant with aux := { electric := false, efficiency := 1, cost := 40, energyDensity := 5 } }
      sampleStep2 false [9] = .ok r ∧ r.hp.heatTotalOutput = 0 ∧
    heatMetRes { sampleCalcs [complete ⟨-6, 0, 6, 0⟩ 0 0 0 6 30 r] 1 with
      electric := false, tariff := "Time of use - PPA + FR", farmPower := [9, 5, 3, 1] }
        = .ok (some 100) :=
  exists_of_checks (by decide +kernel)

/-- A tank with room for 4.5 kWh and nothing to give. -/
def Spec.smallTank : TankI Unit :=
  { sampleTank with maxInOut := fun _ s _ => .ok (match s with | .charging => 9 / 2 | _ => 0) }

/-- When the heat pump is switched off, the surplus heat of the electric heater stays in the report
but the heat it is compared with does not: 500 % of the heat is renewable. -/
theorem C69_heat_share_exceeds_100 : ∃ r, step
    { samplePlant with tank := smallTank }
      { sampleStep with heatDemand := 1, surplus := 5 } false [8, 11] = .ok r ∧
    heatMetRes (sampleCalcs [complete ⟨5, 5, 0, 0⟩ 5 5 0 0 1 r] 1) = .ok (some 450) :=
  exists_of_checks (by decide +kernel)

/-! ## C70 renewable import is counted in the hours simulated -/

/-- The grid whose wind farm the indicators look at. -/
def Spec.farmGrid (C : Calcs N) : Tariff.Grid :=
  { tariff := C.tariff, lowerPercent := some C.lowerPercent, higherPercent := some C.higherPercent }

/-- Starting at hour 0, the indicators on renewable grid electricity add up the amounts of exactly the
hours in which the wind farm yields at least its higher band. -/
theorem C70_windy_hours_partial {C : Calcs N} (h : AllHours C)
    (ht : C.tariff ∈ ["Time of use - PPA + FR", "Time of use - PPA + WM", "Time of use - PPA + VP"])
    {farm : Tariff.WindFarm} (hf : Tariff.windFarmInfo (farmGrid C) C.farmPower = .ok farm)
    (hlen : C.timesteps ≤ C.farmPower.length) (f : Results N → ℚ) :
    gridRes C f = .ok (overWindyHours C.farmPower farm.higherBand 0 f C.results) := by
  have hp : farm.power = C.farmPower := by
    unfold Tariff.windFarmInfo at hf
    simp only [except_bind_ok, except_pure_ok] at hf
    obtain ⟨_, -, _, -, rfl⟩ := hf
    rfl
  have e : (List.range C.timesteps).mapM (fun i => do
      let p ← Tariff.position farm.power i
      if p ≥ farm.higherBand then f <$> result C i else .ok 0) =
      .ok (C.results.mapIdx fun k r =>
        if farm.higherBand ≤ C.farmPower.getD (0 + k) 0 then f r else 0) := by
    rw [mapM_ok_iff, List.forall₂_iff_get]
    refine ⟨by simpa using h.symm, fun i h1 h2 => ?_⟩
    have hi : i < C.results.length := by simpa using h2
    have hi' : i < C.farmPower.length := lt_of_lt_of_le (by simpa using h1) hlen
    simp only [List.get_eq_getElem, List.getElem_range, List.getElem_mapIdx, zero_add]
    rw [hp, Tariff.position, List.getElem?_eq_getElem hi', List.getD_eq_getElem _ _ hi', result_ok hi]
    show (if C.farmPower[i] ≥ farm.higherBand then f <$> Except.ok C.results[i] else .ok 0) = _
    by_cases hb : farm.higherBand ≤ C.farmPower[i]
    · rw [if_pos hb, if_pos hb]; rfl
    · rw [if_neg hb, if_neg hb]
  unfold gridRes
  rw [if_neg (by rintro h'; rw [h'] at ht; revert ht; decide),
    if_neg (by rintro h'; rw [h'] at ht; revert ht; decide),
    if_neg (by rintro h'; rw [h'] at ht; revert ht; decide), if_pos (by simpa using ht)]
  unfold farmGrid at hf
  rw [hf]
  show (do let xs ← (List.range C.timesteps).mapM _; (Except.ok xs.sum : Except PyErr ℚ)) = _
  rw [e]
  rfl

example : ∃ x, gridRes { sampleCalcs (N := Unit) [{ grid := { totalImport := 4 } }, { grid := { totalImport := 5 } }] 2 with
    tariff := "Time of use - PPA + FR", farmPower := [10, 1, 2, 3], higherPercent := 1 / 2, lowerPercent := 1 / 4 }
      (fun r => r.grid.totalImport) = .ok x := by
  obtain ⟨farm, hf, -⟩ : ∃ farm, Tariff.windFarmInfo (farmGrid { sampleCalcs (N := Unit) [{ grid := { totalImport := 4 } }, { grid := { totalImport := 5 } }] 2 with
    tariff := "Time of use - PPA + FR", farmPower := [10, 1, 2, 3], higherPercent := 1 / 2, lowerPercent := 1 / 4 }) [10, 1, 2, 3] = .ok farm ∧ True :=
    exists_of_checks (by decide +kernel)
  exact ⟨_, C70_windy_hours_partial (C := { sampleCalcs (N := Unit) [{ grid := { totalImport := 4 } }, { grid := { totalImport := 5 } }] 2 with
    tariff := "Time of use - PPA + FR", farmPower := [10, 1, 2, 3], higherPercent := 1 / 2, lowerPercent := 1 / 4 })
    rfl (by simp) hf (by decide) _⟩

/-- The tariffs without a wind farm count nothing. -/
theorem C70_other_tariffs {C : Calcs N}
    (ht : C.tariff ∈ ["Flat rates", "Variable periods", "Time of use - WM"]) (f : Results N → ℚ) :
    gridRes C f = .ok 0 := by
  unfold gridRes
  simp only [List.mem_cons, List.not_mem_nil, or_false] at ht
  rcases ht with ht | ht | ht <;> simp [ht]

example : gridRes (sampleCalcs (N := Unit) [{ grid := { totalImport := 4 } }] 1) (fun r => r.grid.totalImport) = .ok 0 :=
  C70_other_tariffs (by simp [sampleCalcs]) _

/-- Starting later, they look at the wind of the wrong hours: hours 1 and 2 are simulated, the wind
blows in hours 0 and 1, all import happens in hour 2 and is counted as renewable. -/
theorem C70_wrong_hours : ∃ (C : Calcs Unit) (first : ℕ) (band : ℚ), first = 1 ∧ AllHours C ∧
    (Tariff.windFarmInfo (farmGrid C) C.farmPower).map (·.higherBand) = .ok band ∧
    C.farmPower = [9, 8, 0, 0] ∧ C.results.map (·.grid.totalImport) = [0, 5] ∧
    gridResUsed C = .ok 5 ∧
    overWindyHours C.farmPower band first (·.grid.totalImport) C.results = 0 :=
  ⟨{ sampleCalcs [{}, { grid := { totalImport := 5 } }] 2 with
      tariff := "Time of use - PPA + FR", farmPower := [9, 8, 0, 0] }, 1, 8, rfl, rfl,
    by decide +kernel, rfl, rfl, by decide +kernel, by decide +kernel⟩

/-! ## C71 capital cost -/

/-- The cost of the store grows like its volume to the power 0.499. -/
theorem store_cost {ts : ℝ} (h : 0 < ts) :
    ts * tsCalc ts = 7479100 * (ts / 1000) ^ (499 / 1000 : ℝ) := by
  unfold tsCalc
  rw [if_neg (not_le.mpr h)]
  have hx : 0 < ts / 1000 := by positivity
  have e : (499 / 1000 : ℝ) = 1 + -(501 / 1000) := by norm_num
  rw [e, Real.rpow_add hx, Real.rpow_one]
  ring

theorem tsCalc_nonneg (ts : ℝ) : 0 ≤ tsCalc ts := by
  unfold tsCalc
  split_ifs with h
  · exact le_rfl
  · have : 0 ≤ (ts / 1000) ^ (-(501 / 1000) : ℝ) := Real.rpow_nonneg (by linarith) _
    positivity

/-- The capital cost is never negative; without a store it is 600 pounds per kW. -/
theorem C71_nonneg {hp ts : ℝ} (h : 0 ≤ hp) (h' : 0 ≤ ts) :
    0 ≤ capex hp ts ∧ capex hp 0 = 600 * hp / 1000 := by
  have := tsCalc_nonneg ts
  refine ⟨by unfold capex; positivity, ?_⟩
  unfold capex
  ring

example : 0 ≤ capex 12 1000 ∧ capex 12 0 = 600 * 12 / 1000 := C71_nonneg (by norm_num) (by norm_num)

/-- A larger heat pump, or a larger store, costs more. -/
theorem C71_larger_costs_more {hp hp' ts ts' : ℝ} (h0 : 0 ≤ ts) (hp1 : hp ≤ hp') (ht : ts ≤ ts')
    (hne : hp < hp' ∨ ts < ts') : capex hp ts < capex hp' ts' := by
  have key : ts * tsCalc ts ≤ ts' * tsCalc ts' ∧ (ts < ts' → ts * tsCalc ts < ts' * tsCalc ts') := by
    rcases h0.eq_or_lt with h | h
    · subst h
      rw [zero_mul]
      refine ⟨mul_nonneg ht (tsCalc_nonneg _), fun hlt => ?_⟩
      rw [store_cost hlt]
      have : 0 < (ts' / 1000) ^ (499 / 1000 : ℝ) := Real.rpow_pos_of_pos (by positivity) _
      positivity
    · have h' : 0 < ts' := lt_of_lt_of_le h ht
      rw [store_cost h, store_cost h']
      refine ⟨?_, fun hlt => ?_⟩
      · have : (ts / 1000) ^ (499 / 1000 : ℝ) ≤ (ts' / 1000) ^ (499 / 1000 : ℝ) :=
          Real.rpow_le_rpow (by positivity) (by linarith) (by norm_num)
        linarith
      · have : (ts / 1000) ^ (499 / 1000 : ℝ) < (ts' / 1000) ^ (499 / 1000 : ℝ) :=
          Real.rpow_lt_rpow (by positivity) (by linarith) (by norm_num)
        linarith
  unfold capex
  rcases hne with hne | hne
  · have := key.1; linarith
  · have := key.2 hne; linarith

example : capex 12 1000 < capex 12 2000 := C71_larger_costs_more (by norm_num) le_rfl (by norm_num) (Or.inr (by norm_num))

/-- The larger the store, the cheaper each cubic metre. -/
theorem C71_bulk_discount {ts ts' : ℝ} (h0 : 0 < ts) (ht : ts < ts') : tsCalc ts' < tsCalc ts := by
  unfold tsCalc
  rw [if_neg (not_le.mpr h0), if_neg (not_le.mpr (h0.trans ht))]
  have : (ts' / 1000) ^ (-(501 / 1000) : ℝ) < (ts / 1000) ^ (-(501 / 1000) : ℝ) :=
    Real.rpow_lt_rpow_of_neg (by positivity) (by linarith) (by norm_num)
  linarith

example : tsCalc 2000 < tsCalc 1000 := C71_bulk_discount (by norm_num) (by norm_num)

/-- The capital cost of a combination is that of the sizes in its name. -/
theorem C71_of_combination {C : Calcs N} {hp ts : ℕ} (hn : C.name = Para.folderName (hp, ts)) :
    capitalCost C = .ok (capex hp ts) := capitalCost_eq hn

example : (sampleCalcs (N := Unit) [] 0).name = Para.folderName (12, 1000) := by decide +kernel

/-- A cubic metre of store with a 12 kW heat pump costs 7200 + 7479.1 pounds. -/
example : capex 12 1000 = (7200 + 74791 / 10) / 1000 := by
  unfold capex tsCalc
  norm_num

/-! ## C72 part of a year -/

theorem repeated_running (k : ℕ) (C : Calcs N) :
    runningCost (repeated k C).electric (repeated k C).results =
      k * runningCost C.electric C.results := by
  unfold runningCost repeated
  simp only [sum_flatten_replicate]
  split_ifs <;> ring

/-- Simulating the same period `k` times over instead of once does not change the lifetime cost. -/
theorem C72_lifetime_cost {C : Calcs N} (h : AllHours C) {hp ts : ℕ}
    (hn : C.name = Para.folderName (hp, ts)) (h0 : C.timesteps ≠ 0) {k : ℕ} (hk : k ≠ 0) :
    lifetimeCost (repeated k C) = lifetimeCost C := by
  rw [lifetimeCost_eq h hn h0, lifetimeCost_eq (repeated_all h) hn (by simp [repeated, h0, hk]),
    repeated_running]
  have e : ((repeated k C).results.map (·.aux.cost)).sum = k * (C.results.map (·.aux.cost)).sum :=
    sum_flatten_replicate _ _ _
  have e2 : (repeated k C).electric = C.electric := rfl
  have e3 : ((repeated k C).timesteps : ℚ) = k * C.timesteps := by simp [repeated]
  rw [e, e2, e3]
  have hk' : (k : ℚ) ≠ 0 := by exact_mod_cast hk
  have h0' : (C.timesteps : ℚ) ≠ 0 := by exact_mod_cast h0
  congr 3
  split_ifs <;> (field_simp; try ring)

/-- Nor the days of demand the store holds. -/
theorem C72_days_of_storage {C : Calcs N} (h : AllHours C) {k : ℕ} (hk : k ≠ 0) :
    daysStorageContent (repeated k C) = daysStorageContent C := by
  have hk' : (k : ℚ) ≠ 0 := by exact_mod_cast hk
  unfold daysStorageContent sumHd
  rw [total_repeated h, total_ok h]
  have e2 : (repeated k C).name = C.name := rfl
  have e3 : ((repeated k C).timesteps : ℚ) = k * C.timesteps := by simp [repeated]
  rw [e2, e3]
  have e : npDiv (k * (C.results.map (·.heatDemand.heatDemand)).sum) (365 * (k * C.timesteps / 8760)) =
      npDiv (C.results.map (·.heatDemand.heatDemand)).sum (365 * (C.timesteps / 8760)) := by
    unfold npDiv
    by_cases h0 : (C.timesteps : ℚ) = 0
    · rw [h0]; simp
    · rw [if_neg (by positivity), if_neg (by positivity)]
      congr 1
      field_simp
  show (do let c ← Para.numberAt C.name 1; _) = (do let c ← Para.numberAt C.name 1; _)
  rw [e]

example (r : Results Unit) : lifetimeCost (repeated 3 (sampleCalcs [r] 1)) = lifetimeCost (sampleCalcs [r] 1) ∧
    daysStorageContent (repeated 3 (sampleCalcs [r] 1)) = daysStorageContent (sampleCalcs [r] 1) :=
  ⟨C72_lifetime_cost (C := sampleCalcs [r] 1) rfl (hp := 12) (ts := 1000)
    (show (sampleCalcs (N := Unit) [] 0).name = _ by decide +kernel) (show (1 : ℕ) ≠ 0 by decide) (by decide),
    C72_days_of_storage (C := sampleCalcs [r] 1) rfl (by decide)⟩

/-- But with a subsidy the levelised cost of heat does change: it sets the subsidy of the simulated
period, counted 7 or 20 times, against 20 years of everything else. -/
theorem C72_levelised_cost_depends_on_span {C : Calcs N} (h : AllHours C) {hp ts : ℕ}
    (hn : C.name = Para.folderName (hp, ts)) (h0 : C.timesteps ≠ 0)
    (hfix : C.rhi.tariffType = "Fixed") (hdom : C.rhi.rhiType = "Domestic")
    (hrate : C.rhi.fixedRate ≠ 0) (hheat : pumpHeat C.results ≠ pumpElec C.results)
    (hd : (C.results.map (·.heatDemand.heatDemand)).sum ≠ 0) {k : ℕ} (hk : 2 ≤ k) : ∃ x y,
    levelisedCostOfHeat C = .ok (some x) ∧ levelisedCostOfHeat (repeated k C) = .ok (some y) ∧
    x ≠ y := by
  have hk' : (k : ℚ) ≠ 0 := by exact_mod_cast (by omega : k ≠ 0)
  have h0' : (C.timesteps : ℚ) ≠ 0 := by exact_mod_cast h0
  have hk0 : (repeated k C).timesteps ≠ 0 := by
    show k * C.timesteps ≠ 0
    exact Nat.mul_ne_zero (by omega) h0
  obtain ⟨c, hc, hc'⟩ : ∃ c, Kpi.heatCost C = .ok c ∧ Kpi.heatCost (repeated k C) = .ok (k * c) := by
    unfold Kpi.heatCost
    have : (repeated k C).electric = C.electric := rfl
    rw [this]
    split_ifs
    · exact ⟨_, total_ok h _, total_repeated h _⟩
    · exact ⟨_, total_ok h _, total_repeated h _⟩
  set p := pumpHeat C.results - pumpElec C.results with hp'
  have hr := (C45_income h hn ((C45_rates C.rhi p hp).2 hfix)).1 hdom
  have hpk : pumpHeat (repeated k C).results - pumpElec (repeated k C).results = k * p := by
    rw [hp']
    unfold pumpHeat pumpElec repeated
    simp only [sum_flatten_replicate]
    ring
  have hrk := (C45_income (repeated_all (k := k) h) hn
    ((C45_rates C.rhi _ hp).2 hfix)).1 hdom
  rw [hpk] at hrk
  set D := (C.results.map (·.heatDemand.heatDemand)).sum with hD
  have e1 : levelisedCostOfHeat C = .ok (npDivR ((capex hp ts * 1000 +
      ((c * (8760 / C.timesteps) * 20 : ℚ) : ℝ)) - ((p * C.rhi.fixedRate / 100 * 7 : ℚ) : ℝ))
      ((D * (8760 / C.timesteps) * 20 : ℚ) : ℝ)) := by
    unfold levelisedCostOfHeat sumHd
    rw [hc, capitalCost_eq hn, hr, total_ok h, yearFactor, if_neg h0]
    rfl
  have e2 : levelisedCostOfHeat (repeated k C) = .ok (npDivR ((capex hp ts * 1000 +
      ((k * c * (8760 / (repeated k C).timesteps) * 20 : ℚ) : ℝ))
        - ((k * p * C.rhi.fixedRate / 100 * 7 : ℚ) : ℝ))
      ((k * D * (8760 / (repeated k C).timesteps) * 20 : ℚ) : ℝ)) := by
    unfold levelisedCostOfHeat sumHd
    rw [hc', capitalCost_eq (C := repeated k C) hn, hrk, total_repeated h, yearFactor, if_neg hk0]
    rfl
  have e3 : ((repeated k C).timesteps : ℚ) = k * C.timesteps := by simp [repeated]
  rw [e3] at e2
  have s1 : (k * c * (8760 / (k * C.timesteps)) * 20 : ℚ) = c * (8760 / C.timesteps) * 20 := by
    field_simp
  have s2 : (k * D * (8760 / (k * C.timesteps)) * 20 : ℚ) = D * (8760 / C.timesteps) * 20 := by
    field_simp
  rw [s1, s2] at e2
  have hne : (D * (8760 / C.timesteps) * 20 : ℚ) ≠ 0 := by positivity
  have hneR : ((D * (8760 / C.timesteps) * 20 : ℚ) : ℝ) ≠ 0 := by exact_mod_cast hne
  unfold npDivR at e1 e2
  rw [if_neg hneR] at e1 e2
  refine ⟨_, _, e1, e2, fun hxy => ?_⟩
  rw [div_left_inj' hneR, sub_right_inj] at hxy
  have hxy' : (p * C.rhi.fixedRate / 100 * 7 : ℚ) = k * p * C.rhi.fixedRate / 100 * 7 := by
    exact_mod_cast hxy
  have hp0 : p ≠ 0 := by rw [hp']; exact sub_ne_zero.mpr hheat
  have hpr : p * C.rhi.fixedRate ≠ 0 := mul_ne_zero hp0 hrate
  have hk1 : ((k : ℚ) - 1) * (p * C.rhi.fixedRate) = 0 := by linarith
  rcases mul_eq_zero.mp hk1 with h1 | h1
  · have : (2 : ℚ) ≤ k := by exact_mod_cast hk
    linarith
  · exact hpr h1

/-- An hour with 30 kWh of heat made from 10 kWh of electricity. -/
def Spec.sampleHour : Results Unit :=
  { heatDemand := { heatDemand := 30 }, hp := { heatTotalOutput := 30, elecTotalUsage := 10 } }

/-- An hour with 30 kWh of heat demand met by the heat pump, with a fixed subsidy. -/
example : ∃ C : Calcs Unit, AllHours C ∧ C.name = Para.folderName (12, 1000) ∧ C.timesteps ≠ 0 ∧
    C.rhi.tariffType = "Fixed" ∧ C.rhi.rhiType = "Domestic" ∧ C.rhi.fixedRate ≠ 0 ∧
    pumpHeat C.results ≠ pumpElec C.results ∧
    (C.results.map (·.heatDemand.heatDemand)).sum ≠ 0 :=
  ⟨{ sampleCalcs [sampleHour] 1 with
      rhi := { tariffType := "Fixed", rhiType := "Domestic", fixedRate := 5, tier1 := 0, tier2 := 0 } },
    rfl, by decide +kernel, by decide, rfl, rfl, by decide +kernel, by decide +kernel,
    by decide +kernel⟩

end Verif
