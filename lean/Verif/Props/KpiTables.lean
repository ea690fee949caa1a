import Verif.Model.KpiTables
import Verif.Lemmas.Kpi
import Verif.Props.Para
import Verif.Props.Kpi

/-!
# C88: the tables of the study; C89: the KPI stage completes; C90: the charts of the study
-/

set_option autoImplicit false

namespace Verif
open KpiTables Kpi FixedOrder
variable {N : Type}

/-! ## C88 -/

/-- What the name of a column promises about a combination of sizes (kW, litres). -/
noncomputable def Spec.columnMeaning (column : String) (sizes : ℤ × ℤ) (C : Calcs N) : Except PyErr (Option ℝ) :=
  match column with
  | "hp_sizes" => .ok (some sizes.1)
  | "ts_sizes" => .ok (some (sizes.2 / 1000))
  | "capital_cost" => some <$> capitalCost C
  | "opex" => (fun x : ℚ => some (x : ℝ)) <$> operatingCost C
  | "cost_of_heat" => (Option.map fun x : ℚ => (x : ℝ)) <$> costOfHeat C
  | "cost_elec" => (fun x : ℚ => some (x : ℝ)) <$> costElec C
  | "lifetime_cost" => some <$> lifetimeCost C
  | "levelised_cost_of_heat" => levelisedCostOfHeat C
  | "levelised_cost_of_energy" => levelisedCostOfEnergy C
  | "local_RES_used" => (fun x : ℚ => some (x : ℝ)) <$> resSelfConsumption C
  | "total_RES_self_consumption" => (fun x : ℚ => some (x : ℝ)) <$> totalResSelfConsumption C
  | "grid_RES_used" => (fun x : ℚ => some (x : ℝ)) <$> gridResUsed C
  | "total_RES_used" => (fun x : ℚ => some (x : ℝ)) <$> totalResUsed C
  | "heat_met_RES" => (Option.map fun x : ℚ => (x : ℝ)) <$> heatMetRes C
  | "demand_met_RES" => (Option.map fun x : ℚ => (x : ℝ)) <$> demandMetRes C
  | "HP_met_RES" => (Option.map fun x : ℚ => (x : ℝ)) <$> hpMetRes C
  | "HP_size_ratio" => (Option.map fun x : ℚ => (x : ℝ)) <$> hpSizeRatio C
  | "HP_utilisation" => (Option.map fun x : ℚ => (x : ℝ)) <$> hpUtilisation C
  | "days_storage_content" => (Option.map fun x : ℚ => (x : ℝ)) <$> daysStorageContent C
  | "sum_hp_output" => (fun x : ℚ => some (x : ℝ)) <$> sumHpOutput C
  | "sum_hp_usage" => (fun x : ℚ => some (x : ℝ)) <$> sumHpUsage C
  | "scop" => (Option.map fun x : ℚ => (x : ℝ)) <$> calcScop C
  | "sum_aux_output" => (fun x : ℚ => some (x : ℝ)) <$> sumAuxOutput C
  | "sum_ed_import" => (fun x : ℚ => some (x : ℝ)) <$> sumEdImport C
  | "sum_RES" => (fun x : ℚ => some (x : ℝ)) <$> sumRes C
  | "sum_import" => (fun x : ℚ => some (x : ℝ)) <$> sumImport C
  | "sum_export" => (fun x : ℚ => some (x : ℝ)) <$> sumExport C
  | _ => .error .keyError

/-- The row of a combination: each entry is what the name of its column promises. -/
def Spec.RowOf (columns : List String) (sizes : ℤ × ℤ) (C : Calcs N) (row : List (Option ℝ)) : Prop :=
  List.Forall₂ (fun column v => Spec.columnMeaning column sizes C = .ok v) columns row

/-- Everything the loop computed about one combination. -/
theorem indicators_rows {C : Calcs N} {i : Indicators} (h : indicators C = .ok i) (c : ℤ × ℤ) :
    Spec.RowOf (economic [] []).columns c C [hpSize c, tsSize c, i.capitalCost, i.opex, i.costOfHeat, i.costElec,
      i.lifetimeCost, i.levelisedCostOfHeat, i.levelisedCostOfEnergy] ∧
    Spec.RowOf (technical [] []).columns c C [hpSize c, tsSize c, i.resUsed, i.totalResSelfConsumption,
      i.gridResUsed, i.totalResUsed, i.heatMetRes, i.demandMetRes, i.hpMetRes, i.hpSizeRatio, i.hpUtilisation,
      i.daysStorageContent] ∧
    Spec.RowOf (output [] []).columns c C [hpSize c, tsSize c, i.sumHpOutput, i.sumHpUsage, i.scop, i.sumAuxOutput,
      i.sumEdImport, i.sumRes, i.sumImport, i.sumExport] := by
  unfold indicators at h
  simp only [except_bind_ok, except_pure_ok] at h
  obtain ⟨a1, h1, a2, h2, a3, h3, a4, h4, a5, h5, a6, h6, a7, h7, a8, h8, a9, h9, a10, h10, a11, h11, a12, h12,
    a13, h13, a14, h14, a15, h15, a16, h16, a17, h17, a18, h18, a19, h19, a20, h20, a21, h21, a22, h22, a23, h23,
    a24, h24, a25, h25, rfl⟩ := h
  have e1 : hpSize c = some (c.1 : ℝ) := by simp [hpSize, num]
  have e2 : tsSize c = some ((c.2 : ℝ) / 1000) := by simp [tsSize, num]
  unfold Spec.RowOf
  simp only [economic, technical, output, List.forall₂_cons, Spec.columnMeaning, except_map_ok, e1, e2, h1, h2, h3,
    h4, h5, h6, h7, h8, h9, h10, h11, h12, h13, h14, h15, h16, h17, h18, h19, h20, h21, h22, h23, h24, h25, num,
    numOrNan, List.Forall₂.nil, and_true, true_and]
  simp

/-- Reading gives each combination its own results, under its own name. -/
theorem load_get {pa : Para.Ranges} {outputs : Para.Dir (List (Results N))} {inputs : List Char → Calcs N}
    {S : Study N} (h : load pa outputs inputs = .ok S) : Para.kpiCombos pa = .ok S.combos ∧
    List.Forall₂ (fun c C => ∃ rs, outputs (Para.folderName c) = some rs ∧
      C = { inputs (Para.folderName c) with name := Para.folderName c, results := rs }) S.combos S.calcs := by
  unfold load at h
  split at h
  · cases h
  · rename_i cs hcs
    split at h
    · cases h
    · rename_i rs hrs
      cases Except.ok.inj h
      refine ⟨hcs, ?_⟩
      clear h hcs
      induction cs generalizing rs with
      | nil => cases Except.ok.inj hrs; exact .nil
      | cons c cs ih =>
        unfold Para.readResults at hrs
        split at hrs
        · cases hrs
        · rename_i r hr
          split at hrs
          · cases hrs
          · rename_i rs' hrs'
            cases Except.ok.inj hrs
            exact .cons ⟨r, hr, rfl⟩ (ih rs' hrs')

theorem forall₂_get {α β : Type} {R : α → β → Prop} {xs : List α} {ys : List β} (h : List.Forall₂ R xs ys) {i : ℕ}
    {x : α} (hx : xs[i]? = some x) : ∃ y, ys[i]? = some y ∧ R x y := by
  induction h generalizing i with
  | nil => simp at hx
  | @cons a b _ _ h1 _ ih =>
    cases i with
    | zero =>
      have : a = x := by simpa using hx
      exact ⟨b, by simp, this ▸ h1⟩
    | succ i => simpa using ih (by simpa using hx)

/-- What was written was written by one of the jobs. -/
theorem runJobs_mem {js : List (Except PyErr (List (String × Content)))} {x : String × Content}
    (h : x ∈ (runJobs js).1) : ∃ fs, .ok fs ∈ js ∧ x ∈ fs := by
  induction js with
  | nil => simp [runJobs] at h
  | cons j js ih =>
    cases j with
    | error e => simp [runJobs] at h
    | ok fs =>
      rcases List.mem_append.mp h with h | h
      · exact ⟨fs, List.mem_cons_self, h⟩
      · obtain ⟨fs', h1, h2⟩ := ih h
        exact ⟨fs', List.mem_cons_of_mem _ h1, h2⟩

/-- The study loaded, if anything was written. -/
theorem runKpis_mem {pa : Para.Ranges} {outputs : Para.Dir (List (Results N))} {inputs : List Char → Calcs N}
    {root : String} {x : String × Content} (h : x ∈ (runKpis pa outputs inputs root).1) :
    ∃ S, load pa outputs inputs = .ok S ∧ ∃ fs, .ok fs ∈ jobs S root ∧ x ∈ fs := by
  unfold runKpis at h
  cases hl : load pa outputs inputs with
  | error e => rw [hl] at h; simp at h
  | ok S =>
    rw [hl] at h
    exact ⟨S, rfl, runJobs_mem h⟩

theorem chart_mem {S : Study N} {b : Bool} {f : Calcs N → Except PyErr (Option ℝ)} {z file : String}
    {fs : List (String × Content)} (h : chart S b f z file = .ok fs) : ∃ zs, S.calcs.mapM f = .ok zs ∧
    fs = [(file, .surface
    { xLabel := if b then storeLabel else pumpLabel, yLabel := if b then pumpLabel else storeLabel
      zLabel := z
      points := (if b then (S.combos.map fun c : ℤ × ℤ => (c.2 : ℝ) / 1000).zip (S.combos.map fun c : ℤ × ℤ => (c.1 : ℝ))
        else (S.combos.map fun c : ℤ × ℤ => (c.1 : ℝ)).zip (S.combos.map fun c : ℤ × ℤ => (c.2 : ℝ) / 1000)).zip zs })] := by
  unfold chart at h
  simp only [except_bind_ok, except_pure_ok] at h
  obtain ⟨zs, hz, -, -, h⟩ := h
  exact ⟨zs, hz, h.symm⟩

/-- The files of the tables and their columns. -/
def Spec.tableColumns (root : String) : List (String × List String) :=
  [("KPI_economic_", ["hp_sizes", "ts_sizes", "capital_cost", "opex", "cost_of_heat", "cost_elec", "lifetime_cost",
      "levelised_cost_of_heat", "levelised_cost_of_energy"]),
   ("KPI_technical_", ["hp_sizes", "ts_sizes", "local_RES_used", "total_RES_self_consumption", "grid_RES_used",
      "total_RES_used", "heat_met_RES", "demand_met_RES", "HP_met_RES", "HP_size_ratio", "HP_utilisation",
      "days_storage_content"]),
   ("output_", ["hp_sizes", "ts_sizes", "sum_hp_output", "sum_hp_usage", "scop", "sum_aux_output", "sum_ed_import",
      "sum_RES", "sum_import", "sum_export"])].flatMap fun t =>
    [(t.1 ++ root ++ ".pkl", t.2), (t.1 ++ root ++ ".csv", t.2)]

theorem kpisToCsv_mem {S : Study N} {root : String} {fs : List (String × Content)} (h : kpisToCsv S root = .ok fs) :
    ∃ is, S.calcs.mapM indicators = .ok is ∧ ∀ x ∈ fs, ∃ t, x.2 = .table t ∧ (x.1, t.columns) ∈ Spec.tableColumns root ∧
      (t = economic S.combos is ∨ t = technical S.combos is ∨ t = output S.combos is) := by
  unfold kpisToCsv at h
  simp only [except_bind_ok, except_pure_ok] at h
  obtain ⟨is, his, rfl⟩ := h
  refine ⟨is, his, fun x hx => ?_⟩
  simp only [List.mem_cons, List.not_mem_nil, or_false] at hx
  rcases hx with rfl | rfl | rfl | rfl | rfl | rfl <;>
    exact ⟨_, rfl, by simp [Spec.tableColumns, economic, technical, output], by simp⟩

/-- Every table written is one of the six files, with the columns of that file, and has one row per combination of
sizes, in the order of the study; in the row of a combination each entry is what the name of the column says about that
combination's own results and inputs. -/
theorem C88_tables {pa : Para.Ranges} {outputs : Para.Dir (List (Results N))} {inputs : List Char → Calcs N}
    {root file : String} {t : Table} (h : (file, .table t) ∈ (runKpis pa outputs inputs root).1) :
    (file, t.columns) ∈ Spec.tableColumns root ∧
    ∃ cs, Para.combos pa = .ok cs ∧ t.rows.length = cs.length ∧
      ∀ (i : ℕ) (c : ℤ × ℤ), cs[i]? = some c → ∃ rs row, outputs (Para.folderName c) = some rs ∧
        t.rows[i]? = some row ∧ Spec.RowOf t.columns c
          { inputs (Para.folderName c) with name := Para.folderName c, results := rs } row := by
  obtain ⟨S, hl, fs, hfs, hx⟩ := runKpis_mem h
  obtain ⟨hcs, hf⟩ := load_get hl
  have hk : kpisToCsv S root = .ok fs := by
    simp only [jobs, List.mem_cons, List.not_mem_nil, or_false] at hfs
    rcases hfs with e | e | e | e | e | e | e | e | e
    · exact e.symm
    all_goals
      obtain ⟨zs, -, rfl⟩ := chart_mem e.symm
      simp at hx
  obtain ⟨is, his, hall⟩ := kpisToCsv_mem hk
  obtain ⟨t', ht, hcol, ht'⟩ := hall _ hx
  cases ht
  have hlen : S.combos.length = is.length := by rw [mapM_length his, hf.length_eq]
  refine ⟨hcol, S.combos, by rw [C43_same_combinations] at hcs; exact hcs, ?_⟩
  have key : ∀ (i : ℕ) (c : ℤ × ℤ), S.combos[i]? = some c → ∃ rs I, outputs (Para.folderName c) = some rs ∧
      is[i]? = some I ∧ indicators
        ({ inputs (Para.folderName c) with name := Para.folderName c, results := rs } : Calcs N) = .ok I := by
    intro i c hi
    obtain ⟨C, hC, rs, hrs, rfl⟩ := forall₂_get hf hi
    obtain ⟨I, hI, hind⟩ := mapM_get his hC
    exact ⟨rs, I, hrs, hI, hind⟩
  rcases ht' with rfl | rfl | rfl
  all_goals
    refine ⟨by simp [economic, technical, output, List.length_zipWith, hlen], fun i c hi => ?_⟩
    obtain ⟨rs, I, hrs, hI, hind⟩ := key i c hi
    have hr := indicators_rows hind c
  · exact ⟨rs, _, hrs, by simp only [economic, List.getElem?_zipWith, hi, hI], hr.1⟩
  · exact ⟨rs, _, hrs, by simp only [technical, List.getElem?_zipWith, hi, hI], hr.2.1⟩
  · exact ⟨rs, _, hrs, by simp only [output, List.getElem?_zipWith, hi, hI], hr.2.2⟩

/-- A tariff with a wind farm whose bands exist and whose power is known for every hour of the results. -/
def Spec.FarmKnown (C : Calcs N) : Prop :=
  C.tariff ∈ ["Time of use - PPA + FR", "Time of use - PPA + WM", "Time of use - PPA + VP"] ∧
  C.timesteps ≤ C.farmPower.length ∧
  (∃ x, Tariff.band C.farmPower (some C.lowerPercent) = .ok x) ∧
  ∃ x, Tariff.band C.farmPower (some C.higherPercent) = .ok x

/-- What the indicators of one combination need: a result for every hour, at least one hour, a name with both
sizes, an RHI tariff and scheme of the sheet, and a tariff without a wind farm or one with its power. -/
structure Spec.IndicatorsExist (C : Calcs N) : Prop where
  all : Spec.AllHours C
  hours : 0 < C.timesteps
  sizes : ∃ h t : ℕ, C.name = Para.folderName (h, t)
  tariffType : C.rhi.tariffType = "Fixed" ∨ C.rhi.tariffType = "Tiered"
  rhiType : C.rhi.rhiType = "Domestic" ∨ C.rhi.rhiType = "Non-domestic"
  tariff : C.tariff = "Flat rates" ∨ C.tariff = "Variable periods" ∨ C.tariff = "Time of use - WM" ∨
    Spec.FarmKnown C

theorem amax_ok {xs : List ℚ} (h : xs ≠ []) : ∃ x, amax xs = .ok x := by
  cases xs with
  | nil => exact absurd rfl h
  | cons x xs => exact ⟨_, rfl⟩

theorem gridRes_farm {C : Calcs N} (all : Spec.AllHours C) (h : Spec.FarmKnown C) (f : Results N → ℚ) :
    ∃ y, gridRes C f = .ok y := by
  obtain ⟨ht, hl, ⟨x, hx⟩, y, hy⟩ := h
  have hw : Tariff.windFarmInfo
      { tariff := C.tariff, lowerPercent := some C.lowerPercent, higherPercent := some C.higherPercent }
      C.farmPower = .ok ⟨x, y, C.farmPower⟩ := by
    unfold Tariff.windFarmInfo
    rw [hx, hy]
    rfl
  have hm : ∃ xs, (List.range C.timesteps).mapM (fun i => do
      let p ← Tariff.position C.farmPower i
      if p ≥ y then f <$> result C i else .ok 0) = .ok xs := by
    refine mapM_total fun i hi => ?_
    have hi := List.mem_range.mp hi
    have hr : C.results.length = C.timesteps := all
    unfold Tariff.position result
    rw [List.getElem?_eq_getElem (by omega : i < C.farmPower.length),
      List.getElem?_eq_getElem (by omega : i < C.results.length)]
    dsimp only [bind, Except.bind]
    split_ifs
    · exact ⟨_, rfl⟩
    · exact ⟨_, rfl⟩
  obtain ⟨xs, hxs⟩ := hm
  have hn : C.tariff ≠ "Flat rates" ∧ C.tariff ≠ "Variable periods" ∧ C.tariff ≠ "Time of use - WM" := by
    refine ⟨?_, ?_, ?_⟩ <;> rintro e <;> rw [e] at ht <;> revert ht <;> decide
  have hc : C.tariff = "Time of use - PPA + FR" ∨ C.tariff = "Time of use - PPA + WM" ∨
      C.tariff = "Time of use - PPA + VP" := by simpa using ht
  unfold gridRes
  rw [if_neg hn.1, if_neg hn.2.1, if_neg hn.2.2, if_pos hc, hw]
  exact ⟨_, by simp only [bind, Except.bind] at hxs ⊢; rw [hxs]; rfl⟩

/-- All indicators of a complete combination exist. -/
theorem indicators_total {C : Calcs N} (h : Spec.IndicatorsExist C) : ∃ i, indicators C = .ok i := by
  obtain ⟨all, hours, ⟨hp, ts, hn⟩, hr1, hr2, htar⟩ := h
  have T := fun f => total_ok all f
  have Sr := fun f => series_ok all f
  have ne : ∀ f : Results N → ℚ, C.results.map f ≠ [] := fun f e => by
    have hl : C.results.length = C.timesteps := all
    have : C.results = [] := by simpa using e
    rw [this] at hl
    simp at hl
    omega
  have n0 : Para.numberAt C.name 0 = .ok hp := by rw [hn]; unfold Para.numberAt; rw [numbers_name]; rfl
  have n1 : Para.numberAt C.name 1 = .ok ts := by rw [hn]; unfold Para.numberAt; rw [numbers_name]; rfl
  have G : ∀ f : Results N → ℚ, ∃ y, gridRes C f = .ok y := fun f => by
    rcases htar with e | e | e | h
    · unfold gridRes; rw [e]; exact ⟨0, by simp⟩
    · unfold gridRes; rw [e]; exact ⟨0, by simp⟩
    · unfold gridRes; rw [e]; exact ⟨0, by simp⟩
    · exact gridRes_farm all h f
  choose g G using G
  have ry : ∀ e c : ℚ, ∃ y, rhiYear C.rhi e c = .ok y := fun e c => by
    unfold rhiYear
    rcases hr1 with e1 | e1
    · exact ⟨_, if_pos e1⟩
    · rw [if_neg (by rw [e1]; decide), if_pos e1]
      dsimp only
      split_ifs
      · exact ⟨_, rfl⟩
      · exact ⟨_, rfl⟩
  have rys : ∃ y, rhiYears C.rhi = .ok y := by
    unfold rhiYears
    rcases hr2 with e1 | e1
    · exact ⟨_, if_pos e1⟩
    · rw [if_neg (by rw [e1]; decide), if_pos e1]; exact ⟨_, rfl⟩
  have rhi : ∃ y, rhiIncome C = .ok y := by
    unfold rhiIncome Kpi.sumHpOutput Kpi.sumHpUsage
    rw [T, T, n0]
    obtain ⟨y, hy⟩ := ry ((C.results.map (·.hp.heatTotalOutput)).sum - (C.results.map (·.hp.elecTotalUsage)).sum) hp
    obtain ⟨z, hz⟩ := rys
    exact ⟨_, by simp only [except_bind_ok, except_pure_ok]; exact ⟨_, rfl, _, rfl, _, rfl, _, hy, _, hz, rfl⟩⟩
  obtain ⟨rhi, hrhi⟩ := rhi
  have yf : yearFactor C = .ok (8760 / C.timesteps) := by
    unfold yearFactor; rw [if_neg (by omega)]
  have hc : ∃ y, heatCost C = .ok y := by
    unfold heatCost; split <;> exact ⟨_, T _⟩
  obtain ⟨hcv, hhc⟩ := hc
  have ec : ∃ y, energyCost C = .ok y := by
    unfold energyCost; split <;> exact ⟨_, T _⟩
  obtain ⟨ecv, hec⟩ := ec
  obtain ⟨m1, hm1⟩ := amax_ok (ne (·.hp.heatTotalOutput))
  obtain ⟨m2, hm2⟩ := amax_ok (ne (·.heatDemand.heatDemand))
  have cc : capitalCost C = .ok (capex hp ts) := by
    unfold capitalCost; rw [n0, n1]; simp [bind, Except.bind, pure, Except.pure]
  have mo : maxHeatPumpOutput C = .ok m1 := by unfold maxHeatPumpOutput; rw [Sr]; exact hm1
  have md : maxHeatDemand C = .ok m2 := by unfold maxHeatDemand; rw [Sr]; exact hm2
  have ds : ∃ d, daysStorageContent C = .ok d := by
    unfold daysStorageContent Kpi.sumHd
    simp only [T, n1, bind, Except.bind]
    split <;> exact ⟨_, rfl⟩
  obtain ⟨d, hd⟩ := ds
  unfold indicators
  simp only [operatingCost, Kpi.resSelfConsumption, Kpi.totalResSelfConsumption, Kpi.gridResUsed, Kpi.totalResUsed,
    Kpi.hpSizeRatio, Kpi.hpUtilisation, Kpi.costOfHeat, Kpi.levelisedCostOfHeat,
    Kpi.levelisedCostOfEnergy, Kpi.costElec, Kpi.lifetimeCost, Kpi.sumHpOutput, Kpi.sumHpUsage, calcScop,
    Kpi.sumAuxOutput, Kpi.sumEdImport, Kpi.sumRes, Kpi.sumImport, Kpi.sumExport, Kpi.demandMetRes, Kpi.hpMetRes,
    hd, Kpi.heatMetRes, Kpi.sumHd, Kpi.sumEd, heatFromLocalRes, hpFromLocalRes, heatFromGridRes,
    hpFromGridRes, T, Sr, G, hrhi, yf, hhc, hec, cc, mo, md, bind, Except.bind, pure, Except.pure]
  exact ⟨_, rfl⟩

/-- If the indicators of every combination exist, the six table files are made. -/
theorem C88_made {S : Study N} (h : ∀ C ∈ S.calcs, Spec.IndicatorsExist C) (root : String) :
    ∃ fs, kpisToCsv S root = .ok fs := by
  have : ∃ is, S.calcs.mapM indicators = .ok is := mapM_total fun C hC => indicators_total (h C hC)
  obtain ⟨is, his⟩ := this
  unfold kpisToCsv
  rw [his]
  exact ⟨_, rfl⟩

/-- An RHI scheme that is neither of the two of the sheet: nothing at all is written for the study, as soon as one
combination has it. -/
theorem C88_no_scheme_no_tables {pa : Para.Ranges} {outputs : Para.Dir (List (Results N))}
    {inputs : List Char → Calcs N} {cs : List (ℤ × ℤ)} (hc : Para.combos pa = .ok cs) {c : ℤ × ℤ} (hm : c ∈ cs)
    (h : (inputs (Para.folderName c)).rhi.rhiType ≠ "Domestic" ∧
      (inputs (Para.folderName c)).rhi.rhiType ≠ "Non-domestic") (root : String) :
    (runKpis pa outputs inputs root).1 = [] := by
  unfold runKpis
  cases hl : load pa outputs inputs with
  | error e => rfl
  | ok S =>
    obtain ⟨h1, h2⟩ := load_get hl
    rw [C43_same_combinations, hc] at h1
    cases Except.ok.inj h1
    obtain ⟨i, hi⟩ := List.mem_iff_getElem?.mp hm
    obtain ⟨C, hC, rs, hrs, rfl⟩ := forall₂_get h2 hi
    cases hk : kpisToCsv S root with
    | error e => simp only [jobs, runJobs, hk]
    | ok fs =>
      exfalso
      obtain ⟨is, his, -⟩ := kpisToCsv_mem hk
      obtain ⟨I, -, hI⟩ := mapM_get his hC
      unfold indicators at hI
      simp only [except_bind_ok] at hI
      obtain ⟨_, -, _, -, _, -, _, -, _, -, _, -, _, -, _, -, _, hc, -⟩ := hI
      unfold costOfHeat rhiIncome rhiYears at hc
      rw [if_neg h.1, if_neg h.2] at hc
      simp only [except_bind_ok] at hc
      obtain ⟨_, -, _, -, _, -, _, hc, -⟩ := hc
      obtain ⟨_, -, _, -, _, -, _, -, _, hc, -⟩ := hc
      cases hc

/-! ## C90 -/

/-- The charts: file, label of the vertical axis, and the indicator (by its name in the tables). -/
def Spec.charts : List (String × String × String) :=
  [("operating_cost.png", "Operational cost (k£)", "opex"),
   ("RES_self_consumption.png", "RES self-consumption (%)", "local_RES_used"),
   ("heat_from_RES.png", "Heat demand from RES (%)", "heat_met_RES"),
   ("HP_size_ratio.png", "HP size ratio", "HP_size_ratio"),
   ("HP_utilisation.png", "HP utilisation (%)", "HP_utilisation"),
   ("capital_cost.png", "Capital cost (k£)", "capital_cost"),
   ("levelised_cost_of_heat.png", "Levelised cost of heat (£/kWh)", "levelised_cost_of_heat"),
   ("cost_of_heat.png", "Cost of heat (£/kWh)", "cost_of_heat")]

/-- The value an axis label promises for a combination of sizes. -/
noncomputable def Spec.axisMeaning (label : String) (sizes : ℤ × ℤ) : Option ℝ :=
  if label = "Heat pump sizes (kW)" then some sizes.1
  else if label = "Thermal storage capacity (m3)" then some (sizes.2 / 1000)
  else none

theorem chart_points {S : Study N} {b : Bool} {f : Calcs N → Except PyErr (Option ℝ)} {z file : String}
    {fs : List (String × Content)} (h : chart S b f z file = .ok fs) (hlen : S.combos.length = S.calcs.length)
    {file' : String} {s : Surface} (hm : (file', .surface s) ∈ fs) : file' = file ∧ s.zLabel = z ∧
    s.points.length = S.combos.length ∧
    ∀ (i : ℕ) (c : ℤ × ℤ) (C : Calcs N), S.combos[i]? = some c → S.calcs[i]? = some C → ∃ x y v,
      s.points[i]? = some ((x, y), v) ∧ Spec.axisMeaning s.xLabel c = some x ∧
      Spec.axisMeaning s.yLabel c = some y ∧ f C = .ok v := by
  obtain ⟨zs, hz, rfl⟩ := chart_mem h
  have hzs := mapM_length hz
  simp only [List.mem_singleton, Prod.mk.injEq, Content.surface.injEq] at hm
  obtain ⟨rfl, rfl⟩ := hm
  refine ⟨rfl, rfl, ?_, fun i c C hi hC => ?_⟩
  · cases b <;> simp [hzs, hlen]
  · obtain ⟨v, hv, hfv⟩ := mapM_get hz hC
    cases b
    · refine ⟨c.1, c.2 / 1000, v, ?_, ?_, ?_, hfv⟩
      · simp [List.getElem?_zip_eq_some, hi, hv]
      · simp [Spec.axisMeaning, pumpLabel]
      · simp [Spec.axisMeaning, storeLabel]
    · refine ⟨c.2 / 1000, c.1, v, ?_, ?_, ?_, hfv⟩
      · simp [List.getElem?_zip_eq_some, hi, hv]
      · simp [Spec.axisMeaning, storeLabel]
      · simp [Spec.axisMeaning, pumpLabel]

/-- Every chart written shows, for each combination of sizes of the study, its sizes on the axes labelled with them
and the indicator of that combination's own results. -/
theorem C90_charts {pa : Para.Ranges} {outputs : Para.Dir (List (Results N))} {inputs : List Char → Calcs N}
    {root file : String} {s : Surface} (h : (file, .surface s) ∈ (runKpis pa outputs inputs root).1) :
    ∃ column cs, (file, s.zLabel, column) ∈ Spec.charts ∧ Para.combos pa = .ok cs ∧ s.points.length = cs.length ∧
      ∀ (i : ℕ) (c : ℤ × ℤ), cs[i]? = some c → ∃ rs x y v, outputs (Para.folderName c) = some rs ∧
        s.points[i]? = some ((x, y), v) ∧ Spec.axisMeaning s.xLabel c = some x ∧
        Spec.axisMeaning s.yLabel c = some y ∧ Spec.columnMeaning column c
          ({ inputs (Para.folderName c) with name := Para.folderName c, results := rs } : Calcs N) = .ok v := by
  obtain ⟨S, hl, fs, hfs, hx⟩ := runKpis_mem h
  obtain ⟨hcs, hf⟩ := load_get hl
  rw [C43_same_combinations] at hcs
  have go : ∀ {b : Bool} {f : Calcs N → Except PyErr (Option ℝ)} {z fl : String} (column : String),
      chart S b f z fl = .ok fs → (fl, z, column) ∈ Spec.charts →
      (∀ (c : ℤ × ℤ) (C : Calcs N), Spec.columnMeaning column c C = f C) →
      ∃ column cs, (file, s.zLabel, column) ∈ Spec.charts ∧ Para.combos pa = .ok cs ∧ s.points.length = cs.length ∧
      ∀ (i : ℕ) (c : ℤ × ℤ), cs[i]? = some c → ∃ rs x y v, outputs (Para.folderName c) = some rs ∧
        s.points[i]? = some ((x, y), v) ∧ Spec.axisMeaning s.xLabel c = some x ∧
        Spec.axisMeaning s.yLabel c = some y ∧ Spec.columnMeaning column c
          ({ inputs (Para.folderName c) with name := Para.folderName c, results := rs } : Calcs N) = .ok v := by
    intro b f z fl column hch hmem hmean
    obtain ⟨rfl, rfl, hlen, hpts⟩ := chart_points hch hf.length_eq hx
    refine ⟨column, S.combos, hmem, hcs, hlen, fun i c hi => ?_⟩
    obtain ⟨C, hC, rs, hrs, rfl⟩ := forall₂_get hf hi
    obtain ⟨x, y, v, h1, h2, h3, h4⟩ := hpts i c _ hi hC
    exact ⟨rs, x, y, v, hrs, h1, h2, h3, by rw [hmean]; exact h4⟩
  simp only [jobs, List.mem_cons, List.not_mem_nil, or_false] at hfs
  rcases hfs with e | e | e | e | e | e | e | e | e
  · obtain ⟨is, -, hall⟩ := kpisToCsv_mem e.symm
    obtain ⟨t, ht, -⟩ := hall _ hx
    cases ht
  · exact go "opex" e.symm (by simp [Spec.charts]) fun _ _ => rfl
  · exact go "local_RES_used" e.symm (by simp [Spec.charts]) fun _ _ => rfl
  · exact go "heat_met_RES" e.symm (by simp [Spec.charts]) fun _ _ => rfl
  · exact go "HP_size_ratio" e.symm (by simp [Spec.charts]) fun _ _ => rfl
  · exact go "HP_utilisation" e.symm (by simp [Spec.charts]) fun _ _ => rfl
  · exact go "capital_cost" e.symm (by simp [Spec.charts]) fun _ _ => rfl
  · exact go "levelised_cost_of_heat" e.symm (by simp [Spec.charts]) fun _ _ => rfl
  · exact go "cost_of_heat" e.symm (by simp [Spec.charts]) fun _ _ => rfl

/-! ## C89 -/

/-- The six files of the tables. -/
def Spec.tableFiles (root : String) : List String := (Spec.tableColumns root).map (·.1)

/-- The eight charts. -/
def Spec.chartFiles : List String := Spec.charts.map (·.1)

/-- The sizes of a study span a plane: at least two heat pump sizes and two store sizes. -/
def Spec.TwoDimensional (cs : List (ℤ × ℤ)) : Prop :=
  (∃ a ∈ cs, ∃ b ∈ cs, a.1 ≠ b.1) ∧ ∃ a ∈ cs, ∃ b ∈ cs, a.2 ≠ b.2

/-- The points of a chart. -/
noncomputable def Spec.plane (b : Bool) (cs : List (ℤ × ℤ)) : List (ℝ × ℝ) :=
  if b then (cs.map fun c : ℤ × ℤ => (c.2 : ℝ) / 1000).zip (cs.map fun c : ℤ × ℤ => (c.1 : ℝ))
  else (cs.map fun c : ℤ × ℤ => (c.1 : ℝ)).zip (cs.map fun c : ℤ × ℤ => (c.2 : ℝ) / 1000)

theorem mem_plane (b : Bool) (cs : List (ℤ × ℤ)) (p : ℝ × ℝ) : p ∈ Spec.plane b cs ↔
    ∃ c ∈ cs, p = if b then ((c.2 : ℝ) / 1000, (c.1 : ℝ)) else ((c.1 : ℝ), (c.2 : ℝ) / 1000) := by
  unfold Spec.plane
  cases b <;> simp [List.zip_map', eq_comm]

theorem triangulate_iff {pa : Para.Ranges} {cs : List (ℤ × ℤ)} (h : Para.combos pa = .ok cs) (b : Bool) :
    triangulate (Spec.plane b cs) = .ok () ↔ Spec.TwoDimensional cs := by
  obtain ⟨hps, tss, -, -, rfl⟩ := combos_ok.mp h
  have e : ∀ P : Prop, ∀ [Decidable P], (if P then (.ok () : Except PyErr Unit) else .error .other) = .ok () ↔ P := by
    intro P _
    split_ifs with hP <;> simp [hP]
  unfold triangulate
  rw [e]
  constructor
  · rintro ⟨a, ha, b', hb, c, hc, hne⟩
    rw [mem_plane] at ha hb hc
    obtain ⟨a, ha, rfl⟩ := ha
    obtain ⟨b', hb, rfl⟩ := hb
    obtain ⟨c, hc, rfl⟩ := hc
    refine ⟨?_, ?_⟩
    · by_contra hn
      push Not at hn
      exact hne (by cases b <;> simp [hn a ha b' hb, hn c hc b' hb])
    · by_contra hn
      push Not at hn
      exact hne (by cases b <;> simp [hn a ha b' hb, hn c hc b' hb])
  · rintro ⟨⟨a, ha, b', hb, h1⟩, a', ha', b'', hb', h2⟩
    rw [mem_pairs] at ha hb ha' hb'
    have h1' : (b'.1 : ℝ) - a.1 ≠ 0 := fun e => h1 (by have : (b'.1 : ℝ) = a.1 := by linarith
                                                       exact_mod_cast this.symm)
    have h2' : (b''.2 : ℝ) / 1000 - a'.2 / 1000 ≠ 0 := fun e => h2 (by have : (b''.2 : ℝ) = a'.2 := by linarith
                                                                       exact_mod_cast this.symm)
    refine ⟨_, (mem_plane _ _ _).mpr ⟨(a.1, a'.2), mem_pairs.mpr ⟨ha.1, ha'.2⟩, rfl⟩, _,
      (mem_plane _ _ _).mpr ⟨(b'.1, a'.2), mem_pairs.mpr ⟨hb.1, ha'.2⟩, rfl⟩, _,
      (mem_plane _ _ _).mpr ⟨(a.1, b''.2), mem_pairs.mpr ⟨ha.1, hb'.2⟩, rfl⟩, ?_⟩
    cases b
    · simp only [Bool.false_eq_true, if_false, sub_self, zero_mul, ne_eq, mul_eq_zero, not_or]
      exact ⟨h1', h2'⟩
    · simp only [if_true, sub_self, zero_mul, ne_eq]
      exact fun e => (mul_ne_zero h2' h1') e.symm

theorem charts_ok {S : Study N} {f : Calcs N → Except PyErr (Option ℝ)}
    (hf : ∀ C ∈ S.calcs, ∃ y, f C = .ok y) (b : Bool) (z file : String) :
    (triangulate (Spec.plane b S.combos) = .ok () → ∃ s, chart S b f z file = .ok [(file, .surface s)]) ∧
    (triangulate (Spec.plane b S.combos) ≠ .ok () → chart S b f z file = .error .other) := by
  obtain ⟨ys, hys⟩ := mapM_total hf
  unfold chart
  rw [hys]
  refine ⟨fun ht => ?_, fun ht => ?_⟩
  · unfold Spec.plane at ht
    simp only [bind, Except.bind, ht, pure, Except.pure]
    exact ⟨_, rfl⟩
  · have : triangulate (Spec.plane b S.combos) = .error .other := by
      unfold triangulate at ht ⊢
      split_ifs at ht ⊢ with hP
      · exact absurd rfl ht
      · rfl
    unfold Spec.plane at this
    simp only [bind, Except.bind, this]

/-- Every indicator that has a chart. -/
theorem indicators_parts {C : Calcs N} {i : Indicators} (h : indicators C = .ok i) :
    (∃ y, operatingCost C = .ok y) ∧ (∃ y, Kpi.resSelfConsumption C = .ok y) ∧ (∃ y, Kpi.heatMetRes C = .ok y) ∧
    (∃ y, Kpi.hpSizeRatio C = .ok y) ∧ (∃ y, Kpi.hpUtilisation C = .ok y) ∧ (∃ y, Kpi.capitalCost C = .ok y) ∧
    (∃ y, Kpi.levelisedCostOfHeat C = .ok y) ∧ ∃ y, Kpi.costOfHeat C = .ok y := by
  unfold indicators at h
  simp only [except_bind_ok, except_pure_ok] at h
  obtain ⟨a1, h1, a2, h2, a3, h3, a4, h4, a5, h5, a6, h6, a7, h7, a8, h8, a9, h9, a10, h10, a11, h11, a12, h12,
    a13, h13, a14, h14, a15, h15, a16, h16, a17, h17, a18, h18, a19, h19, a20, h20, a21, h21, a22, h22, a23, h23,
    a24, h24, a25, h25, rfl⟩ := h
  exact ⟨⟨_, h1⟩, ⟨_, h2⟩, ⟨_, h25⟩, ⟨_, h6⟩, ⟨_, h7⟩, ⟨_, h8⟩, ⟨_, h10⟩, ⟨_, h9⟩⟩

theorem runKpis_files {pa : Para.Ranges} {outputs : Para.Dir (List (Results N))} {inputs : List Char → Calcs N}
    {S : Study N} (hl : load pa outputs inputs = .ok S) {root : String} {fs : List (String × Content)}
    (ht : kpisToCsv S root = .ok fs) :
    fs.map (·.1) = Spec.tableFiles root ∧
    (Spec.TwoDimensional S.combos → (runKpis pa outputs inputs root).1.map (·.1) =
      Spec.tableFiles root ++ Spec.chartFiles ∧ (runKpis pa outputs inputs root).2 = none) ∧
    (¬ Spec.TwoDimensional S.combos → runKpis pa outputs inputs root = (fs, some .other)) := by
  have hc := (load_get hl).1
  rw [C43_same_combinations] at hc
  have ht' := ht
  unfold kpisToCsv at ht'
  simp only [except_bind_ok, except_pure_ok] at ht'
  obtain ⟨is, his, hfs⟩ := ht'
  have hnames : fs.map (·.1) = Spec.tableFiles root := by rw [← hfs]; rfl
  have key : ∀ C ∈ S.calcs, ∃ i, indicators C = .ok i := fun C hC => by
    obtain ⟨i, hi⟩ := List.mem_iff_getElem?.mp hC
    obtain ⟨I, -, hI⟩ := mapM_get his hi
    exact ⟨I, hI⟩
  have P : ∀ C ∈ S.calcs, _ := fun C hC => indicators_parts (key C hC).choose_spec
  have lift : ∀ {α : Type} {x : Except PyErr α} (g : α → Option ℝ), (∃ y, x = .ok y) → ∃ y, g <$> x = .ok y := by
    rintro α x g ⟨y, rfl⟩
    exact ⟨g y, rfl⟩
  have c1 := charts_ok (fun C hC => lift num (P C hC).1) true "Operational cost (k£)" "operating_cost.png"
  have c2 := charts_ok (fun C hC => lift num (P C hC).2.1) false "RES self-consumption (%)" "RES_self_consumption.png"
  have c3 := charts_ok (fun C hC => lift numOrNan (P C hC).2.2.1) false "Heat demand from RES (%)" "heat_from_RES.png"
  have c4 := charts_ok (fun C hC => lift numOrNan (P C hC).2.2.2.1) true "HP size ratio" "HP_size_ratio.png"
  have c5 := charts_ok (fun C hC => lift numOrNan (P C hC).2.2.2.2.1) true "HP utilisation (%)" "HP_utilisation.png"
  have c6 := charts_ok (fun C hC => lift some (P C hC).2.2.2.2.2.1) true "Capital cost (k£)" "capital_cost.png"
  have c7 := charts_ok (fun C hC => (P C hC).2.2.2.2.2.2.1) true "Levelised cost of heat (£/kWh)"
    "levelised_cost_of_heat.png"
  have c8 := charts_ok (fun C hC => lift numOrNan (P C hC).2.2.2.2.2.2.2) true "Cost of heat (£/kWh)"
    "cost_of_heat.png"
  have e : runKpis pa outputs inputs root = runJobs (jobs S root) := by unfold runKpis; rw [hl]
  rw [e]
  unfold jobs
  rw [ht]
  refine ⟨hnames, fun h => ?_, fun h => ?_⟩
  · have ht := (triangulate_iff hc true).mpr h
    have hf := (triangulate_iff hc false).mpr h
    obtain ⟨s1, e1⟩ := c1.1 ht
    obtain ⟨s2, e2⟩ := c2.1 hf
    obtain ⟨s3, e3⟩ := c3.1 hf
    obtain ⟨s4, e4⟩ := c4.1 ht
    obtain ⟨s5, e5⟩ := c5.1 ht
    obtain ⟨s6, e6⟩ := c6.1 ht
    obtain ⟨s7, e7⟩ := c7.1 ht
    obtain ⟨s8, e8⟩ := c8.1 ht
    unfold plotOpex plotRes plotHeatFromRes plotHpSizeRatio plotHpUtilisation plotCapitalCost plotLcoh plotCoh
    rw [e1, e2, e3, e4, e5, e6, e7, e8]
    simp only [runJobs, List.map_append, hnames]
    exact ⟨rfl, trivial⟩
  · have e1 := c1.2 fun e => h ((triangulate_iff hc true).mp e)
    unfold plotOpex
    rw [e1]
    simp [runJobs]

/-- Once the tables can be made, their six files are written, whatever becomes of the charts. -/
theorem C89_tables_first {pa : Para.Ranges} {outputs : Para.Dir (List (Results N))} {inputs : List Char → Calcs N}
    {S : Study N} (hl : load pa outputs inputs = .ok S) {root : String} {fs : List (String × Content)}
    (ht : kpisToCsv S root = .ok fs) :
    ∀ f ∈ Spec.tableFiles root, ∃ t, (f, Content.table t) ∈ (runKpis pa outputs inputs root).1 := by
  obtain ⟨h1, -, -⟩ := runKpis_files hl ht
  intro f hf
  rw [← h1, List.mem_map] at hf
  obtain ⟨x, hx, rfl⟩ := hf
  obtain ⟨is, -, hall⟩ := kpisToCsv_mem ht
  obtain ⟨t, ht', -⟩ := hall x hx
  refine ⟨t, ?_⟩
  unfold runKpis
  rw [hl]
  dsimp only
  unfold jobs
  rw [ht, ← ht']
  exact List.mem_append_left _ hx

/-- With at least two sizes of each, all charts are written too and the stage ends without an exception. -/
theorem C89_complete_partial {pa : Para.Ranges} {outputs : Para.Dir (List (Results N))}
    {inputs : List Char → Calcs N} {S : Study N} (hl : load pa outputs inputs = .ok S)
    (hex : ∀ C ∈ S.calcs, Spec.IndicatorsExist C) (root : String) (h2 : Spec.TwoDimensional S.combos) :
    (runKpis pa outputs inputs root).1.map (·.1) = Spec.tableFiles root ++ Spec.chartFiles ∧
    (runKpis pa outputs inputs root).2 = none :=
  (runKpis_files hl (C88_made hex root).choose_spec).2.1 h2

/-- C89 is false of a study of one size of heat pump or one size of store: the stage raises, and no chart
is written. -/
theorem C89_one_dimension_fails {pa : Para.Ranges} {outputs : Para.Dir (List (Results N))}
    {inputs : List Char → Calcs N} {S : Study N} (hl : load pa outputs inputs = .ok S)
    (hex : ∀ C ∈ S.calcs, Spec.IndicatorsExist C) (root : String) (h1 : pa.hpMin = pa.hpMax ∨ pa.tsMin = pa.tsMax) :
    (runKpis pa outputs inputs root).1.map (·.1) = Spec.tableFiles root ∧
    (runKpis pa outputs inputs root).2 = some .other := by
  have hc := (load_get hl).1
  rw [C43_same_combinations] at hc
  obtain ⟨f1, -, f2⟩ := runKpis_files hl (C88_made hex root).choose_spec
  have := f2 fun h => by
    obtain ⟨⟨a, ha, b, hb, hab⟩, a', ha', b', hb', hab'⟩ := h
    obtain ⟨hps, tss, h3, h4, e⟩ := combos_ok.mp hc
    rw [e, mem_pairs] at ha hb ha' hb'
    rcases h1 with h1 | h1
    · rw [C41_single_size.1 h1] at h3
      cases Except.ok.inj h3
      have x := ha.1
      have y := hb.1
      simp only [List.mem_singleton] at x y
      exact hab (x.trans y.symm)
    · rw [C41_single_size.2 h1] at h4
      cases Except.ok.inj h4
      have x := ha'.2
      have y := hb'.2
      simp only [List.mem_singleton] at x y
      exact hab' (x.trans y.symm)
  rw [this]
  exact ⟨f1, rfl⟩

/-- A missing result file: nothing is written. -/
theorem C89_missing_results {pa : Para.Ranges} {outputs : Para.Dir (List (Results N))}
    {inputs : List Char → Calcs N} {cs : List (ℤ × ℤ)} (hc : Para.combos pa = .ok cs) {c : ℤ × ℤ} (h : c ∈ cs)
    (hm : outputs (Para.folderName c) = none) (root : String) :
    (runKpis pa outputs inputs root).1 = [] ∧ (runKpis pa outputs inputs root).2 ≠ none := by
  unfold runKpis
  cases hl : load pa outputs inputs with
  | error e => exact ⟨rfl, by simp⟩
  | ok S =>
    exfalso
    obtain ⟨h1, h2⟩ := load_get hl
    rw [C43_same_combinations, hc] at h1
    cases Except.ok.inj h1
    obtain ⟨i, hi⟩ := List.mem_iff_getElem?.mp h
    obtain ⟨_, -, rs, hrs, -⟩ := forall₂_get h2 hi
    rw [hm] at hrs
    cases hrs

/-! Two by two sizes, the sample run for each: the tables and the charts are made. One size of store: they fail. -/

/-- Any study whose combinations all have the results of the sample run. -/
theorem sample_study (pa : Para.Ranges) {cs : List (ℤ × ℤ)} (hc : Para.combos pa = .ok cs)
    (hpos : ∀ c ∈ cs, 0 ≤ c.1 ∧ 0 ≤ c.2) {n : ℕ} (h0 : 0 < n) (hn : n ≤ 8760) :
    ∃ (rs : List (Results Unit)) (S : Study Unit), rs.length = n ∧ S.combos = cs ∧
      load pa (fun _ => some rs) (fun _ => Spec.sampleCalcs [] n) = .ok S ∧
      ∀ C ∈ S.calcs, Spec.IndicatorsExist C := by
  obtain ⟨rs, hrs⟩ := sampleCalcs_ofRun 0 n (by omega)
  have hlen : rs.length = n := hrs.all
  have hread := readResults_ok (outputs := fun _ => some rs) (cs := cs) (f := fun _ => rs) (fun c _ => rfl)
  have hk : Para.kpiCombos pa = .ok cs := by rw [C43_same_combinations]; exact hc
  have hl : ∃ S, load pa (fun _ => some rs) (fun _ => Spec.sampleCalcs [] n) = .ok S := by
    unfold load
    rw [hk]
    dsimp only
    rw [hread]
    exact ⟨_, rfl⟩
  obtain ⟨S, hS⟩ := hl
  obtain ⟨h1, h2⟩ := load_get hS
  rw [hk] at h1
  have hcs : S.combos = cs := (Except.ok.inj h1).symm
  refine ⟨rs, S, hlen, hcs, hS, fun C hC => ?_⟩
  obtain ⟨i, hi⟩ := List.mem_iff_getElem?.mp hC
  have hlt : i < S.combos.length := by
    rw [h2.length_eq]
    exact (List.getElem?_eq_some_iff.mp hi).1
  obtain ⟨C', hC', rs', hrs', e⟩ := forall₂_get h2 (List.getElem?_eq_getElem hlt)
  rw [hi] at hC'
  cases Option.some.inj hC'
  cases Option.some.inj hrs'
  have hm : S.combos[i] ∈ cs := hcs ▸ List.getElem_mem hlt
  obtain ⟨p1, p2⟩ := hpos _ hm
  rw [e]
  refine ⟨hlen, h0, ⟨(S.combos[i]).1.toNat, (S.combos[i]).2.toNat, ?_⟩, Or.inr rfl, Or.inl rfl, Or.inl rfl⟩
  show Para.folderName S.combos[i] = _
  rw [Int.toNat_of_nonneg p1, Int.toNat_of_nonneg p2]

example : ∃ (rs : List (Results Unit)), rs.length = 8760 ∧
    ((runKpis ⟨10, 20, 10, 500, 1000, 500⟩ (fun _ => some rs) (fun _ => Spec.sampleCalcs [] 8760)
      "village").1.map (·.1)).length = 14 ∧
    (∃ t, ("output_village.csv", .table t) ∈ (runKpis ⟨10, 20, 10, 500, 1000, 500⟩ (fun _ => some rs)
      (fun _ => Spec.sampleCalcs [] 8760) "village").1) ∧
    ∃ x, ("capital_cost.png", x) ∈ (runKpis ⟨10, 20, 10, 500, 1000, 500⟩ (fun _ => some rs)
      (fun _ => Spec.sampleCalcs [] 8760) "village").1 := by
  obtain ⟨rs, S, h1, h2, h3, h4⟩ := sample_study ⟨10, 20, 10, 500, 1000, 500⟩
    (cs := [(10, 500), (10, 1000), (20, 500), (20, 1000)]) (by decide +kernel) (by decide) (n := 8760)
    (by norm_num) le_rfl
  have h := (C89_complete_partial h3 h4 "village" (by rw [h2]; unfold Spec.TwoDimensional; decide)).1
  refine ⟨rs, h1, by rw [h]; rfl, C89_tables_first h3 (C88_made h4 "village").choose_spec _ (by decide +kernel), ?_⟩
  have hm : "capital_cost.png" ∈ (runKpis ⟨10, 20, 10, 500, 1000, 500⟩ (fun _ => some rs)
      (fun _ => Spec.sampleCalcs [] 8760) "village").1.map (·.1) := by
    rw [h]
    exact List.mem_append_right _ (by decide +kernel)
  obtain ⟨x, hx, e⟩ := List.mem_map.mp hm
  exact ⟨x.2, by rw [← e]; exact hx⟩

example : ∃ (rs : List (Results Unit)), rs.length = 8760 ∧
    (runKpis ⟨10, 20, 10, 500, 500, 500⟩ (fun _ => some rs) (fun _ => Spec.sampleCalcs [] 8760) "village").1.map (·.1) =
      ["KPI_economic_village.pkl", "KPI_economic_village.csv", "KPI_technical_village.pkl",
        "KPI_technical_village.csv", "output_village.pkl", "output_village.csv"] := by
  obtain ⟨rs, S, h1, h2, h3, h4⟩ := sample_study ⟨10, 20, 10, 500, 500, 500⟩
    (cs := [(10, 500), (20, 500)]) (by decide +kernel) (by decide) (n := 8760)
    (by norm_num) le_rfl
  refine ⟨rs, h1, (C89_one_dimension_fails h3 h4 "village" (Or.inr rfl)).1.trans ?_⟩
  decide +kernel

/-- A study whose workbook names no incentive scheme writes no table. -/
example : (runKpis ⟨10, 20, 10, 500, 1000, 500⟩ (fun _ => some [])
    (fun _ => { Spec.sampleCalcs ([] : List (Results Unit)) 8760 with
      rhi := { (Spec.sampleCalcs ([] : List (Results Unit)) 8760).rhi with rhiType := "None" } }) "village").1 = [] :=
  C88_no_scheme_no_tables (cs := [(10, 500), (10, 1000), (20, 500), (20, 1000)]) (by decide +kernel)
    (c := (10, 500)) (by decide) ⟨by decide, by decide⟩ _

/-- One of the four combinations has no results. -/
example (rs : List (Results Unit)) :
    (runKpis ⟨10, 20, 10, 500, 1000, 500⟩ (fun n => if n = "hp_20_ts_500".toList then none else some rs)
      (fun _ => Spec.sampleCalcs [] 8760) "village").1 = [] :=
  (C89_missing_results (cs := [(10, 500), (10, 1000), (20, 500), (20, 1000)]) (by decide +kernel)
    (c := (20, 500)) (by decide) (if_pos (by decide +kernel)) _).1

end Verif
