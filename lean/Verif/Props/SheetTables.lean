import Verif.Props.OtherSettings
import Verif.Props.PumpStudy

/-!
# The tables of two studies whose workbooks differ in prices (C104), in generation (C102) or in the battery (C116)
-/

set_option autoImplicit false

namespace Verif
open Spec Pandas Workbook InputReader Simulation HpConfig FixedOrder Programme

variable {L : Libs} {gekko gekko' : Gekko} {wb wb' : Pandas.Workbook}

/-- The columns that are about energy and sizes and not about money say the same of two studies of the same
combination with the same energy flows, at flat rates. -/
theorem meaning_energy {N : Type} {C C' : Kpi.Calcs N} (ha : AllHours C) (ha' : AllHours C')
    (hr : C'.results.map energyOf = C.results.map energyOf) (hn : C'.name = C.name) (ht : C.tariff = "Flat rates")
    (ht' : C'.tariff = "Flat rates") {column : String} (hc : column ∉ moneyColumns) (size : ℤ × ℤ) :
    Spec.columnMeaning column size C' = Spec.columnMeaning column size C := by
  have hlen : C'.timesteps = C.timesteps := by
    have := congrArg List.length hr
    simp only [List.length_map] at this
    rw [← show C.results.length = C.timesteps from ha, ← show C'.results.length = C'.timesteps from ha', this]
  have hs : ∀ f : Results N → ℚ, (∀ r, f (energyOf r) = f r) → Kpi.series C' f = Kpi.series C f := by
    intro f hf
    rw [Kpi.series_ok ha, Kpi.series_ok ha']
    have e : ∀ l : List (Results N), l.map f = (l.map energyOf).map f := by
      intro l
      rw [List.map_map]
      exact List.map_congr_left fun r _ => (hf r).symm
    rw [e, hr, ← e]
  have hg : ∀ f : Results N → ℚ, Kpi.gridRes C' f = Kpi.gridRes C f := by
    intro f
    unfold Kpi.gridRes
    rw [if_pos ht, if_pos ht']
  simp only [moneyColumns, List.mem_cons, List.not_mem_nil, or_false, not_or] at hc
  unfold Spec.columnMeaning
  split <;> first
    | rfl
    | (exfalso; simp at hc; done)
    | (simp only [Kpi.capitalCost, Kpi.resSelfConsumption, Kpi.totalResSelfConsumption, Kpi.gridResUsed,
        Kpi.totalResUsed, Kpi.heatMetRes, Kpi.demandMetRes, Kpi.hpMetRes, Kpi.hpSizeRatio, Kpi.hpUtilisation,
        Kpi.daysStorageContent, Kpi.sumHpOutput, Kpi.sumHpUsage, Kpi.calcScop, Kpi.sumAuxOutput, Kpi.sumEdImport,
        Kpi.sumRes, Kpi.sumImport, Kpi.sumExport, Kpi.sumHd, Kpi.sumEd, Kpi.heatFromLocalRes, Kpi.heatFromGridRes,
        Kpi.hpFromLocalRes, Kpi.hpFromGridRes, Kpi.maxHeatPumpOutput, Kpi.maxHeatDemand, Kpi.total, hg, hn, hlen,
        hs (fun r => r.aux.demand) (fun _ => rfl), hs (fun r => r.hp.heatTotalOutput) (fun _ => rfl),
        hs (fun r => r.hp.elecTotalUsage) (fun _ => rfl), hs (fun r => r.heatDemand.heatDemand) (fun _ => rfl),
        hs (fun r => r.elecDemand.elecDemand) (fun _ => rfl), hs (fun r => r.grid.importForElecDemand) (fun _ => rfl),
        hs (fun r => r.grid.totalImport) (fun _ => rfl), hs (fun r => r.grid.totalExport) (fun _ => rfl),
        hs (fun r => r.res.generationTotal) (fun _ => rfl), hs (fun r => r.res.aux) (fun _ => rfl),
        hs (fun r => r.hp.elecResUsage * r.hp.cop) (fun _ => rfl)])

/-- Workbooks with the same sheet of sizes have the same ranges, and the same controller if they say so. -/
theorem ranges_but {sheets : List String} (h : SameBut sheets wb wb') (hs : "Parametric" ∉ sheets) {pa : Para.Ranges} :
    RangesIn wb' pa ↔ RangesIn wb pa := by
  have e : ∀ {col : Char} {row : ℕ} {x : ℚ}, Holds wb' "Parametric" col row x ↔ Holds wb "Parametric" col row x :=
    holds_but h hs
  exact ⟨fun ⟨h1, h2, h3, h4, h5, h6⟩ => ⟨e.mp h1, e.mp h2, e.mp h3, e.mp h4, fun k => e.mp (h5 k), fun k => e.mp (h6 k)⟩,
    fun ⟨h1, h2, h3, h4, h5, h6⟩ => ⟨e.mpr h1, e.mpr h2, e.mpr h3, e.mpr h4, fun k => e.mpr (h5 k),
      fun k => e.mpr (h6 k)⟩⟩

theorem says_but {sheets : List String} (h : SameBut sheets wb wb') {sheet : String} (hs : sheet ∉ sheets)
    {col : Char} {row : ℕ} {x : String} : Says wb' sheet col row x ↔ Says wb sheet col row x := by
  unfold Says excel
  rw [h sheet hs]

/-- C104, the tables of two studies at flat rates: other prices change nothing in the columns about energy. -/
theorem C104_tables (ht : TopRowsEmpty wb) (ht' : TopRowsEmpty wb') (h : SameBut ["Grid", "Aux heat"] wb wb')
    (hf : SameFuels wb wb') (hflat : Says wb "Grid" 'D' 5 "Flat rates") (hflat' : Says wb' "Grid" 'D' 5 "Flat rates")
    {sp p p' : ℚ} (hsp : Holds wb "Controller" 'D' 7 sp) (hp : Holds wb "Grid" 'C' 9 p)
    (hp' : Holds wb' "Grid" 'C' 9 p') (side : sp < p ↔ sp < p')
    (hc : Says wb "Controller" 'D' 5 "Fixed order control") {root root' : String}
    {files files' : List (String × KpiTables.Content)} {e e' : Option PyErr}
    {st st' : Main.Store (List Char) Programme.Outcome Figures.Drawn}
    (he : Report.Ends L gekko wb root (.ok (files, e), st)) (he' : Report.Ends L gekko' wb' root' (.ok (files', e'), st'))
    {file file' : String} {t t' : KpiTables.Table} (hm : (file, .table t) ∈ files) (hm' : (file', .table t') ∈ files')
    {pa : Para.Ranges} {sizes : List (ℤ × ℤ)} (hpa : RangesIn wb pa) (hz : Para.combos pa = .ok sizes)
    {i k k' : ℕ} {size : ℤ × ℤ} (hi : sizes[i]? = some size) {row row' : List (Option ℝ)} (hr : t.rows[i]? = some row) (hr' : t'.rows[i]? = some row')
    {column : String} (hk : t.columns[k]? = some column) (hk' : t'.columns[k']? = some column) {v v' : Option ℝ}
    (hv : row[k]? = some v) (hv' : row'[k']? = some v')
    (hcol : column ∉ moneyColumns) : v' = v := by
  obtain ⟨C, m, K, hs, ha⟩ := shown_entry ht hc he hm hpa hz hi hr hk hv
  obtain ⟨C', m', K', hs', ha'⟩ := shown_entry ht' ((says_but h (by decide)).mpr hc) he' hm'
    ((ranges_but h (by decide)).mpr hpa) hz hi hr' hk' hv'
  rw [meaning_energy ha ha' (C104_flat_rates ht ht' h hf hflat hflat' hsp hp hp' side hs hs')
    (K'.name.trans K.name.symm) ((K.tariff _ (by decide)).mpr hflat) ((K'.tariff _ (by decide)).mpr hflat') hcol] at m'
  exact Except.ok.inj (m'.symm.trans m)

/-- C116, the tables of two studies: with a larger battery no combination has a larger `sum_import`, and the columns
about the heat pump and the heater stay as they were. -/
theorem C116_tables (ht : TopRowsEmpty wb) (ht' : TopRowsEmpty wb') (hw : Sensible wb)
    (h : SameBut ["Electrical storage"] wb wb') (hl : LargerOnSheet wb wb') (hf : HeatFirstOnSheet wb)
    (hc : Says wb "Controller" 'D' 5 "Fixed order control") {root root' : String}
    {files files' : List (String × KpiTables.Content)} {e e' : Option PyErr}
    {st st' : Main.Store (List Char) Programme.Outcome Figures.Drawn}
    (he : Report.Ends L gekko wb root (.ok (files, e), st)) (he' : Report.Ends L gekko' wb' root' (.ok (files', e'), st'))
    {file file' : String} {t t' : KpiTables.Table} (hm : (file, .table t) ∈ files) (hm' : (file', .table t') ∈ files')
    {pa : Para.Ranges} {sizes : List (ℤ × ℤ)} (hpa : RangesIn wb pa) (hz : Para.combos pa = .ok sizes)
    {i k k' : ℕ} {size : ℤ × ℤ} (hi : sizes[i]? = some size) (h2 : 0 ≤ size.2)
    (hg : ∀ S, runInputs L wb size = .ok S → GoodPump S) {row row' : List (Option ℝ)} (hr : t.rows[i]? = some row) (hr' : t'.rows[i]? = some row')
    {column : String} (hk : t.columns[k]? = some column) (hk' : t'.columns[k']? = some column) {v v' : Option ℝ}
    (hv : row[k]? = some v) (hv' : row'[k']? = some v') :
    (column = "sum_import" → ∃ x x' : ℝ, v = some x ∧ v' = some x' ∧ x' ≤ x) ∧
    (column ∈ ["sum_hp_output", "sum_hp_usage", "scop", "sum_aux_output"] → v' = v) := by
  obtain ⟨C, m, K, hs, ha⟩ := shown_entry ht hc he hm hpa hz hi hr hk hv
  obtain ⟨C', m', K', hs', ha'⟩ := shown_entry ht' ((says_but h (by decide)).mpr hc) he' hm'
    ((ranges_but h (by decide)).mpr hpa) hz hi hr' hk' hv'
  have hall := C116_workbook ht ht' hw h2 hg h hl hf hs hs'
  constructor
  · rintro rfl
    have g := sum_le_of_forall₂ (fun r => r.grid.totalImport) (fun r => r.grid.totalImport) hall.flip
      (fun a b hab => hab.1)
    simp only [Spec.columnMeaning, Kpi.sumImport, except_map_ok, Kpi.total_ok ha, Kpi.total_ok ha'] at m m'
    obtain ⟨a, q, m⟩ := m
    obtain ⟨a', q', m'⟩ := m'
    cases Except.ok.inj q
    cases Except.ok.inj q'
    refine ⟨_, _, m.symm, m'.symm, ?_⟩
    exact_mod_cast g
  · intro hcol
    have e : ∀ f : Results (List ℚ) → ℚ, (∀ r r', r'.hp = r.hp → r'.aux = r.aux → f r' = f r) →
        Kpi.total C' f = Kpi.total C f := by
      intro f hf
      rw [Kpi.total_ok ha, Kpi.total_ok ha']
      have : C'.results.map f = C.results.map f := by
        clear hs hs' ha ha' m m' K K'
        revert hall
        generalize C.results = l
        generalize C'.results = l'
        intro hall
        induction hall with
        | nil => rfl
        | cons h1 _ ih => rw [List.map_cons, List.map_cons, ih, hf _ _ h1.2.2.1 h1.2.2.2.2]
      rw [this]
    have e1 := e (fun r => r.hp.heatTotalOutput) fun _ _ h1 _ => by rw [h1]
    have e2 := e (fun r => r.hp.elecTotalUsage) fun _ _ h1 _ => by rw [h1]
    have e3 := e (fun r => r.aux.demand) fun _ _ _ h1 => by rw [h1]
    simp only [List.mem_cons, List.not_mem_nil, or_false] at hcol
    rcases hcol with rfl | rfl | rfl | rfl <;>
    · simp only [Spec.columnMeaning, Kpi.sumHpOutput, Kpi.sumHpUsage, Kpi.calcScop, Kpi.sumAuxOutput, e1, e2, e3] at m m'
      exact Except.ok.inj (m'.symm.trans m)

/-- C102, the tables of two studies without stores: where no hour gets less generation, `sum_import` does not rise
and `sum_export` does not fall. -/
theorem C102_tables (ht : TopRowsEmpty wb) (ht' : TopRowsEmpty wb') (hw : Sensible wb)
    (hb : ∀ s row, wb "Electrical storage" = some s → FirstComplete s [5] [0, 1] row →
      Holds wb "Electrical storage" 'C' row 0)
    (h : SameBut ["PV inputs", "Wind inputs"] wb wb')
    (hc : Says wb "Controller" 'D' 5 "Fixed order control") {root root' : String}
    {files files' : List (String × KpiTables.Content)} {e e' : Option PyErr}
    {st st' : Main.Store (List Char) Programme.Outcome Figures.Drawn}
    (he : Report.Ends L gekko wb root (.ok (files, e), st)) (he' : Report.Ends L gekko' wb' root' (.ok (files', e'), st'))
    {file file' : String} {t t' : KpiTables.Table} (hm : (file, .table t) ∈ files) (hm' : (file', .table t') ∈ files')
    {pa : Para.Ranges} {sizes : List (ℤ × ℤ)} (hpa : RangesIn wb pa) (hz : Para.combos pa = .ok sizes)
    {i k k' : ℕ} {hp : ℤ} (hi : sizes[i]? = some (hp, 0))
    (hg : ∀ S, runInputs L wb (hp, 0) = .ok S → GoodPump S)
    (hgen : ∀ rs rs', simulate L wb (hp, 0) = .ok rs → simulate L wb' (hp, 0) = .ok rs' →
      List.Forall₂ (fun r r' => r.res.generationTotal ≤ r'.res.generationTotal) rs rs') {row row' : List (Option ℝ)} (hr : t.rows[i]? = some row) (hr' : t'.rows[i]? = some row')
    {column : String} (hk : t.columns[k]? = some column) (hk' : t'.columns[k']? = some column) {v v' : Option ℝ}
    (hv : row[k]? = some v) (hv' : row'[k']? = some v') :
    (column = "sum_import" → ∃ x x' : ℝ, v = some x ∧ v' = some x' ∧ x' ≤ x) ∧
    (column = "sum_export" → ∃ x x' : ℝ, v = some x ∧ v' = some x' ∧ x ≤ x') := by
  obtain ⟨C, m, K, hs, ha⟩ := shown_entry ht hc he hm hpa hz hi hr hk hv
  obtain ⟨C', m', K', hs', ha'⟩ := shown_entry ht' ((says_but h (by decide)).mpr hc) he' hm'
    ((ranges_but h (by decide)).mpr hpa) hz hi hr' hk' hv'
  have hall : List.Forall₂ (fun r r' => r'.grid.totalImport ≤ r.grid.totalImport ∧
      r.grid.totalExport ≤ r'.grid.totalExport) C.results C'.results := by
    have h1 := C102_workbook ht hw hb hg h hs hs'
    have h2 := hgen _ _ hs hs'
    refine List.forall₂_iff_get.mpr ⟨h1.length_eq, fun j hj hj' => ?_⟩
    obtain ⟨g1, g2, -⟩ := (List.forall₂_iff_get.mp h1).2 j hj hj' ((List.forall₂_iff_get.mp h2).2 j hj hj')
    exact ⟨g1, g2⟩
  constructor
  · rintro rfl
    have g := sum_le_of_forall₂ (fun r => r.grid.totalImport) (fun r => r.grid.totalImport) hall.flip
      (fun a b hab => hab.1)
    simp only [Spec.columnMeaning, Kpi.sumImport, except_map_ok, Kpi.total_ok ha, Kpi.total_ok ha'] at m m'
    obtain ⟨a, q, m⟩ := m
    obtain ⟨a', q', m'⟩ := m'
    cases Except.ok.inj q
    cases Except.ok.inj q'
    refine ⟨_, _, m.symm, m'.symm, ?_⟩
    exact_mod_cast g
  · rintro rfl
    have g := sum_le_of_forall₂ (fun r => r.grid.totalExport) (fun r => r.grid.totalExport) hall
      (fun a b hab => hab.2)
    simp only [Spec.columnMeaning, Kpi.sumExport, except_map_ok, Kpi.total_ok ha, Kpi.total_ok ha'] at m m'
    obtain ⟨a, q, m⟩ := m
    obtain ⟨a', q', m'⟩ := m'
    cases Except.ok.inj q
    cases Except.ok.inj q'
    refine ⟨_, _, m.symm, m'.symm, ?_⟩
    exact_mod_cast g

end Verif
