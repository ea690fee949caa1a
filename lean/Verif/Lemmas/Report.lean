import Verif.Model.Report
import Verif.Props.Power
import Verif.Props.Predictive
import Verif.Props.KpiTables
import Verif.Props.Figures

/-!
# Lemmas about the programme with its own figures and tables
-/

set_option autoImplicit false

namespace Verif

namespace Spec
open Pandas Simulation Programme

/-- The power of the wind farm the tables are made with: none without turbines, otherwise what windpowerlib
computes from the cells of the sheet, in kW and halved, to two decimals. -/
def FarmPower (L : Libs) (wb : Pandas.Workbook) (xs : List ℚ) : Prop :=
  ∃ m, Holds wb "Wind farm" 'F' 15 m ∧ (m = 0 → xs = List.replicate 8760 0) ∧ (m ≠ 0 →
    ∃ p, L.windFarm (excel wb "Wind farm" 'C' 15) (excel wb "Wind farm" 'D' 15) (excel wb "Wind farm" 'E' 15)
      (excel wb "Wind farm" 'F' 15) (excel wb "Wind farm" 'G' 15) (farmWind wb) = .ok p ∧
      xs = p.map fun x => pyRound (x * (1 / 2) / 1000) 2)

/-- What the indicators of a combination are computed from, besides its results: the name with its sizes, and
the cells with the hours, the fuel of the heater, the heat incentive, the tariff and the wind farm. -/
structure KpiCells (L : Libs) (wb : Pandas.Workbook) (size : ℤ × ℤ) (C : Kpi.Calcs (List ℚ)) : Prop where
  name : C.name = Para.folderName size
  hours : Holds wb "Controller" 'G' 6 C.timesteps
  heater : C.electric = true ↔ Workbook.fuelOf (excel wb "Aux heat" 'C' 6) = .ok .electric
  scheme : ∀ t, t ≠ "" → (C.rhi.rhiType = t ↔ Says wb "Heat pump" 'N' 5 t)
  incentive : ∀ t, t ≠ "" → (C.rhi.tariffType = t ↔ Says wb "Heat pump" 'N' 6 t)
  fixedRate : Says wb "Heat pump" 'N' 6 "Fixed" → Holds wb "Heat pump" 'N' 7 C.rhi.fixedRate
  tier1 : Says wb "Heat pump" 'N' 6 "Tiered" → Holds wb "Heat pump" 'N' 8 C.rhi.tier1
  tier2 : Says wb "Heat pump" 'N' 6 "Tiered" → Holds wb "Heat pump" 'N' 9 C.rhi.tier2
  tariff : ∀ t, t ≠ "" → (C.tariff = t ↔ Says wb "Grid" 'D' 5 t)
  farm : C.tariff ∈ ["Time of use - PPA + FR", "Time of use - PPA + WM", "Time of use - PPA + VP"] →
    Holds wb "Grid" 'J' 9 C.lowerPercent ∧ Holds wb "Grid" 'K' 9 C.higherPercent ∧ FarmPower L wb C.farmPower

/-- The results of a combination: those of the controller named in the workbook. -/
def RunOf (L : Libs) (gekko : Gekko) (wb : Pandas.Workbook) (size : ℤ × ℤ) (rs : List (Results (List ℚ))) : Prop :=
  (Says wb "Controller" 'D' 5 "Fixed order control" ∧ simulate L wb size = .ok rs) ∨
  (Says wb "Controller" 'D' 5 "Model predictive control" ∧ ∃ ms, predict L gekko wb size = .ok ms ∧
    rs = ms.map (·.toResults))

end Spec

namespace Report
open Pandas Workbook InputReader Simulation Para Programme Spec FixedOrder

variable {L : Libs} {gekko : Gekko} {wb : Pandas.Workbook} {size : ℤ × ℤ}

theorem label_iff {v : Value} {t : String} (h : t ≠ "") : label v = t ↔ v = some (.text t) := by
  constructor
  · intro e
    unfold label at e
    split at e
    · rw [e]
    · exact absurd e.symm h
  · rintro rfl
    rfl

theorem rhi_cells {s : Pandas.Sheet} {d : Dict} (h : Workbook.rhi (readSheet s) = .ok d) :
    d = [("RHI_type", s.cell 5 13), ("tariff_type", s.cell 6 13), ("fixed_rate", s.cell 7 13),
      ("tier_1", s.cell 8 13), ("tier_2", s.cell 9 13)] := by
  unfold Workbook.rhi at h
  simp only [except_bind_ok, except_pure_ok] at h
  obtain ⟨v1, h1, v2, h2, v3, h3, v4, h4, v5, h5, rfl⟩ := h
  rw [at_ok h1, at_ok h2, at_ok h3, at_ok h4, at_ok h5]

theorem resize_rhi {b c : Container} (h : resizeContainer size b = .ok c) : c.heatPump.rhi = b.heatPump.rhi := by
  obtain ⟨_, _, _, _, _, _, _, _, _, _, _, _, _, _, rfl⟩ := resizeContainer_ok h
  rfl

theorem rateOf_ok {d : Dict} {key : String} {chosen : Prop} [Decidable chosen] {x : ℚ} {v : Value}
    (hd : Dict.get d key = .ok v) (h : rateOf d key chosen = .ok x) (hc : chosen) : v = some (.num x) := by
  unfold rateOf at h
  rw [if_pos hc, hd] at h
  exact numOf_ok.mp h

/-- The heat incentive of the container of a combination. -/
theorem rhi_of {c : Container} (h : containerOf wb size = .ok c) :
    c.heatPump.rhi = [("RHI_type", excel wb "Heat pump" 'N' 5), ("tariff_type", excel wb "Heat pump" 'N' 6),
      ("fixed_rate", excel wb "Heat pump" 'N' 7), ("tier_1", excel wb "Heat pump" 'N' 8),
      ("tier_2", excel wb "Heat pump" 'N' 9)] := by
  obtain ⟨b, hr, hs⟩ := containerOf_ok h
  obtain ⟨s, hw, hf⟩ := (readInputs_ok hr).heatPump
  rw [resize_rhi hs, rhi_cells (heatPump_ok hf).2.1]
  simp only [excel_eq hw]
  rfl

theorem farmPower_of {c : Container} (ht : TopRowsEmpty wb) (h : containerOf wb size = .ok c) {xs : List ℚ}
    (hx : farmSeries L c = .ok xs) : FarmPower L wb xs := by
  obtain ⟨b, hr, -⟩ := containerOf_ok h
  have hR := (C92_readable ht).mp ⟨b, hr⟩
  have e1 := Depends.farm_get' ht hR h
  obtain ⟨d1, -⟩ := farm_columns ht h e1
  unfold farmSeries at hx
  rw [d1, e1] at hx
  simp only [okBind, dict_cons, reduceIte, String.reduceEq] at hx
  obtain ⟨m, hm, hy⟩ := except_bind_ok.mp hx
  refine ⟨m, numOf_ok.mp hm, fun h0 => ?_, fun h0 => ?_⟩
  · rw [if_pos h0] at hy
    unfold Renewables.windFarmPower Renewables.Frame.get at hy
    rw [if_pos h0, if_pos rfl] at hy
    exact (Except.ok.inj hy).symm
  · rw [if_neg h0] at hy
    obtain ⟨out, hout, hz⟩ := except_bind_ok.mp hy
    obtain ⟨p, hp, hu⟩ := except_bind_ok.mp hz
    obtain ⟨a, b, c, d, e, ha, hb, hc, hd, he, hl, rfl⟩ := windWeather_ok hout
    cases Except.ok.inj ha
    cases Except.ok.inj hb
    cases Except.ok.inj hc
    cases Except.ok.inj hd
    cases Except.ok.inj he
    unfold Renewables.windFarmPower Renewables.Frame.get at hu
    rw [if_neg h0, if_pos rfl] at hu
    exact ⟨p, hp, (Except.ok.inj hu).symm⟩

/-- What the cells say about the inputs of the indicators. -/
theorem calcsOf_ok {c : Container} (ht : TopRowsEmpty wb) (h : containerOf wb size = .ok c)
    {C : Kpi.Calcs (List ℚ)} (hC : calcsOf L c = .ok C) (rs : List (Results (List ℚ))) :
    KpiCells L wb size { C with name := folderName size, results := rs } := by
  obtain ⟨b, hr, hs⟩ := containerOf_ok h
  obtain ⟨sc, wc, pc⟩ := (readInputs_ok hr).controller
  obtain ⟨sg, wg, pg⟩ := (readInputs_ok hr).grid
  obtain ⟨sa, wa, pa⟩ := (readInputs_ok hr).aux
  obtain ⟨-, ec, -, -, -, -, -, -, -, -, -, -, -, eg, ea, -⟩ := resize_rest hs
  have G := grid_cells pg
  have A := (aux_cells pa).1
  unfold calcsOf rhiOf InputReader.rhi at hC
  rw [rhi_of h, ec, (controller_cells pc).1] at hC
  simp only [dict_cons, reduceIte, String.reduceEq, okBind, except_bind_ok, except_pure_ok, Except.ok.injEq,
    exists_eq_left'] at hC
  obtain ⟨n, hn, R, ⟨x1, hx1, x2, hx2, x3, hx3, rfl⟩, ⟨lo, hi, pw⟩, hfarm, rfl⟩ := hC
  have gT : c.grid.tariffChoice = excel wb "Grid" 'D' 5 := by rw [eg, G.tariff, excel_eq wg]; rfl
  refine ⟨rfl, ?_, ?_, ?_, ?_, ?_, ?_, ?_, ?_, ?_⟩
  · unfold Holds
    rw [excel_eq wc]
    exact natOf_ok hn
  · rw [excel_eq wa]
    show decide (c.auxFuel = Fuel.electric) = true ↔ _
    rw [decide_eq_true_iff, ea]
    have A' : fuelOf (sa.cell 6 ('C'.toNat - 'A'.toNat)) = .ok b.auxFuel := A
    rw [A', Except.ok.injEq]
  · exact fun t ht => label_iff ht
  · exact fun t ht => label_iff ht
  · intro hf
    unfold Says at hf
    exact rateOf_ok (by simp only [dict_cons, reduceIte, String.reduceEq]) hx1 (by rw [hf]; rfl)
  · intro hf
    unfold Says at hf
    exact rateOf_ok (by simp only [dict_cons, reduceIte, String.reduceEq]) hx2 (by rw [hf]; rfl)
  · intro hf
    unfold Says at hf
    exact rateOf_ok (by simp only [dict_cons, reduceIte, String.reduceEq]) hx3 (by rw [hf]; rfl)
  · intro t ht
    show label c.grid.tariffChoice = t ↔ _
    rw [gT]
    exact label_iff ht
  · intro hm
    have hm' : label c.grid.tariffChoice ∈ farmTariffs := hm
    unfold farmOf at hfarm
    rw [if_pos hm'] at hfarm
    simp only [except_bind_ok, except_pure_ok] at hfarm
    obtain ⟨⟨a1, a2, a3, a4⟩, hp, xs, hx, e⟩ := hfarm
    cases e
    obtain ⟨p1, p2, -⟩ := ppaTerms_ok hp
    rw [eg, G.ppa] at p1 p2
    simp only [dict_cons, reduceIte, String.reduceEq, Except.ok.injEq] at p1 p2
    unfold Holds
    rw [excel_eq wg, excel_eq wg]
    exact ⟨p1, p2, farmPower_of ht h hx⟩

/-- What a study starts from: the ranges, the sizes and the pickles. -/
structure StudyOf (wb : Pandas.Workbook) (base : Container) (dir : Dir Container) (pa : Ranges)
    (sizes : List (ℤ × ℤ)) : Prop where
  made : readInputs wb = .ok base
  ranges : rangesOf base.parametric = .ok pa
  combos : Para.combos pa = .ok sizes
  cells : RangesIn wb pa
  pickles : ∀ z ∈ sizes, ∃ c, containerOf wb z = .ok c ∧ dir (folderName z ++ ".pkl".toList) = some c

/-- The input directory. -/
theorem inputDir_ok {base : Container} {dir : Dir Container} (h : inputDir wb = .ok (base, dir)) :
    ∃ pa sizes, StudyOf wb base dir pa sizes := by
  unfold inputDir at h
  simp only [except_bind_ok, except_pure_ok] at h
  obtain ⟨base', hr, pa, hpa, sizes, hz, dir', hd, e⟩ := h
  cases e
  obtain ⟨P1, -⟩ := createPickles_ok hd
  obtain ⟨s1, w1, p1⟩ := (readInputs_ok hr).parametric
  have hpa' := hpa
  rw [parametric_cells p1] at hpa'
  obtain ⟨r1, r2, r3, r4, r5, r6⟩ := rangesOf_ok hpa'
  refine ⟨pa, sizes, hr, hpa, hz, ⟨?_, ?_, ?_, ?_, ?_, ?_⟩, fun z hz => ?_⟩
  · unfold Holds; rw [excel_eq w1]; exact r1
  · unfold Holds; rw [excel_eq w1]; exact r2
  · unfold Holds; rw [excel_eq w1]; exact r3
  · unfold Holds; rw [excel_eq w1]; exact r4
  · intro hn; unfold Holds; rw [excel_eq w1]; exact r5 hn
  · intro hn; unfold Holds; rw [excel_eq w1]; exact r6 hn
  · obtain ⟨c, hc, hdz⟩ := P1 z hz
    refine ⟨c, ?_, hdz⟩
    unfold containerOf
    rw [hr]
    exact hc

/-- If `main` gets to the loop, the input directory was written. -/
theorem inputDir_of_setup {s : Setup} (h : setup L gekko wb = .ok s) : ∃ base dir, inputDir wb = .ok (base, dir) := by
  unfold setup at h
  simp only [except_bind_ok] at h
  obtain ⟨base, hr, pa, hpa, sizes, hz, dir, hd, -⟩ := h
  unfold inputDir
  rw [hr, okBind, hpa, okBind, hz, okBind, hd]
  exact ⟨_, _, rfl⟩

/-- The combinations the loop runs over are those of the input directory. -/
theorem setup_names {s : Setup} (h : setup L gekko wb = .ok s) {base : Container} {dir : Dir Container}
    {pa : Ranges} {sizes : List (ℤ × ℤ)} (D : StudyOf wb base dir pa sizes) : s.names = sizes.map folderName := by
  unfold setup at h
  simp only [except_bind_ok] at h
  obtain ⟨base', hr, pa', hpa, sizes', hz, dir', hd, h⟩ := h
  cases Except.ok.inj (hr.symm.trans D.made)
  cases Except.ok.inj (hpa.symm.trans D.ranges)
  cases Except.ok.inj (hz.symm.trans D.combos)
  cases sizes with
  | nil => cases h
  | cons z zs =>
    dsimp only at h
    split at h
    · cases h
    · simp only [except_bind_ok, except_pure_ok] at h
      obtain ⟨_, -, _, -, _, -, _, -, _, -, rfl⟩ := h
      rfl

/-- The solver of a combination, as the controller of the workbook. -/
theorem solved_iff {s : Setup} (h : setup L gekko wb = .ok s) {base : Container} {dir : Dir Container}
    {pa : Ranges} {sizes : List (ℤ × ℤ)} (D : StudyOf wb base dir pa sizes) {z : ℤ × ℤ} (hz : z ∈ sizes) :
    sizes ≠ [] ∧ (∀ o, s.solve (folderName z) = .ok o → RunOf L gekko wb z (rows o)) ∧
    ∀ rs, RunOf L gekko wb z rs → ∃ o, s.solve (folderName z) = .ok o ∧ rows o = rs := by
  obtain ⟨pa', sizes', ctl, first, n, Z⟩ := setup_ok h
  have e : sizes'.map folderName = sizes.map folderName := Z.names.symm.trans (setup_names h D)
  have hz' : z ∈ sizes' := by
    have hm : folderName z ∈ sizes'.map folderName := by rw [e]; exact List.mem_map_of_mem hz
    obtain ⟨y, hy, hn⟩ := List.mem_map.mp hm
    rwa [C40_folders_distinct hn] at hy
  obtain ⟨c, hc, hsol⟩ := Z.solve z hz'
  refine ⟨List.ne_nil_of_mem hz, fun o ho => ?_, fun rs hrs => ?_⟩
  · have hch := Z.chosen
    rw [hsol] at ho
    unfold controllerOf at ho
    split at ho
    · obtain ⟨rs, hsim, rfl⟩ := (solve_fixed hc Z.from_hour Z.hours).mp ho
      exact Or.inl ⟨hch, hsim⟩
    · obtain ⟨rs, hsim, rfl⟩ := (solve_predictive hc Z.from_hour Z.hours).mp ho
      exact Or.inr ⟨hch, rs, hsim, rfl⟩
    · cases ho
  · rw [hsol, ← Z.chosen]
    rcases hrs with ⟨hch, hsim⟩ | ⟨hch, ms, hsim, rfl⟩
    · unfold Says at hch
      rw [hch]
      exact ⟨_, (solve_fixed hc Z.from_hour Z.hours).mpr ⟨rs, hsim, rfl⟩, rfl⟩
    · unfold Says at hch
      rw [hch]
      exact ⟨_, (solve_predictive hc Z.from_hour Z.hours).mpr ⟨ms, hsim, rfl⟩, rfl⟩

/-- What a study that gets to the tables is. -/
structure Reached (L : Libs) (gekko : Gekko) (wb : Pandas.Workbook) (root : String) (k : Stage)
    (st : Main.Store (List Char) Programme.Outcome Figures.Drawn) (base : Container) (dir : Dir Container)
    (pa : Ranges) (sizes : List (ℤ × ℤ)) : Prop where
  study : StudyOf wb base dir pa sizes
  stage : tables L base dir root st.results = k
  solved : ∀ z ∈ sizes, ∃ o, RunOf L gekko wb z (rows o) ∧ st.results (folderName z) = some o ∧
    st.figures (folderName z) = (plots dir (folderName z) o).1 ∧ (plots dir (folderName z) o).2 = none
  others : ∀ name, (∀ z ∈ sizes, name ≠ folderName z) → st.results name = none ∧ st.figures name = []

theorem ends_reached {root : String} {k : Stage} {st : Main.Store (List Char) Programme.Outcome Figures.Drawn}
    (h : Report.Ends L gekko wb root (.ok k, st)) : ∃ base dir pa sizes, Reached L gekko wb root k st base dir pa sizes := by
  unfold Report.Ends at h
  split at h
  · cases h
  · rename_i base dir he
    obtain ⟨pa, sizes, D⟩ := inputDir_ok he
    obtain ⟨s, hs, h⟩ := ends_ok h
    obtain ⟨hloop, hk⟩ := single_ok h
    obtain ⟨h1, h2⟩ := singleLoop_ok hloop
    have hnames := setup_names hs D
    refine ⟨base, dir, pa, sizes, D, Except.ok.inj hk, fun z hz => ?_, fun name hn => ?_⟩
    · obtain ⟨o, ho, e1, e2, e3⟩ := h1 (folderName z) (by rw [hnames]; exact List.mem_map_of_mem hz)
      exact ⟨o, (solved_iff hs D hz).2.1 o ho, e1, e2, e3⟩
    · refine h2 name (fun hm => ?_)
      rw [hnames] at hm
      obtain ⟨z, hz, rfl⟩ := List.mem_map.mp hm
      exact hn z hz rfl

end Report
end Verif
