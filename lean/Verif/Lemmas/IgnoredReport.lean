import Verif.Props.Report
import Verif.Props.IgnoredStudy

/-!
# Lemmas about the cells the figures and tables depend on
-/

set_option autoImplicit false

namespace Verif

/-- The two workbooks agree on the cells of the heat incentive. -/
def Spec.SameIncentive (wb wb' : Pandas.Workbook) : Prop :=
  ∀ r ∈ [5, 6, 7, 8, 9], Spec.excel wb "Heat pump" 'N' r = Spec.excel wb' "Heat pump" 'N' r

namespace Report
open Pandas Workbook InputReader Simulation Spec Programme FixedOrder Kpi KpiTables Depends

variable {L : Libs} {gekko : Gekko} {wb wb' : Pandas.Workbook} {size : ℤ × ℤ}

theorem says_same (h : SameStudy wb wb') {t : String} (hs : Says wb "Controller" 'D' 5 t) :
    Says wb' "Controller" 'D' 5 t := by
  unfold Says
  rw [← h.study ("Controller", 'D', [5]) (by decide) 5 (by decide)]
  exact hs

theorem run_same (h : SameStudy wb wb') (U : Usable wb) (U' : Usable wb') {rs : List (Results (List ℚ))}
    (hr : RunOf L gekko wb size rs) : RunOf L gekko wb' size rs := by
  rcases hr with ⟨hc, hs⟩ | ⟨hc, ms, hp, e⟩
  · exact Or.inl ⟨says_same h hc, simulate_same h.toSameUsed U U' hs⟩
  · exact Or.inr ⟨says_same h hc, ms, predict_same h U U' hp, e⟩

/-- A combination that can be run with one workbook has a container with the other. -/
theorem run_container {rs : List (Results (List ℚ))} (hr : RunOf L gekko wb size rs) : ∃ c, containerOf wb size = .ok c := by
  rcases hr with ⟨-, hs⟩ | ⟨-, ms, hp, -⟩
  · unfold simulate at hs
    obtain ⟨c, hc, -⟩ := except_bind_ok.mp hs
    exact ⟨c, hc⟩
  · unfold predict at hp
    obtain ⟨c, hc, -⟩ := except_bind_ok.mp hp
    exact ⟨c, hc⟩

/-- The controller part of the container. -/
theorem info_of {c : Container} (hc : containerOf wb size = .ok c) : c.controller.info =
    [("controller", excel wb "Controller" 'D' 5), ("first_hour", excel wb "Controller" 'G' 5),
      ("total_timesteps", excel wb "Controller" 'G' 6)] := by
  obtain ⟨b, hr, hs⟩ := containerOf_ok hc
  obtain ⟨sc, wc, pc⟩ := (readInputs_ok hr).controller
  obtain ⟨-, ec, -⟩ := resize_rest hs
  rw [ec, (controller_cells pc).1, excel_eq wc, excel_eq wc, excel_eq wc]
  rfl

theorem info_same (h : SameStudy wb wb') {c c' : Container} (hc : containerOf wb size = .ok c)
    (hc' : containerOf wb' size = .ok c') : c.controller.info = c'.controller.info := by
  rw [info_of hc, info_of hc', h.study ("Controller", 'D', [5]) (by decide) 5 (by decide),
    cell h.toSameUsed (sheet := "Controller") (col := 'G') (rows := [5, 6]) (r := 5) (by decide) (by decide),
    cell h.toSameUsed (sheet := "Controller") (col := 'G') (rows := [5, 6]) (r := 6) (by decide) (by decide)]

/-- The tariff, its terms and the fuel of the heater. -/
theorem terms_of {c : Container} (hc : containerOf wb size = .ok c) :
    c.grid.tariffChoice = excel wb "Grid" 'D' 5 ∧
    c.grid.ppaInfo = [("lower_percent", excel wb "Grid" 'J' 9), ("higher_percent", excel wb "Grid" 'K' 9),
      ("lower_penalty", excel wb "Grid" 'L' 9), ("higher_discount", excel wb "Grid" 'M' 9)] ∧
    fuelOf (excel wb "Aux heat" 'C' 6) = .ok c.auxFuel := by
  obtain ⟨b, hr, hs⟩ := containerOf_ok hc
  obtain ⟨sg, wg, pg⟩ := (readInputs_ok hr).grid
  obtain ⟨sa, wa, pa⟩ := (readInputs_ok hr).aux
  obtain ⟨-, -, -, -, -, -, -, -, -, -, -, -, -, eg, ea, -⟩ := resize_rest hs
  have G := grid_cells pg
  rw [eg, ea, G.tariff, G.ppa]
  simp only [excel_eq wg, excel_eq wa]
  exact ⟨rfl, rfl, (aux_cells pa).1⟩

/-- The inputs of the indicators, or the error, are the same. -/
theorem calcs_same (h : SameStudy wb wb') (hi : SameIncentive wb wb') (U : Usable wb) (U' : Usable wb')
    {c c' : Container} (hc : containerOf wb size = .ok c) (hc' : containerOf wb' size = .ok c') :
    calcsOf L c = calcsOf L c' := by
  have hu := h.toSameUsed
  obtain ⟨t1, p1, f1⟩ := terms_of hc
  obtain ⟨t2, p2, f2⟩ := terms_of hc'
  have ef : c.auxFuel = c'.auxFuel := by
    rw [← cell hu (sheet := "Aux heat") (col := 'C') (rows := [6, 9, 10, 11]) (r := 6) (by decide) (by decide), f1]
      at f2
    exact Except.ok.inj f2
  have et : c.grid.tariffChoice = c'.grid.tariffChoice := by
    rw [t1, t2, cell hu (sheet := "Grid") (col := 'D') (rows := [5, 9]) (r := 5) (by decide) (by decide)]
  have ep : c.grid.ppaInfo = c'.grid.ppaInfo := by
    rw [p1, p2, cell hu (sheet := "Grid") (col := 'J') (rows := [9]) (r := 9) (by decide) (by decide),
      cell hu (sheet := "Grid") (col := 'K') (rows := [9]) (r := 9) (by decide) (by decide),
      cell hu (sheet := "Grid") (col := 'L') (rows := [9]) (r := 9) (by decide) (by decide),
      cell hu (sheet := "Grid") (col := 'M') (rows := [9]) (r := 9) (by decide) (by decide)]
  have er : c.heatPump.rhi = c'.heatPump.rhi := by
    rw [rhi_of hc, rhi_of hc', hi 5 (by decide), hi 6 (by decide), hi 7 (by decide), hi 8 (by decide),
      hi 9 (by decide)]
  unfold calcsOf rhiOf farmOf ppaTerms InputReader.rhi
  rw [info_same h hc hc', ef, et, ep, er, farm_same hu U U' hc hc']

/-- The figures, or the error, are the same. -/
theorem plots_same (h : SameStudy wb wb') {dir dir' : Para.Dir Container} {c c' : Container}
    (hc : containerOf wb size = .ok c) (hc' : containerOf wb' size = .ok c')
    (hd : dir (Para.folderName size ++ ".pkl".toList) = some c)
    (hd' : dir' (Para.folderName size ++ ".pkl".toList) = some c') (o : Programme.Outcome) :
    plots dir (Para.folderName size) o = plots dir' (Para.folderName size) o := by
  unfold plots
  rw [hd, hd']
  dsimp only
  rw [info_same h hc hc']

theorem readResults_names {N : Type} {outputs : Para.Dir (List (Results N))} {cs : List (ℤ × ℤ)}
    {rs : List (List Char × List (Results N))} (h : Para.readResults outputs cs = .ok rs) :
    ∀ x ∈ rs, ∃ z ∈ cs, x.1 = Para.folderName z := by
  induction cs generalizing rs with
  | nil =>
    cases Except.ok.inj h
    intro x hx
    cases hx
  | cons c cs ih =>
    unfold Para.readResults at h
    split at h
    · cases h
    · split at h
      · cases h
      · rename_i rs' hrs
        cases Except.ok.inj h
        intro x hx
        rcases List.mem_cons.mp hx with rfl | hx
        · exact ⟨c, List.mem_cons_self, rfl⟩
        · obtain ⟨z, hz, e⟩ := ih hrs x hx
          exact ⟨z, List.mem_cons_of_mem _ hz, e⟩

/-- `run_KPIs` only looks at the inputs of the combinations. -/
theorem runKpis_congr {N : Type} {pa pa' : Para.Ranges} {outputs : Para.Dir (List (Results N))}
    {inputs inputs' : List Char → Calcs N} {sizes : List (ℤ × ℤ)} (h : Para.combos pa = .ok sizes)
    (h' : Para.combos pa' = .ok sizes) (hi : ∀ z ∈ sizes, inputs (Para.folderName z) = inputs' (Para.folderName z))
    (root : String) : runKpis pa outputs inputs root = runKpis pa' outputs inputs' root := by
  have hl : load pa outputs inputs = load pa' outputs inputs' := by
    unfold load
    rw [C43_same_combinations, C43_same_combinations, h, h']
    dsimp only
    cases hr : Para.readResults outputs sizes with
    | error e => rfl
    | ok rs =>
      dsimp only
      have : ∀ nr ∈ rs, ({ inputs nr.1 with name := nr.1, results := nr.2 } : Calcs N) =
          { inputs' nr.1 with name := nr.1, results := nr.2 } := by
        intro nr hm
        obtain ⟨z, hz, e⟩ := readResults_names hr nr hm
        rw [e, hi z hz]
      rw [List.map_congr_left this]
  unfold runKpis
  rw [hl]

theorem mapM_congr {α β : Type} {f g : α → Except PyErr β} {xs : List α} (h : ∀ x ∈ xs, f x = g x) :
    xs.mapM f = xs.mapM g := by
  induction xs with
  | nil => rfl
  | cons x xs ih =>
    rw [List.mapM_cons, List.mapM_cons, h x List.mem_cons_self, ih fun y hy => h y (List.mem_cons_of_mem _ hy)]

/-- The tables are the same. -/
theorem tables_same (h : SameStudy wb wb') (hi : SameIncentive wb wb') (U : Usable wb) (U' : Usable wb')
    {base base' : Container} {dir dir' : Para.Dir Container} {pa pa' : Para.Ranges} {sizes : List (ℤ × ℤ)}
    (D : StudyOf wb base dir pa sizes) (D' : StudyOf wb' base' dir' pa' sizes) (root : String)
    (results : List Char → Option Programme.Outcome) :
    tables L base dir root results = tables L base' dir' root results := by
  have hat : ∀ z ∈ sizes, calcsAt L dir (Para.folderName z) = calcsAt L dir' (Para.folderName z) := by
    intro z hz
    obtain ⟨c, hc, hd⟩ := D.pickles z hz
    obtain ⟨c', hc', hd'⟩ := D'.pickles z hz
    unfold calcsAt
    rw [hd, hd']
    exact calcs_same h hi U U' hc hc'
  have hk : Para.kpiCombos pa = .ok sizes := by rw [C43_same_combinations]; exact D.combos
  have hk' : Para.kpiCombos pa' = .ok sizes := by rw [C43_same_combinations]; exact D'.combos
  unfold tables
  rw [D.ranges, D'.ranges]
  dsimp only
  rw [hk, hk']
  dsimp only
  have hin : ∀ z ∈ sizes, inputsAt L dir (Para.folderName z) = inputsAt L dir' (Para.folderName z) := by
    intro z hz
    unfold inputsAt
    rw [hat z hz]
  rw [mapM_congr hat]
  cases sizes.mapM (fun size => calcsAt L dir' (Para.folderName size)) with
  | error e => rfl
  | ok Cs => exact runKpis_congr D.combos D'.combos hin root

end Report
end Verif
