import Verif.Props.Ignored
import Verif.Props.SamplePredictive

/-!
# C98 for whole studies and for the predictive controller
-/

set_option autoImplicit false

namespace Verif
open Pandas Workbook InputReader Enums Simulation Spec FixedOrder Programme

/-- The cells that a study uses beside those of each run: the ranges of sizes, the controller and its horizon. -/
def Spec.studyCells : List (String × Char × List ℕ) :=
  [("Parametric", 'D', [6, 7]), ("Parametric", 'E', [6, 7]), ("Parametric", 'F', [6, 7]),
   ("Controller", 'D', [5]), ("Controller", 'G', [9])]

/-- The two workbooks agree on everything the results of a study use. -/
structure Spec.SameStudy (wb wb' : Pandas.Workbook) : Prop extends SameUsed wb wb' where
  study : ∀ x ∈ studyCells, ∀ r ∈ x.2.2, excel wb x.1 x.2.1 r = excel wb' x.1 x.2.1 r

namespace Depends
variable {L : Libs} {wb wb' : Pandas.Workbook} {size : ℤ × ℤ}

theorem study_symm (h : SameStudy wb wb') (U : Usable wb) : SameStudy wb' wb :=
  { symm h.toSameUsed U with study := fun x hx r hr => (h.study x hx r hr).symm }

theorem demands_same (h : SameUsed wb wb') (U : Usable wb) (U' : Usable wb') {c c' : Container}
    (hc : containerOf wb size = .ok c) (hc' : containerOf wb' size = .ok c') : demands c = demands c' := by
  obtain ⟨s, hs, hw, -⟩ := U.readable.demandInput
  obtain ⟨s', hs', hw', -⟩ := U'.readable.demandInput
  obtain ⟨b, hr, hre⟩ := containerOf_ok hc
  obtain ⟨b', hr', hre'⟩ := containerOf_ok hc'
  obtain ⟨-, -, -, e3, e4, -⟩ := resize_rest hre
  obtain ⟨-, -, -, e3', e4', -⟩ := resize_rest hre'
  obtain ⟨_, k, g⟩ := (readInputs_ok hr).demandInput
  cases Option.some.inj (hs.symm.trans k)
  obtain ⟨_, k', g'⟩ := (readInputs_ok hr').demandInput
  cases Option.some.inj (hs'.symm.trans k')
  have hcol : ∀ col : Char, ("Demand input", col, 6) ∈ usedColumns →
      (List.range (s.height - 5)).map (fun t => s.cell (t + 6) (col.toNat - 'A'.toNat)) =
        (List.range (s'.height - 5)).map (fun t => s'.cell (t + 6) (col.toNat - 'A'.toNat)) := by
    intro col hm
    rw [same_height h (by decide) hs hs']
    refine List.map_congr_left (fun t _ => ?_)
    have := h.columns _ hm (t + 6) (Nat.le_add_left _ _)
    rw [excel_eq hs, excel_eq hs'] at this
    exact this
  have c6 := cell h (sheet := "Demand input") (col := 'I') (r := 6) (rows := [6, 8]) (by decide) (by decide)
  have c8 := cell h (sheet := "Demand input") (col := 'I') (r := 8) (rows := [6, 8]) (by decide) (by decide)
  rw [excel_eq hs, excel_eq hs'] at c6 c8
  have d := hcol 'D' (by decide)
  have e := hcol 'E' (by decide)
  have f := hcol 'F' (by decide)
  have g1 := hcol 'G' (by decide)
  rw [demands_total (blank U.top hs) (e3 ▸ e4 ▸ g) (le_trans (by decide) hw),
    demands_total (blank U'.top hs') (e3' ▸ e4' ▸ g') (le_trans (by decide) hw')]
  have c6' : s.cell 6 8 = s'.cell 6 8 := c6
  have c8' : s.cell 8 8 = s'.cell 8 8 := c8
  have d' : (List.range (s.height - 5)).map (fun t => s.cell (t + 6) 3) =
    (List.range (s'.height - 5)).map (fun t => s'.cell (t + 6) 3) := d
  have e' : (List.range (s.height - 5)).map (fun t => s.cell (t + 6) 4) =
    (List.range (s'.height - 5)).map (fun t => s'.cell (t + 6) 4) := e
  have f' : (List.range (s.height - 5)).map (fun t => s.cell (t + 6) 5) =
    (List.range (s'.height - 5)).map (fun t => s'.cell (t + 6) 5) := f
  have g'' : (List.range (s.height - 5)).map (fun t => s.cell (t + 6) 6) =
    (List.range (s'.height - 5)).map (fun t => s'.cell (t + 6) 6) := g1
  rw [c6', c8', d', e', f', g'']

theorem objects_same (h : SameUsed wb wb') (U : Usable wb) (U' : Usable wb') {o : Objects}
    (ho : objects L wb size = .ok o) : ∃ o', objects L wb' size = .ok o' := by
  have F := (C94_filled size U.top U.tail).mp ⟨o, ho⟩
  exact (C94_filled size U'.top U'.tail).mpr (filled h U' F)

theorem mpcInputs_same (h : SameStudy wb wb') (U : Usable wb) (U' : Usable wb') {first n : ℕ}
    {S : MpcIn (List ℚ)} {mc : List ℚ} (hS : mpcInputs L wb size first n = .ok (S, mc)) :
    mpcInputs L wb' size first n = .ok (S, mc) := by
  unfold mpcInputs at hS ⊢
  obtain ⟨c, hc, hS⟩ := except_bind_ok.mp hS
  have hob : ∃ o, objects L wb size = .ok o := by
    unfold mpcIn at hS
    obtain ⟨o, ho, -⟩ := except_bind_ok.mp hS
    refine ⟨o, ?_⟩
    unfold objects
    rw [hc]
    exact ho
  obtain ⟨o, ho⟩ := hob
  obtain ⟨o', ho'⟩ := objects_same h.toSameUsed U U' ho
  obtain ⟨c', hc', hi'⟩ :=
    except_bind_ok.mp (show (containerOf wb' size >>= fun c => init L c) = .ok o' from ho')
  have hi : init L c = .ok o := by
    unfold objects at ho
    rw [hc] at ho
    exact ho
  have hu := h.toSameUsed
  have hz := U.tail
  have hz' := U'.tail
  obtain ⟨p1, p2, p3⟩ := power_same hu U U' ho ho'
  obtain ⟨q1, q2, q3, q4⟩ := pump hu U.top U'.top hz hz' ho ho'
  obtain ⟨b, hr, hre⟩ := containerOf_ok hc
  obtain ⟨b', hr', hre'⟩ := containerOf_ok hc'
  obtain ⟨-, e1, -, -, -, -, -, -, -, -, -, -, -, e2, -⟩ := resize_rest hre
  obtain ⟨-, e1', -, -, -, -, -, -, -, -, -, -, -, e2', -⟩ := resize_rest hre'
  obtain ⟨s1, w1, f1⟩ := (readInputs_ok hr).controller
  obtain ⟨s1', w1', f1'⟩ := (readInputs_ok hr').controller
  obtain ⟨s2, w2, f2⟩ := (readInputs_ok hr).grid
  obtain ⟨s2', w2', f2'⟩ := (readInputs_ok hr').grid
  have hhor : c.controller.horizon = c'.controller.horizon := by
    have := h.study ("Controller", 'G', [9]) (by decide) 9 (by decide)
    rw [excel_eq w1, excel_eq w1'] at this
    rw [e1, e1', (controller_cells f1).2.2.1, (controller_cells f1').2.2.1]
    exact this
  have hexp : c.grid.exportPrice = c'.grid.exportPrice := by
    have := cell hu (sheet := "Grid") (col := 'D') (r := 9) (rows := [5, 9]) (by decide) (by decide)
    rw [excel_eq w2, excel_eq w2'] at this
    rw [e2, e2', (grid_cells f2).exportPrice, (grid_cells f2').exportPrice]
    exact this
  rw [hc', okBind]
  unfold mpcIn at hS ⊢
  rw [hi, okBind] at hS
  rw [hi', okBind]
  rw [← hhor, ← demands_same hu U U' hc hc', ← grid hu U.top U'.top ho ho', ← prices_same hu U U' hc hc',
    ← hexp, ← p1, ← p2, ← p3, ← q4, ← q1, ← q2, ← q3, ← battery hu U.top U'.top ho ho',
    ← heater hu ho ho', ← tank hu U.top U'.top ho ho']
  exact hS

theorem predict_same {gekko : Gekko} (h : SameStudy wb wb') (U : Usable wb) (U' : Usable wb')
    {rs : List (Mpc.MpcResults (List ℚ))} (hr : predict L gekko wb size = .ok rs) :
    predict L gekko wb' size = .ok rs := by
  obtain ⟨first, n, S, mc, hS, h1, h2, hrun⟩ := predict_ok.mp hr
  refine predict_ok.mpr ⟨first, n, S, mc, mpcInputs_same h U U' hS, ?_, ?_, hrun⟩
  · unfold Holds
    rw [← cell h.toSameUsed (sheet := "Controller") (col := 'G') (rows := [5, 6]) (by decide) (by decide)]
    exact h1
  · unfold Holds
    rw [← cell h.toSameUsed (sheet := "Controller") (col := 'G') (rows := [5, 6]) (by decide) (by decide)]
    exact h2

theorem ranges_same (h : SameStudy wb wb') {pa : Para.Ranges} (R : RangesIn wb pa) : RangesIn wb' pa := by
  have c : ∀ col ∈ ['D', 'E', 'F'], ∀ r ∈ [6, 7], excel wb "Parametric" col r = excel wb' "Parametric" col r := by
    intro col hcol r hr
    simp only [List.mem_cons, List.not_mem_nil, or_false] at hcol
    rcases hcol with rfl | rfl | rfl
    · exact h.study ("Parametric", 'D', [6, 7]) (by decide) r hr
    · exact h.study ("Parametric", 'E', [6, 7]) (by decide) r hr
    · exact h.study ("Parametric", 'F', [6, 7]) (by decide) r hr
  obtain ⟨r1, r2, r3, r4, r5, r6⟩ := R
  unfold Holds at r1 r2 r3 r4 r5 r6
  rw [c 'D' (by decide) 6 (by decide)] at r1
  rw [c 'E' (by decide) 6 (by decide)] at r2
  rw [c 'D' (by decide) 7 (by decide)] at r3
  rw [c 'E' (by decide) 7 (by decide)] at r4
  rw [c 'F' (by decide) 6 (by decide)] at r5
  rw [c 'F' (by decide) 7 (by decide)] at r6
  exact ⟨r1, r2, r3, r4, r5, r6⟩

end Depends

variable {F K F' K' : Type}

open Depends in
/-- C98 for the predictive controller: the results of a combination, and whether it can be run at all. -/
theorem C98_predictive {L : Libs} {gekko : Gekko} {wb wb' : Pandas.Workbook} {size : ℤ × ℤ}
    {rs : List (Mpc.MpcResults (List ℚ))} (U : Usable wb) (U' : Usable wb') (h : SameStudy wb wb') :
    predict L gekko wb size = .ok rs ↔ predict L gekko wb' size = .ok rs :=
  ⟨predict_same h U U', predict_same (study_symm h U) U' U⟩

open Depends in
/-- C98 for a whole study: if it ends for one of two workbooks that agree on the used cells, it ends for the
other with the same results in every folder, if the charts can be drawn and the tables made. (Charts and tables
may differ: the tables also use the heat incentives.) -/
theorem C98_study {L : Libs} {gekko : Gekko} {wb wb' : Pandas.Workbook} (U : Usable wb)
    (U' : Usable wb') (hsame : SameStudy wb wb') {out : Outputs F K} {out' : Outputs F' K'} {k : K} {k' : K'}
    {st : Main.Store (List Char) Programme.Outcome F} (h : Ends L gekko wb out (.ok k, st))
    (hplot : ∀ name r, st.results name = some r → (out'.plot name r).2 = none)
    (hkpi : out'.kpis st.results = .ok k') :
    ∃ st' : Main.Store (List Char) Programme.Outcome F', Ends L gekko wb' out' (.ok k', st') ∧
      st'.results = st.results := by
  obtain ⟨s, hs, h⟩ := ends_ok h
  obtain ⟨pa, sizes, ctl, first, n, Z⟩ := setup_ok hs
  obtain ⟨hloop, hk⟩ := single_ok h
  obtain ⟨h1, h2⟩ := singleLoop_ok hloop
  have hu := hsame.toSameUsed
  have g5 : Holds wb' "Controller" 'G' 5 first := by
    unfold Holds
    rw [← cell hu (sheet := "Controller") (col := 'G') (rows := [5, 6]) (by decide) (by decide)]
    exact Z.from_hour
  have g6 : Holds wb' "Controller" 'G' 6 n := by
    unfold Holds
    rw [← cell hu (sheet := "Controller") (col := 'G') (rows := [5, 6]) (by decide) (by decide)]
    exact Z.hours
  have hctl : excel wb' "Controller" 'D' 5 = ctl := by
    rw [← hsame.study ("Controller", 'D', [5]) (by decide) 5 (by decide)]
    exact Z.chosen
  have R' := ranges_same hsame ⟨Z.hpMax, Z.hpMin, Z.tsMax, Z.tsMin, Z.hpStep, Z.tsStep⟩
  -- each combination of the other workbook can be run, with the same results
  have hsolve : ∀ z ∈ sizes, ∃ r, s.solve (Para.folderName z) = .ok r ∧
      ∃ c, containerOf wb' z = .ok c ∧ solvePickle L gekko (controllerOf ctl) first n c = .ok r := by
    intro z hz
    obtain ⟨r, hr, -⟩ := h1 (Para.folderName z) (by rw [Z.names]; exact List.mem_map_of_mem hz)
    have hr' : s.solve (Para.folderName z) = .ok r := hr
    obtain ⟨c, hcont, hsol⟩ := Z.solve z hz
    refine ⟨r, hr', ?_⟩
    rw [hsol] at hr'
    cases hco : controllerOf ctl with
    | fixedOrder =>
      rw [hco] at hr'
      obtain ⟨rs, hsim, e⟩ := (solve_fixed hcont Z.from_hour Z.hours).mp hr'
      have hsim' := simulate_same hu U U' hsim
      obtain ⟨S, f', n', hS', -⟩ := simulate_ok.mp hsim'
      unfold runInputs at hS'
      obtain ⟨c', hc', -⟩ := except_bind_ok.mp hS'
      exact ⟨c', hc', (solve_fixed hc' g5 g6).mpr ⟨rs, hsim', e⟩⟩
    | predictive =>
      rw [hco] at hr'
      obtain ⟨rs, hsim, e⟩ := (solve_predictive hcont Z.from_hour Z.hours).mp hr'
      have hsim' := predict_same hsame U U' hsim
      obtain ⟨f', n', S, mc, hS', -⟩ := predict_ok.mp hsim'
      unfold mpcInputs at hS'
      obtain ⟨c', hc', -⟩ := except_bind_ok.mp hS'
      exact ⟨c', hc', (solve_predictive hc' g5 g6).mpr ⟨rs, hsim', e⟩⟩
    | other =>
      rw [hco] at hr'
      cases hr'
  obtain ⟨s', hs'⟩ := (C99_sets_up (L := L) (gekko := gekko) U'.top).mpr ⟨U'.readable, pa, sizes, first, n, R',
    Z.combos, Z.nonempty, g5, g6, fun z hz => by
      obtain ⟨_, _, c, hc, _⟩ := hsolve z hz
      exact ⟨c, hc⟩⟩
  obtain ⟨pa', sizes', ctl', first', n', Z'⟩ := setup_ok hs'
  have e1 : first' = first := by exact_mod_cast num_eq rfl Z'.from_hour g5
  have e2 : n' = n := by exact_mod_cast num_eq rfl Z'.hours g6
  have e3 : ctl' = ctl := Z'.chosen.symm.trans hctl
  have e4 : sizes' = sizes := Except.ok.inj (Z'.combos.symm.trans
    ((ranges_combos ⟨Z'.hpMax, Z'.hpMin, Z'.tsMax, Z'.tsMin, Z'.hpStep, Z'.tsStep⟩ R').trans Z.combos))
  subst e1 e2 e3 e4
  have hsolve' : ∀ z ∈ sizes', s'.solve (Para.folderName z) = s.solve (Para.folderName z) := by
    intro z hz
    obtain ⟨r, hr, c, hc, hcr⟩ := hsolve z hz
    obtain ⟨c', hc', hsol'⟩ := Z'.solve z hz
    cases Except.ok.inj (hc'.symm.trans hc)
    rw [hsol', hr, hcr]
  obtain ⟨st', hst'⟩ := singleLoop_total (P := s'.parts out') (names := s'.names) .empty (fun m hm => by
    rw [Z'.names] at hm
    obtain ⟨z, hz, rfl⟩ := List.mem_map.mp hm
    obtain ⟨r, hr, -⟩ := hsolve z hz
    obtain ⟨r', hr', hst, -⟩ := h1 (Para.folderName z) (by rw [Z.names]; exact List.mem_map_of_mem hz)
    have hrr : s.solve (Para.folderName z) = .ok r' := hr'
    cases Except.ok.inj (hr.symm.trans hrr)
    exact ⟨r, (hsolve' z hz).trans hr, hplot _ _ hst⟩)
  obtain ⟨h1', h2'⟩ := singleLoop_ok hst'
  have hres : st'.results = st.results := by
    funext name
    by_cases hm : name ∈ s.names
    · obtain ⟨r, hr, a, -⟩ := h1 name hm
      have hm' : name ∈ s'.names := by rw [Z'.names, ← Z.names]; exact hm
      obtain ⟨r', hr', a', -⟩ := h1' name hm'
      rw [Z.names] at hm
      obtain ⟨z, hz, rfl⟩ := List.mem_map.mp hm
      have hr1 : s.solve (Para.folderName z) = .ok r := hr
      have hr2 : s'.solve (Para.folderName z) = .ok r' := hr'
      rw [hsolve' z hz, hr1] at hr2
      rw [a, a', Except.ok.inj hr2]
    · have hm' : name ∉ s'.names := by rw [Z'.names, ← Z.names]; exact hm
      rw [(h2 name hm).1, (h2' name hm').1]
      rfl
  refine ⟨st', ?_, hres⟩
  have hsingle : Main.single (s'.parts out') s'.names = (.ok k', st') := by
    unfold Main.single
    split
    · rename_i hnil
      rw [Z'.names, List.map_eq_nil_iff] at hnil
      exact absurd hnil Z'.nonempty
    · rename_i heq
      rw [hst']
      exact Prod.ext (by show out'.kpis st'.results = _; rw [hres]; exact hkpi) rfl
  unfold Ends
  rw [hs']
  exact Or.inl hsingle.symm

/-- What is in the results files does not depend on how the charts and tables are made. -/
theorem results_unique {L : Libs} {gekko : Gekko} {wb : Pandas.Workbook} {out : Outputs F K}
    {out' : Outputs F' K'} {k : K} {k' : K'} {st : Main.Store (List Char) Programme.Outcome F}
    {st' : Main.Store (List Char) Programme.Outcome F'} (h : Ends L gekko wb out (.ok k, st))
    (h' : Ends L gekko wb out' (.ok k', st')) : st.results = st'.results := by
  obtain ⟨s, hs, h⟩ := ends_ok h
  obtain ⟨s', hs', h'⟩ := ends_ok h'
  cases Except.ok.inj (hs.symm.trans hs')
  obtain ⟨h1, h2⟩ := singleLoop_ok (single_ok h).1
  obtain ⟨h1', h2'⟩ := singleLoop_ok (single_ok h').1
  funext name
  by_cases hm : name ∈ s.names
  · obtain ⟨r, hr, a, -⟩ := h1 name hm
    obtain ⟨r', hr', a', -⟩ := h1' name hm
    have e1 : s.solve name = .ok r := hr
    have e2 : s.solve name = .ok r' := hr'
    rw [a, a', Except.ok.inj (e1.symm.trans e2)]
  · rw [(h2 name hm).1, (h2' name hm).1]
    rfl

/-- C98: if the studies of two workbooks that agree on the used cells both end, they have the same results. -/
theorem C98_same_results {L : Libs} {gekko : Gekko} {wb wb' : Pandas.Workbook} (U : Usable wb)
    (U' : Usable wb') (hsame : SameStudy wb wb') {out : Outputs F K} {out' : Outputs F' K'} {k : K} {k' : K'}
    {st : Main.Store (List Char) Programme.Outcome F} {st' : Main.Store (List Char) Programme.Outcome F'}
    (h : Ends L gekko wb out (.ok k, st)) (h' : Ends L gekko wb' out' (.ok k', st')) :
    st.results = st'.results := by
  obtain ⟨st'', h'', e⟩ := C98_study U U' hsame h
    (out' := (⟨fun _ _ => ([], none), fun _ => .ok ()⟩ : Outputs Unit Unit)) (fun _ _ _ => rfl) rfl
  rw [← e]
  exact results_unique h'' h'

/-! ## Examples -/

namespace Sample

theorem edited_study : SameStudy (book "Simple") edited :=
  { same_used with
    study := by
      simp only [studyCells, List.forall_mem_cons, List.not_mem_nil, false_implies, implies_true, and_true]
      exact ⟨⟨rfl, rfl⟩, ⟨rfl, rfl⟩, ⟨rfl, rfl⟩, rfl, rfl⟩ }

/-- The sample of the predictive controller with another sheet for generating demands. -/
def aheadEdited : Pandas.Workbook := fun name =>
  if name = "Demand gen" then some (sheet 8 37 (all 7)) else ahead name

theorem aheadEdited_top : TopRowsEmpty aheadEdited := by
  intro name s hs k
  unfold aheadEdited at hs
  split_ifs at hs
  · cases Option.some.inj hs; rfl
  · exact ahead_top name s hs k

theorem aheadEdited_usable : Usable aheadEdited where
  top := aheadEdited_top
  readable := { ahead_readable with demandGen := ⟨_, rfl, by decide, by decide⟩ }
  store := ⟨_, rfl, by decide, by decide⟩
  tail := tail_of_height (s := pump "Simple") rfl (Nat.le_refl 47)
  pump := fun _ s h => by
    cases Option.some.inj h
    exact ⟨rfl, (by decide : 36 ≤ 47)⟩
  inverter := usable.inverter

theorem aheadEdited_shape {sheet : String} (h : aheadEdited sheet = ahead sheet) :
    SameShape ahead aheadEdited sheet := by
  intro s s' hs hs'
  cases Option.some.inj (hs.symm.trans (h.symm.trans hs'))
  exact ⟨rfl, rfl, fun _ _ => rfl⟩

theorem aheadEdited_study : SameStudy ahead aheadEdited where
  cells := by
    simp only [usedCells, List.forall_mem_cons, List.not_mem_nil, false_implies, implies_true, and_true]
    refine ⟨?_, ?_, ?_, ?_, ?_, ?_, ?_, ?_, ?_, ?_, ?_, ?_, ?_, ?_, ?_, ?_, ?_, ?_, ?_, ?_, ?_, ?_⟩ <;>
      (repeat' constructor)
  columns := by
    simp only [usedColumns, List.forall_mem_cons, List.not_mem_nil, false_implies, implies_true, and_true]
    refine ⟨?_, ?_, ?_, ?_, ?_, ?_, ?_, ?_, ?_, ?_, ?_, ?_, ?_, ?_, ?_, ?_, ?_, ?_, ?_⟩ <;>
      exact fun _ _ => rfl
  lengths := by
    simp only [List.forall_mem_cons, List.not_mem_nil, false_implies, implies_true, and_true]
    exact ⟨rfl, rfl, rfl, rfl⟩
  prices := fun _ _ _ => rfl
  tests := fun _ _ _ _ _ => rfl
  batteryShape := aheadEdited_shape rfl
  battery := fun _ _ _ _ _ _ => rfl
  turbineShape := aheadEdited_shape rfl
  turbines := fun _ _ _ => rfl
  panelShape := aheadEdited_shape rfl
  panels := fun _ _ _ _ _ _ => rfl
  site := fun _ _ _ _ _ _ => rfl
  study := by
    simp only [studyCells, List.forall_mem_cons, List.not_mem_nil, false_implies, implies_true, and_true]
    exact ⟨⟨rfl, rfl⟩, ⟨rfl, rfl⟩, ⟨rfl, rfl⟩, rfl, rfl⟩

end Sample

attribute [local irreducible] Programme.Ends Sample.ahead Sample.aheadEdited Sample.book Sample.edited

/-- The studies of the sample and of its edited copy end with the same results, with either controller. -/
example {L : Libs} (hL : WholeYear L) (hk : L.knownModule "Some_Module" = true) (gekko : Gekko)
    {out : Outputs F K} (hplot : ∀ name r, (out.plot name r).2 = none) (hkpi : ∀ rs, ∃ k, out.kpis rs = .ok k) :
    (∃ k st k' st', Ends L gekko (Sample.book "Simple") out (.ok k, st) ∧
      Ends L gekko Sample.edited out (.ok k', st') ∧ st'.results = st.results) ∧
    ∃ k st k' st', Ends L Sample.importAll Sample.ahead out (.ok k, st) ∧
      Ends L Sample.importAll Sample.aheadEdited out (.ok k', st') ∧ st'.results = st.results := by
  constructor
  · obtain ⟨k, st, h, -⟩ := sample_study_ends hL hk gekko hplot hkpi
    obtain ⟨k', hk'⟩ := hkpi st.results
    obtain ⟨st', h', e⟩ := C98_study Sample.usable Sample.edited_usable Sample.edited_study h
      (fun _ _ _ => hplot _ _) hk'
    exact ⟨k, st, k', st', h, h', e⟩
  · obtain ⟨k, st, h, -⟩ := sample_predictive_ends hL hk hplot hkpi
    obtain ⟨k', hk'⟩ := hkpi st.results
    obtain ⟨st', h', e⟩ := C98_study Sample.ahead_usable Sample.aheadEdited_usable
      Sample.aheadEdited_study h (fun _ _ _ => hplot _ _) hk'
    exact ⟨k, st, k', st', h, h', e⟩

/-- Whenever both end, with whatever other outputs. -/
example {L : Libs} {gekko : Gekko} {out out' : Outputs F K} {k k' : K}
    {st st' : Main.Store (List Char) Programme.Outcome F} (h : Ends L gekko Sample.ahead out (.ok k, st))
    (h' : Ends L gekko Sample.aheadEdited out' (.ok k', st')) : st.results = st'.results :=
  C98_same_results Sample.ahead_usable Sample.aheadEdited_usable Sample.aheadEdited_study h h'

end Verif
