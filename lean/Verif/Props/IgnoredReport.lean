import Verif.Lemmas.IgnoredReport

/-!
# C98 for the figures and tables
-/

set_option autoImplicit false

namespace Verif
open Pandas Simulation Spec Programme FixedOrder Report Depends

variable {L : Libs} {gekko : Gekko} {wb wb' : Pandas.Workbook} {root : String}

/-- C98 for the results and figures: two workbooks that agree on the cells that are used give the same results
and figures. The cells of the heat incentive matter only for the tables and charts. -/
theorem C98_figures (U : Usable wb) (U' : Usable wb') (h : SameStudy wb wb')
    {k : Stage} {st : Main.Store (List Char) Programme.Outcome Figures.Drawn}
    (hend : Report.Ends L gekko wb root (.ok k, st)) :
    ∃ k', Report.Ends L gekko wb' root (.ok k', st) ∧ (SameIncentive wb wb' → k' = k) := by
  obtain ⟨base, dir, pa, sizes, R⟩ := ends_reached hend
  have D := R.study
  have hp : ∃ out : Outputs Figures.Drawn Stage, Programme.Ends L gekko wb out (.ok k, st) := by
    unfold Report.Ends at hend
    split at hend
    · cases hend
    · exact ⟨_, hend⟩
  obtain ⟨out, hprog⟩ := hp
  obtain ⟨_, hend', -⟩ := C98_study U U' h hprog
    (out' := (⟨fun _ _ => ([], none), fun _ => .ok ()⟩ : Outputs Unit Unit)) (fun _ _ _ => rfl) rfl
  obtain ⟨s', hs', -⟩ := ends_ok hend'
  obtain ⟨base', dir', hdir'⟩ := inputDir_of_setup hs'
  obtain ⟨pa', sizes', D'⟩ := inputDir_ok hdir'
  cases Except.ok.inj (D'.combos.symm.trans ((ranges_combos D'.cells (ranges_same h D.cells)).trans D.combos))
  have hplots : ∀ z ∈ sizes, ∀ o, plots dir (Para.folderName z) o = plots dir' (Para.folderName z) o := by
    intro z hz o
    obtain ⟨c, hc, hd⟩ := D.pickles z hz
    obtain ⟨c', hc', hd'⟩ := D'.pickles z hz
    exact plots_same h hc hc' hd hd' o
  obtain ⟨st', hst', e⟩ := C98_study U U' h hprog (out' := outputsOf L base' dir' root)
    (k' := tables L base' dir' root st.results) (fun name r hr => by
      show (plots dir' name r).2 = none
      by_cases hm : ∃ z ∈ sizes, name = Para.folderName z
      · obtain ⟨z, hz, rfl⟩ := hm
        obtain ⟨o, -, ho, -, hnone⟩ := R.solved z hz
        cases Option.some.inj (ho.symm.trans hr)
        rw [← hplots z hz]
        exact hnone
      · push Not at hm
        rw [(R.others name hm).1] at hr
        cases hr) rfl
  have hrep : Report.Ends L gekko wb' root (.ok (tables L base' dir' root st.results), st') := by
    unfold Report.Ends
    rw [hdir']
    exact hst'
  suffices hst : st' = st by
    rw [hst] at hrep
    exact ⟨_, hrep, fun hi => by rw [← tables_same h hi U U' D D', R.stage]⟩
  obtain ⟨base2, dir2, pa2, sizes2, R2⟩ := ends_reached hrep
  cases Except.ok.inj (R2.study.combos.symm.trans ((ranges_combos R2.study.cells D'.cells).trans D'.combos))
  have hfig : st'.figures = st.figures := by
    funext name
    by_cases hm : ∃ z ∈ sizes, name = Para.folderName z
    · obtain ⟨z, hz, rfl⟩ := hm
      obtain ⟨o, -, ho, hf, -⟩ := R.solved z hz
      obtain ⟨o', -, ho', hf', -⟩ := R2.solved z hz
      rw [e] at ho'
      cases Option.some.inj (ho.symm.trans ho')
      obtain ⟨c, hc, hd⟩ := D.pickles z hz
      obtain ⟨c', hc', hd'⟩ := R2.study.pickles z hz
      rw [hf, hf', plots_same h hc hc' hd hd']
    · push Not at hm
      rw [(R.others name hm).2, (R2.others name hm).2]
  cases st
  cases st'
  cases e
  cases hfig
  rfl

/-- C98 for all that a study writes: two workbooks that agree on the cells that are used, and on those of the
heat incentive, give the same results, figures, tables and charts, and the same exception of the tables if there
is one. -/
theorem C98_report (U : Usable wb) (U' : Usable wb') (h : SameStudy wb wb') (hi : SameIncentive wb wb')
    {k : Stage} {st : Main.Store (List Char) Programme.Outcome Figures.Drawn} :
    Report.Ends L gekko wb root (.ok k, st) ↔ Report.Ends L gekko wb' root (.ok k, st) := by
  constructor
  · intro he
    obtain ⟨k', h', e⟩ := C98_figures U U' h he
    rw [← e hi]
    exact h'
  · intro he
    obtain ⟨k', h', e⟩ := C98_figures U' U (study_symm h U) he
    rw [← e fun r hr => (hi r hr).symm]
    exact h'

/-! ## Examples -/

namespace Sample

theorem edited_incentive : SameIncentive (book "Simple") edited := fun _ _ => rfl

/-- The heat pump sheet with a name that is no scheme of the heat incentive. -/
def otherPump : Pandas.Sheet :=
  sheet 19 47 (put (all 20) [((3, 3), text "ashp"), ((4, 3), text "Simple"), ((8, 3), num 0),
      ((9, 3), text "Integrated performance"), ((12, 3), num 3), ((30, 2), none),
      ((5, 13), text "None"), ((6, 13), text "Fixed")])

/-- The sample workbook without a scheme of the heat incentive. -/
def noScheme : Pandas.Workbook := fun name => if name = "Heat pump" then some otherPump else book "Simple" name

theorem noScheme_top : TopRowsEmpty noScheme := by
  intro name s hs k
  unfold noScheme at hs
  split_ifs at hs
  · cases Option.some.inj hs; rfl
  · exact top "Simple" name s hs k

theorem noScheme_usable : Usable noScheme where
  top := noScheme_top
  readable := { readable "Simple" with heatPump := ⟨otherPump, rfl, Nat.le_refl 19, by show 26 ≤ 47; decide⟩ }
  store := ⟨_, rfl, by decide, by decide⟩
  tail := tail_of_height (s := otherPump) rfl (Nat.le_refl 47)
  pump := fun _ s h => by
    cases Option.some.inj h
    exact ⟨rfl, (by decide : 36 ≤ 47)⟩
  inverter := usable.inverter

theorem noScheme_shape {sheet : String} (h : noScheme sheet = book "Simple" sheet) :
    SameShape (book "Simple") noScheme sheet := by
  intro s s' hs hs'
  cases Option.some.inj (hs.symm.trans (h.symm.trans hs'))
  exact ⟨rfl, rfl, fun _ _ => rfl⟩

theorem noScheme_study : SameStudy (book "Simple") noScheme where
  cells := by
    simp only [usedCells, List.forall_mem_cons, List.not_mem_nil, false_implies, implies_true, and_true]
    refine ⟨?_, ?_, ?_, ?_, ?_, ?_, ?_, ?_, ?_, ?_, ?_, ?_, ?_, ?_, ?_, ?_, ?_, ?_, ?_, ?_, ?_, ?_⟩ <;>
      (repeat' constructor)
  columns := by
    simp only [usedColumns, List.forall_mem_cons, List.not_mem_nil, false_implies, implies_true, and_true]
    refine ⟨?_, ?_, ?_, ?_, ?_, ?_, ?_, ?_, ?_, ?_, ?_, ?_, ?_, ?_, ?_, ?_, ?_, ?_, ?_⟩ <;>
      exact fun _ _ => rfl
  lengths := by
    simp only [List.forall_mem_cons, List.not_mem_nil, false_implies, implies_true, and_true]
    exact ⟨rfl, rfl, rfl, rfl⟩
  prices := fun _ _ _ => rfl
  tests := fun col hcol r h1 h2 => by
    fin_cases hcol <;> interval_cases r <;> rfl
  batteryShape := noScheme_shape rfl
  battery := fun _ _ _ _ _ _ => rfl
  turbineShape := noScheme_shape rfl
  turbines := fun _ _ _ => rfl
  panelShape := noScheme_shape rfl
  panels := fun _ _ _ _ _ _ => rfl
  site := fun _ _ _ _ _ _ => rfl
  study := by
    simp only [studyCells, List.forall_mem_cons, List.not_mem_nil, false_implies, implies_true, and_true]
    exact ⟨⟨rfl, rfl⟩, ⟨rfl, rfl⟩, ⟨rfl, rfl⟩, rfl, rfl⟩

theorem noScheme_says : ¬ (Says noScheme "Heat pump" 'N' 5 "Domestic" ∨
    Says noScheme "Heat pump" 'N' 5 "Non-domestic") := by
  have h : Says noScheme "Heat pump" 'N' 5 "None" := rfl
  rintro (h' | h')
  · exact absurd (says_inj h h') (by decide)
  · exact absurd (says_inj h h') (by decide)

end Sample

attribute [local irreducible] Report.Ends Sample.book Sample.edited Sample.noScheme

/-- The sample workbook and its edited copy: both write the same. -/
example (gekko : Gekko) (root : String) : ∃ k st,
    Report.Ends Sample.libs gekko (Sample.book "Simple") root (.ok k, st) ∧
    Report.Ends Sample.libs gekko Sample.edited root (.ok k, st) := by
  obtain ⟨files, e, st, h, -⟩ := sample_report gekko root
  exact ⟨_, st, h, (C98_report Sample.usable Sample.edited_usable Sample.edited_study
    Sample.edited_incentive).mp h⟩

/-- C101: the sample workbook without a scheme has the same results and figures, and no tables. -/
example (gekko : Gekko) (root : String) : ∃ files e st e',
    Report.Ends Sample.libs gekko (Sample.book "Simple") root (.ok (files, e), st) ∧ files.length = 6 ∧
    Report.Ends Sample.libs gekko Sample.noScheme root (.ok ([], some e'), st) := by
  obtain ⟨files, e, st, h, hf⟩ := sample_report gekko root
  obtain ⟨⟨files', e'⟩, h', -⟩ := C98_figures Sample.usable Sample.noScheme_usable Sample.noScheme_study h
  obtain ⟨rfl, he⟩ := C101_no_incentive Sample.noScheme_top h' fun hno => Sample.noScheme_says hno.1
  cases e' with
  | none => exact absurd rfl he
  | some e' => exact ⟨files, _, st, e', h, by rw [← List.length_map, hf]; rfl, h'⟩

end Verif
