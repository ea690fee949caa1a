import Verif.Lemmas.DiskBody
import Verif.Props.Disk
import Verif.Props.UnusedStore

/-!
# What is in the files a run of `main` leaves, wherever it is cut off (C120)
-/

set_option autoImplicit false

namespace Verif
open Files Para Disk Programme Simulation Report

/-! ## Vocabulary -/

namespace Spec

/-- Where the results of a combination are. -/
def resultsAt (root : FPath) (z : ℤ × ℤ) : FPath :=
  root ++ ["outputs".toList, folderName z, "outputs.pkl".toList]

/-- The folder of a period. -/
def periodFolder : Figures.Period → String
  | .year => "Year"
  | .winter => "Winter"
  | .summer => "Summer"
  | .user => "User"
  | .other => ""

/-- The figures with curves. -/
def curveFigures : List String := ["operation.png", "electricity_demand_and_generation.png",
  "heat_demand_and_heat_pump.png", "heatpump_cop_and_duty.png", "thermal_storage.png", "electrical_storage.png",
  "grid.png"]

/-- The files of what is drawn for a period. -/
def figureFiles (D : Figures.Drawn) : List String :=
  if D.bars.isSome then curveFigures ++ ["RES_bar_charts.png"] else curveFigures

/-- Where a figure is. -/
def figureAt (root : FPath) (z : ℤ × ℤ) (D : Figures.Drawn) (file : String) : FPath :=
  root ++ ["outputs".toList, folderName z, (periodFolder D.period).toList, file.toList]

/-- Where a table or chart is. -/
def kpiAt (root : FPath) (file : String) : FPath := root ++ ["outputs".toList, "KPIs".toList, file.toList]

/-- Everywhere a study can leave something. -/
inductive StudyPath (root : FPath) (title : String) : FPath → Prop
  | folder : StudyPath root title root
  | log : StudyPath root title (root ++ ["pylesa.log".toList])
  | inputs : StudyPath root title (root ++ ["inputs".toList])
  | base : StudyPath root title (root ++ ["inputs".toList, "inputs.pkl".toList])
  | input (z : ℤ × ℤ) : StudyPath root title (root ++ ["inputs".toList, folderName z ++ ".pkl".toList])
  | outputs : StudyPath root title (root ++ ["outputs".toList])
  | output (z : ℤ × ℤ) : StudyPath root title (root ++ ["outputs".toList, folderName z])
  | result (z : ℤ × ℤ) : StudyPath root title (resultsAt root z)
  | period (z : ℤ × ℤ) (p : String) : p ∈ ["Year", "Winter", "Summer", "User"] →
      StudyPath root title (root ++ ["outputs".toList, folderName z, p.toList])
  | figure (z : ℤ × ℤ) (p f : String) : p ∈ ["Year", "Winter", "Summer", "User"] →
      f ∈ curveFigures ++ ["RES_bar_charts.png"] →
      StudyPath root title (root ++ ["outputs".toList, folderName z, p.toList, f.toList])
  | kpis : StudyPath root title (root ++ ["outputs".toList, "KPIs".toList])
  | kpi (f : String) : f ∈ tableFiles title ++ chartFiles → StudyPath root title (kpiAt root f)

/-- The run can start: there is nothing where the folder of the study goes, or the flag is given and what is there
can be removed. -/
def CanStart (E : FPath → Removal) (overwrite : Bool) (root : FPath) (fs : FS Data) : Prop :=
  (overwrite = true ∧ (E root).err = none) ∨ fs root = none

end Spec

open Spec

variable {L : Libs} {gekko : Gekko} {E : FPath → Removal} {x d : FPath} {base : Name} {overwrite : Bool}

/-! ## Names -/

theorem figureNames_eq (D : Figures.Drawn) : figureNames D.bars.isSome = (figureFiles D).map String.toList := by
  unfold figureNames figureFiles
  cases D.bars.isSome <;> rfl

theorem periodName_eq (p : Figures.Period) : periodName p = (periodFolder p).toList := by cases p <;> rfl

theorem periods_named {n : ℕ} {pb : Figures.Period × Bool} (h : pb ∈ Figures.periods n) :
    periodFolder pb.1 ∈ ["Year", "Winter", "Summer", "User"] := by
  unfold Figures.periods at h
  split_ifs at h
  · simp only [List.mem_cons, List.not_mem_nil, or_false] at h
    rcases h with rfl | rfl | rfl <;> decide
  · rw [List.mem_singleton.mp h]; decide

/-! ## Starting -/

theorem makeRoot_ok {fs : FS Data} (hs : Sound (d ++ [base]) fs) (hd : fs d = some .dir)
    (h : (makeRoot E overwrite (d ++ [base]) fs).result = .ok ()) :
    (makeRoot E overwrite (d ++ [base]) fs).disk = emptied fs (d ++ [base]) := by
  cases hr : fs (d ++ [base]) with
  | none =>
    let E0 : FPath → Removal := fun _ => ⟨[], none⟩
    have e : makeRoot E overwrite (d ++ [base]) fs = makeRoot E0 true (d ++ [base]) fs := by
      unfold makeRoot; rw [hr]
    rw [e]
    exact (makeRoot_run hs hd rfl).2
  | some v => cases v with
    | file c => exact absurd hr (hs.2 c)
    | dir =>
      cases overwrite with
      | false => unfold makeRoot at h; rw [hr] at h; cases h
      | true =>
        cases he : (E (d ++ [base])).err with
        | none => exact (makeRoot_run hs hd he).2
        | some er =>
          exfalso
          have e : makeRoot E true (d ++ [base]) fs
              = (do removeTree E (d ++ [base]); makeDir (d ++ [base]) : Op Unit) fs := by
            unfold makeRoot; rw [hr]; rfl
          have hrt : (removeTree E (d ++ [base]) fs).result = .error er := by unfold removeTree; rw [he]
          rw [e, bind_error hrt] at h
          cases h

theorem makeRoot_starts {fs : FS Data} (hs : Sound (d ++ [base]) fs) (hd : fs d = some .dir)
    (h : CanStart E overwrite (d ++ [base]) fs) : (makeRoot E overwrite (d ++ [base]) fs).result = .ok () := by
  rcases h with ⟨rfl, h⟩ | h
  · exact (makeRoot_run hs hd h).1
  · have e : makeRoot E overwrite (d ++ [base]) fs = makeRoot (fun _ => ⟨[], none⟩) true (d ++ [base]) fs := by
      unfold makeRoot; rw [h]
    rw [e]
    exact (makeRoot_run hs hd rfl).1

/-- The run in the emptied folder. -/
noncomputable def Disk.inside (L : Libs) (gekko : Gekko) (E : FPath → Removal) (x d : FPath) (base : Name)
    (fs : FS Data) : Done Unit :=
  Disk.body L gekko (do let _ ← Disk.valid (.path x)) (readWorkbook x) E base (d ++ [base]) (emptied fs (d ++ [base]))

theorem main_inside (hw : Workbook x base) (hb : Ordinary base) {fs : FS Data} (hs : Sound (d ++ [base]) fs)
    (hx : fs x ≠ none) (hd : fs d = some .dir) :
    (CanStart E overwrite (d ++ [base]) fs →
      (Disk.main L gekko E (.path x) (.path d) overwrite fs).result = (inside L gekko E x d base fs).result ∧
      (Disk.main L gekko E (.path x) (.path d) overwrite fs).disk = (inside L gekko E x d base fs).disk) ∧
    ∀ s ∈ (Disk.main L gekko E (.path x) (.path d) overwrite fs).states,
      s ∈ (makeRoot E overwrite (d ++ [base]) fs).states ∨ s ∈ (inside L gekko E x d base fs).states := by
  have h1 : Disk.valid (.path x) fs = ⟨.ok x, fs, []⟩ := valid_at hx
  have h2 : Disk.valid (.path d) fs = ⟨.ok d, fs, []⟩ := valid_at (by rw [hd]; simp)
  have hn : lastName (d ++ [base]) = base := by simp [lastName]
  have e : Disk.main L gekko E (.path x) (.path d) overwrite fs = (makeRoot E overwrite (d ++ [base]) >>= fun _ =>
      Disk.body L gekko (do let _ ← Disk.valid (.path x)) (readWorkbook x) E base (d ++ [base])) fs := by
    unfold Disk.main
    rw [bind_still h1, bind_still h2, target_eq hw hb, hn]
  refine ⟨fun hc => ?_, fun s hm => ?_⟩
  · have h3 := makeRoot_starts hs hd hc
    rw [e, bind_ok h3, makeRoot_ok hs hd h3]
    exact ⟨rfl, rfl⟩
  · rw [e] at hm
    rcases mem_states_bind hm with hm | ⟨_, h3, hm⟩
    · exact .inl hm
    · rw [makeRoot_ok hs hd h3] at hm
      exact .inr hm

theorem emptied_self (fs : FS Data) (root : FPath) : emptied fs root root = some .dir := by
  unfold emptied; simp
theorem emptied_below (fs : FS Data) (root : FPath) (n : Name) (rest : FPath) :
    emptied fs root (root ++ n :: rest) = none := by
  unfold emptied; simp
theorem emptied_outside {fs : FS Data} {root q : FPath} (h : ¬ Below root q) : emptied fs root q = fs q := if_neg h

theorem inside_run {wb : Pandas.Workbook} {fs : FS Data} (hout : ¬ Below (d ++ [base]) x)
    (hx : fs x = some (.file (.workbook wb))) :
    ∃ answer, Spec.ReportUndisturbed false L gekko wb (String.ofList base) answer ∧
      Matches L gekko wb (d ++ [base]) (inside L gekko E x d base fs) answer :=
  body_run (emptied_self _ _) (emptied_below _ _) hout ((emptied_outside hout).trans hx) base

/-! ## The answer -/

/-- A study on one core has one answer. -/
theorem one_answer {wb : Pandas.Workbook} {root : String} {a b : Except PyErr Stage ×
    Main.Store (List Char) Programme.Outcome Figures.Drawn} (ha : Spec.ReportUndisturbed false L gekko wb root a)
    (hb : Spec.ReportUndisturbed false L gekko wb root b) : a = b := by
  unfold Spec.ReportUndisturbed Spec.EndsUndisturbed at ha hb
  cases hi : inputDir wb with
  | error e => rw [hi] at ha hb; exact ha.trans hb.symm
  | ok i =>
    rw [hi] at ha hb
    dsimp only at ha hb
    cases hs : setup L gekko wb with
    | error e => rw [hs] at ha hb; exact ha.trans hb.symm
    | ok S =>
      rw [hs] at ha hb
      simp only [Bool.false_eq_true, if_false] at ha hb
      exact ha.trans hb.symm

/-- **The files hold the answer.** A run that can start, with the workbook `wb` outside the folder of the study, ends
as the study of `wb` on one core ends (`Spec.ReportUndisturbed`), with its results, its figures and its tables in
their files. -/
theorem C120_answer (hw : Workbook x base) (hb : Ordinary base) {fs : FS Data} (ht : Tree fs)
    (hn : NoFileAt fs (d ++ [base])) (hd : fs d = some .dir) (hc : CanStart E overwrite (d ++ [base]) fs)
    (hout : ¬ Below (d ++ [base]) x) {wb : Pandas.Workbook} (hx : fs x = some (.file (.workbook wb)))
    {outcome : Except PyErr Stage} {st : Main.Store (List Char) Programme.Outcome Figures.Drawn}
    (ha : Spec.ReportUndisturbed false L gekko wb (String.ofList base) (outcome, st)) :
    (Disk.main L gekko E (.path x) (.path d) overwrite fs).result = (match outcome with
      | .error e => .error e
      | .ok (_, some e) => .error e
      | .ok (_, none) => .ok ()) ∧
    (∀ z, (Disk.main L gekko E (.path x) (.path d) overwrite fs).disk (resultsAt (d ++ [base]) z) =
      (st.results (folderName z)).map fun o => .file (.results o)) ∧
    (∀ z, ∀ D ∈ st.figures (folderName z), ∀ f ∈ figureFiles D,
      (Disk.main L gekko E (.path x) (.path d) overwrite fs).disk (figureAt (d ++ [base]) z D f) =
        some (.file (.figure D))) ∧
    ∀ files e, outcome = .ok (files, e) → ∀ f c, (f, c) ∈ files →
      (Disk.main L gekko E (.path x) (.path d) overwrite fs).disk (kpiAt (d ++ [base]) f) = some (.file (.kpi c)) := by
  obtain ⟨answer, a1, a2⟩ := inside_run (L := L) (gekko := gekko) (E := E) (d := d) (base := base) hout hx
  cases one_answer ha a1
  obtain ⟨m1, m2⟩ := (main_inside (L := L) (gekko := gekko) (E := E) (overwrite := overwrite) hw hb ⟨ht, hn⟩
    (by rw [hx]; simp) hd).1 hc
  rw [m1, m2]
  refine ⟨a2.result.trans ?_, fun z => a2.results _ (folder_ne_kpi z), fun z D hD f hf => ?_,
    fun files e ho f c hf => a2.tables _ ho (f, c) hf⟩
  · unfold raised
    rcases outcome with _ | ⟨_, _ | _⟩ <;> rfl
  · have := a2.figures _ (folder_ne_kpi z) D hD f.toList (by
      rw [figureNames_eq]; exact List.mem_map_of_mem hf)
    rw [periodName_eq] at this
    exact this

/-- One core and a study that gets to its tables. -/
theorem one_core {wb : Pandas.Workbook} {root : String} {k : Stage}
    {st : Main.Store (List Char) Programme.Outcome Figures.Drawn} (h : Report.Ends L gekko wb root (.ok k, st)) :
    Spec.ReportUndisturbed false L gekko wb root (.ok k, st) := by
  obtain ⟨⟨answer, ha⟩, hu⟩ := C101_any_cores h false
  rwa [hu answer ha] at ha

/-- A study that writes all its tables, over an earlier run: they are on the disk. -/
theorem studyDisk_written {wb : Pandas.Workbook} {files : List (String × KpiTables.Content)}
    {st : Main.Store (List Char) Programme.Outcome Figures.Drawn}
    (h : Report.Ends L gekko wb (String.ofList ['w']) (.ok (files, none), st))
    (hf : files.map (·.1) = tableFiles (String.ofList ['w']) ++ chartFiles) :
    (Disk.main L gekko sampleRemoval (.path ["w.xlsx".toList]) (.path [['d']]) true (studyDisk wb)).result = .ok () ∧
    ∀ f ∈ tableFiles (String.ofList ['w']) ++ chartFiles, ∃ c,
      (Disk.main L gekko sampleRemoval (.path ["w.xlsx".toList]) (.path [['d']]) true (studyDisk wb)).disk
        (kpiAt ([['d']] ++ [['w']]) f) = some (.file (.kpi c)) := by
  obtain ⟨h1, -, -, h4⟩ := C120_answer (E := sampleRemoval) (overwrite := true) sample_workbook.1 sample_workbook.2.1
    (studyDisk_tree _) (studyDisk_noFile _) (studyDisk_dir _) (.inl ⟨rfl, rfl⟩) sample_workbook.2.2 (studyDisk_book _)
    (one_core h)
  refine ⟨h1, fun f hm => ?_⟩
  rw [← hf] at hm
  obtain ⟨⟨f, c⟩, hfc, rfl⟩ := List.mem_map.mp hm
  exact ⟨c, h4 _ _ rfl f c hfc⟩

attribute [local irreducible] Report.Ends Sample.stores Sample.wallLibs

/-- The sample study of six combinations, over an earlier run: it ends without an error, with all its tables and charts
on the disk. -/
example (gekko : Gekko) :
    (Disk.main Sample.wallLibs gekko sampleRemoval (.path ["w.xlsx".toList]) (.path [['d']]) true
      (studyDisk Sample.stores)).result = .ok () ∧
    ∀ f ∈ tableFiles (String.ofList ['w']) ++ chartFiles, ∃ c,
      (Disk.main Sample.wallLibs gekko sampleRemoval (.path ["w.xlsx".toList]) (.path [['d']]) true
        (studyDisk Sample.stores)).disk (kpiAt ([['d']] ++ [['w']]) f) = some (.file (.kpi c)) := by
  obtain ⟨files, st, h, hf⟩ := sample_study_written gekko (String.ofList ['w'])
  exact studyDisk_written h hf

/-! ## Cut off -/

/-- The results of a combination, where the set-up of the study gives any. -/
theorem solved_run {wb : Pandas.Workbook} {S : Setup} (hS : setup L gekko wb = .ok S) {z : ℤ × ℤ}
    {o : Programme.Outcome} (ho : S.solve (folderName z) = .ok o) : RunOf L gekko wb z (rows o) := by
  obtain ⟨B, dir, hi⟩ := inputDir_of_setup hS
  obtain ⟨pa, sizes, D⟩ := inputDir_ok hi
  refine (solved_iff hS D ?_).2.1 o ho
  have hd : createPickles B sizes (fun n => if n = baseFile then some B else none) = .ok dir := by
    have h := hi
    unfold inputDir at h
    rw [D.made, okBind, D.ranges, okBind, D.combos, okBind] at h
    simp only [FixedOrder.except_bind_ok, FixedOrder.except_pure_ok] at h
    obtain ⟨dir', h, e⟩ := h
    cases e
    exact h
  by_contra hz
  have hnone : dir (folderName z ++ ".pkl".toList) = none := by
    have h2 : dir (pickleName z) = _ := (createPickles_ok hd).2 (pickleName z) fun s hs e => hz (pickleName_inj e ▸ hs)
    exact h2.trans (if_neg (pickleName_ne_base z))
  have hset := setup_dir (L := L) (gekko := gekko) D.made D.ranges D.combos hd
  rw [hset] at hS
  cases sizes with
  | nil => cases hS
  | cons s ss =>
    dsimp only at hS
    split at hS
    · cases hS
    · simp only [FixedOrder.except_bind_ok, FixedOrder.except_pure_ok] at hS
      obtain ⟨_, -, _, -, _, -, rfl⟩ := hS
      simp only [solver] at ho
      rw [hnone] at ho
      cases ho

theorem along_fewer (p : FPath) : Along (fun a b : FS Data => ∀ q, q ≠ p → ∀ v, b q = some v → a q = some v) :=
  ⟨fun _ _ _ _ h => h, fun _ _ _ h1 h2 q hq v h => h1 q hq v (h2 q hq v h)⟩

theorem makeRoot_fewer (root : FPath) :
    Steps (fun a b : FS Data => ∀ q, q ≠ root → ∀ v, b q = some v → a q = some v) (makeRoot E overwrite root) := by
  refine makeRoot_steps (along_fewer root) (fun fs s hs q hq v h => ?_) (fun fs s hs q hq v h => ?_)
  · rcases makeDir_cases root fs with ⟨e, he⟩ | ⟨-, -, he⟩ <;> rw [he] at hs <;>
      simp only [Done.states, List.mem_cons, List.not_mem_nil, or_false, or_self] at hs <;> subst hs
    · exact h
    · dsimp only at h
      rwa [if_neg hq] at h
  · rcases removeTree_states hs with rfl | rfl | ⟨g, -, rfl⟩
    · exact h
    all_goals
      unfold without at h
      split_ifs at h
      exact h

/-- **No wrong results.** Wherever a run is cut off, a file of results holds what it held before the run, or is one
that was being written at that moment, or holds the results of its combination as the workbook gives them, from the
controller the workbook chooses. -/
theorem C120_cut_off (hw : Workbook x base) (hb : Ordinary base) {fs : FS Data} (ht : Tree fs)
    (hn : NoFileAt fs (d ++ [base])) (hd : fs d = some .dir) (hout : ¬ Below (d ++ [base]) x) {wb : Pandas.Workbook}
    (hx : fs x = some (.file (.workbook wb))) {s : FS Data}
    (hs : s ∈ (Disk.main L gekko E (.path x) (.path d) overwrite fs).states) {z : ℤ × ℤ} {v : Node Data}
    (hv : s (resultsAt (d ++ [base]) z) = some v) :
    fs (resultsAt (d ++ [base]) z) = some v ∨ v = .file .torn ∨
      ∃ o, v = .file (.results o) ∧ RunOf L gekko wb z (rows o) := by
  rcases (main_inside (L := L) (gekko := gekko) (E := E) (overwrite := overwrite) hw hb ⟨ht, hn⟩
    (by rw [hx]; simp) hd).2 s hs with h | h
  · exact .inl (makeRoot_fewer _ fs s h _ (by unfold resultsAt; simp) v hv)
  · obtain ⟨answer, -, a2⟩ := inside_run (L := L) (gekko := gekko) (E := E) (d := d) (base := base) hout hx
    rcases a2.saved s h (folderName z) (folder_ne_kpi z) v hv with h | ⟨S, o, h1, h2, h3⟩
    · exact .inr (.inl h)
    · exact .inr (.inr ⟨o, h3, solved_run h1 h2⟩)

/-- Wherever the sample study is cut off, over an earlier run of another program. -/
example (gekko : Gekko) (s : FS Data) (z : ℤ × ℤ) (o : Programme.Outcome)
    (hs : s ∈ (Disk.main Sample.wallLibs gekko sampleRemoval (.path ["w.xlsx".toList]) (.path [['d']]) true
      (studyDisk Sample.stores)).states)
    (ho : s (resultsAt ([['d']] ++ [['w']]) z) = some (.file (.results o))) :
    RunOf Sample.wallLibs gekko Sample.stores z (rows o) := by
  rcases C120_cut_off sample_workbook.1 sample_workbook.2.1 (studyDisk_tree _) (studyDisk_noFile _) (studyDisk_dir _)
    sample_workbook.2.2 (studyDisk_book _) hs ho with h | h | ⟨o', h, hr⟩
  · unfold studyDisk resultsAt at h
    simp at h
  · cases h
  · cases h; exact hr

/-! ## Nothing else -/

/-- `b` has nothing that `a` has not, except in `T`. -/
def Disk.Adds (T : FPath → Prop) (a b : FS Data) : Prop := ∀ q, b q ≠ none → a q ≠ none ∨ T q

theorem along_adds (T : FPath → Prop) : Along (Adds T) :=
  ⟨fun _ _ h => .inl h, fun _ _ _ h1 h2 q h => by
    rcases h2 q h with h | h
    · exact h1 q h
    · exact .inr h⟩

section
variable {T : FPath → Prop}

theorem adds_makeDir {p : FPath} (h : T p) : Steps (Adds T) (makeDir p) := by
  intro fs s hs q hq
  rcases makeDir_cases p fs with ⟨e, he⟩ | ⟨-, -, he⟩ <;> rw [he] at hs <;>
    simp only [Done.states, List.mem_cons, List.not_mem_nil, or_false, or_self] at hs <;> subst hs
  · exact .inl hq
  · dsimp only at hq
    split_ifs at hq with e
    · exact .inr (e ▸ h)
    · exact .inl hq

theorem adds_removeTree (E : FPath → Removal) (p : FPath) : Steps (Adds T) (removeTree E p) := by
  intro fs s hs q hq
  rcases removeTree_states hs with rfl | rfl | ⟨g, -, rfl⟩
  · exact .inl hq
  all_goals
    unfold without at hq
    split_ifs at hq
    · exact absurd rfl hq
    · exact .inl hq

theorem adds_freshDir (E : FPath → Removal) {p : FPath} (h : T p) : Steps (Adds T) (freshDir E p) := by
  have h1 := Steps.bind (along_adds T) (adds_removeTree E p) fun _ => adds_makeDir h
  intro fs
  unfold freshDir
  split
  · exact h1 fs
  · exact adds_makeDir h fs

theorem adds_write {p : FPath} (v : Data) (h : T p) : Steps (Adds T) (write p v) := by
  intro fs s hs q hq
  rcases write_cases p v fs with ⟨e, he⟩ | ⟨-, -, he⟩ <;> rw [he] at hs <;>
    simp only [Done.states, List.mem_cons, List.not_mem_nil, or_false] at hs
  · subst hs; exact .inl hq
  · by_cases e : q = p
    · exact .inr (e ▸ h)
    · rcases hs with rfl | rfl | rfl <;> (dsimp only at hq; rw [if_neg e] at hq; exact .inl hq)

end

theorem body_adds (root : FPath) (title : Name) (x : FPath) :
    Steps (Adds (StudyPath root (String.ofList title)))
      (Disk.body L gekko (do let _ ← Disk.valid (.path x)) (readWorkbook x) E title root) := by
  have A := along_adds (StudyPath root (String.ofList title))
  have hper : ∀ (z : ℤ × ℤ) (pb : Figures.Period × Bool) (n : ℕ), pb ∈ Figures.periods n →
      Steps (Adds (StudyPath root (String.ofList title))) (plotPeriod E root (folderName z) pb) := by
    intro z pb n hpb
    refine Steps.bind A (Steps.readOutcome A _) fun _ => Steps.bind A (Steps.readContainer A _) fun _ =>
      Steps.bind A (Steps.lift A _) fun _ => Steps.bind A (Steps.lift A _) fun _ =>
      Steps.bind A (adds_freshDir E ?_) fun _ => Steps.bind A (Steps.lift A _) fun D => Steps.each A fun f hf =>
      adds_write _ ?_
    · rw [periodName_eq]
      exact .period z _ (periods_named hpb)
    · have hf' : f ∈ (curveFigures ++ ["RES_bar_charts.png"]).map String.toList := by
        unfold figureNames at hf
        split_ifs at hf
        · exact hf
        · exact List.mem_of_mem_take hf
      clear hf
      obtain ⟨f, hf, rfl⟩ := List.mem_map.mp hf'
      rw [periodName_eq]
      exact .figure z _ f (periods_named hpb) hf
  refine Steps.bind A (adds_write _ .log) fun _ => Steps.bind A ?_ fun _ => Steps.bind A ?_ fun sizes =>
    Steps.bind A ?_ fun _ => ?_
  · exact Steps.bind A (Steps.bind A (Steps.valid A _) fun _ => Steps.pure A ()) fun _ =>
      Steps.bind A (adds_freshDir E .inputs) fun _ => Steps.bind A (Steps.readWorkbook A _) fun _ =>
      Steps.bind A (adds_freshDir E .outputs) fun _ => Steps.bind A (Steps.lift A _) fun _ => adds_write _ .base
  · exact Steps.bind A (Steps.valid A _) fun _ => Steps.bind A (Steps.valid A _) fun _ =>
      Steps.bind A (Steps.readContainer A _) fun _ => Steps.bind A (Steps.lift A _) fun _ =>
      Steps.bind A (Steps.lift A _) fun _ => Steps.bind A (Steps.each A fun s _ => adds_freshDir E (.output s)) fun _ =>
      Steps.pure A _
  · exact Steps.each A fun s _ => Steps.bind A (Steps.readContainer A _) fun _ => Steps.bind A (Steps.lift A _) fun _ =>
      adds_write _ (.input s)
  · cases sizes with
    | nil => exact Steps.fail A _
    | cons s ss =>
      refine Steps.bind A (Steps.readContainer A _) fun _ => Steps.bind A (Steps.lift A _) fun _ =>
        Steps.bind A (Steps.lift A _) fun _ => Steps.bind A (Steps.lift A _) fun _ =>
        Steps.bind A (Steps.each A fun z _ => Steps.bind A ?_ fun _ => ?_) fun _ => ?_
      · exact Steps.bind A (Steps.readContainer A _) fun _ => Steps.bind A (Steps.lift A _) fun _ =>
          adds_write _ (.result z)
      · exact Steps.bind A (Steps.readContainer A _) fun _ => Steps.bind A (Steps.lift A _) fun n =>
          Steps.each A fun pb hpb => hper z pb n hpb
      · refine Steps.bind A (adds_freshDir E .kpis) fun _ => Steps.bind A (Steps.readContainer A _) fun B =>
          Steps.bind A (Steps.snapshot A) fun g => Steps.bind A (Steps.each A fun fc hfc => adds_write _ ?_) fun _ => ?_
        · refine .kpi fc.1 ?_
          have hp := tables_names L B (inputFiles root g) (String.ofList title) (resultFiles root g)
          exact hp.subset (List.mem_map_of_mem hfc)
        · split
          · exact Steps.pure A ()
          · exact Steps.fail A _

/-- **Nothing else is left.** A run that starts leaves at and below the folder of the study nothing but the files and
folders of a study, whatever was there before; and at no time does it add anything else. -/
theorem C120_only_these (hw : Workbook x base) (hb : Ordinary base) {fs : FS Data} (ht : Tree fs)
    (hn : NoFileAt fs (d ++ [base])) (hd : fs d = some .dir) (hx : fs x ≠ none) :
    (CanStart E overwrite (d ++ [base]) fs → ∀ q, Below (d ++ [base]) q →
      (Disk.main L gekko E (.path x) (.path d) overwrite fs).disk q ≠ none →
      StudyPath (d ++ [base]) (String.ofList base) q) ∧
    ∀ s ∈ (Disk.main L gekko E (.path x) (.path d) overwrite fs).states, ∀ q, s q ≠ none →
      fs q ≠ none ∨ StudyPath (d ++ [base]) (String.ofList base) q := by
  obtain ⟨h1, h2⟩ := main_inside (L := L) (gekko := gekko) (E := E) (overwrite := overwrite) hw hb ⟨ht, hn⟩ hx hd
  have h3 := body_adds (L := L) (gekko := gekko) (E := E) (d ++ [base]) base x (emptied fs (d ++ [base]))
  have h4 : ∀ q, emptied fs (d ++ [base]) q ≠ none → fs q ≠ none ∨ StudyPath (d ++ [base]) (String.ofList base) q := by
    intro q hq
    unfold emptied at hq
    split_ifs at hq with e e'
    · exact .inr (e' ▸ .folder)
    · exact absurd rfl hq
    · exact .inl hq
  refine ⟨fun hc q hq hne => ?_, fun s hs q hne => ?_⟩
  · rw [(h1 hc).2] at hne
    rcases h3 _ (List.mem_cons_self ..) q hne with h | h
    · unfold emptied at h
      have hq' : d ++ [base] <+: q := hq
      rw [if_pos hq'] at h
      split_ifs at h with e'
      · exact e' ▸ .folder
      · exact absurd rfl h
    · exact h
  · rcases h2 s hs with h | h
    · refine (makeRoot_steps (along_adds (StudyPath (d ++ [base]) (String.ofList base))) (adds_makeDir .folder)
        (adds_removeTree E _)) fs s h q hne
    · rcases h3 s h q hne with h | h
      · exact h4 q h
      · exact .inr h

/-- The file of the earlier run is gone. -/
example (wb : Pandas.Workbook) :
    (Disk.main L gekko sampleRemoval (.path ["w.xlsx".toList]) (.path [['d']]) true (studyDisk wb)).disk
      [['d'], ['w'], ['r']] = none := by
  by_contra hne
  have h := (C120_only_these (E := sampleRemoval) (overwrite := true) sample_workbook.1 sample_workbook.2.1
    (studyDisk_tree wb) (studyDisk_noFile wb) (studyDisk_dir wb) (by rw [studyDisk_book]; simp)).1 (.inl ⟨rfl, rfl⟩)
    [['d'], ['w'], ['r']] (by unfold Below; decide) hne
  generalize hq : ([['d'], ['w'], ['r']] : FPath) = q at h
  have key : ∀ rest : FPath, [['d'], ['w'], ['r']] = [['d']] ++ [['w']] ++ rest → rest = [['r']] := fun rest e => by
    simpa using e.symm
  cases h with
  | folder => exact absurd hq (by decide)
  | log => exact absurd (key _ hq) (by decide)
  | inputs => exact absurd (key _ hq) (by decide)
  | base => exact absurd (key _ hq) (by decide)
  | input z => exact absurd (key _ hq) (by simp)
  | outputs => exact absurd (key _ hq) (by decide)
  | output z => exact absurd (key _ hq) (by simp)
  | result z => exact absurd (key _ hq) (by simp)
  | period z p _ => exact absurd (key _ hq) (by simp)
  | figure z p f _ _ => exact absurd (key _ hq) (by simp)
  | kpis => exact absurd (key _ hq) (by decide)
  | kpi f _ => exact absurd (key _ hq) (by simp)

/-- **The lists of C53.** The places a study can leave something are those of `C53_run_stays_inside`. -/
theorem C53_places {q : FPath} : StudyPath (d ++ [base]) (String.ofList base) q ↔ q = d ++ [base] ∨
    ∃ z, q ∈ dirPaths (d ++ [base]) [z] ∨ q ∈ filePaths (d ++ [base]) [z] := by
  have hl : lastName (d ++ [base]) = base := by simp [lastName]
  have htab : (tableFiles (String.ofList base)).map String.toList = kpiTables (d ++ [base]) := by
    unfold kpiTables
    rw [hl]
    simp [tableFiles, tableColumns, String.toList_append]
  have hper : Files.periods = ["Year", "Winter", "Summer", "User"].map String.toList := rfl
  have hfig : Files.figures = (curveFigures ++ ["RES_bar_charts.png"]).map String.toList := rfl
  have hch : ∀ f, f ∈ (chartFiles.map String.toList) ↔ f ∈ kpiFigures := by
    intro f
    simp [chartFiles, charts, kpiFigures]
    tauto
  constructor
  · intro h
    cases h with
    | folder => exact .inl rfl
    | log => exact .inr ⟨(0, 0), .inr (by simp [filePaths])⟩
    | inputs => exact .inr ⟨(0, 0), .inl (by simp [dirPaths, inDir])⟩
    | base => exact .inr ⟨(0, 0), .inr (by simp [filePaths, inDir])⟩
    | input z => exact .inr ⟨z, .inr (by simp [filePaths, inDir, pickleName])⟩
    | outputs => exact .inr ⟨(0, 0), .inl (by simp [dirPaths, outDir])⟩
    | output z => exact .inr ⟨z, .inl (by simp [dirPaths, outDir])⟩
    | result z => exact .inr ⟨z, .inr (by simp [filePaths, outDir, resultsAt])⟩
    | period z p hp =>
      refine .inr ⟨z, .inl ?_⟩
      unfold dirPaths
      refine List.mem_append_right _ (List.mem_flatMap.mpr ⟨z, List.mem_singleton_self z, List.mem_cons_of_mem _ ?_⟩)
      exact List.mem_map.mpr ⟨p.toList, hper ▸ List.mem_map_of_mem hp, rfl⟩
    | figure z p f hp hf =>
      refine .inr ⟨z, .inr ?_⟩
      unfold filePaths
      refine List.mem_append_left _ (List.mem_append_right _ (List.mem_flatMap.mpr ⟨z, List.mem_singleton_self z,
        List.mem_append_right _ (List.mem_flatMap.mpr ⟨p.toList, hper ▸ List.mem_map_of_mem hp, ?_⟩)⟩))
      exact List.mem_map.mpr ⟨f.toList, hfig ▸ List.mem_map_of_mem hf, rfl⟩
    | kpis => exact .inr ⟨(0, 0), .inl (by simp [dirPaths, outDir])⟩
    | kpi f hf =>
      refine .inr ⟨(0, 0), .inr ?_⟩
      unfold filePaths
      refine List.mem_append_right _ (List.mem_map.mpr ⟨f.toList, List.mem_append.mpr ?_, rfl⟩)
      rcases List.mem_append.mp hf with hf | hf
      · exact .inl (htab ▸ List.mem_map_of_mem hf)
      · exact .inr ((hch _).mp (List.mem_map_of_mem hf))
  · rintro (rfl | ⟨z, h | h⟩)
    · exact .folder
    · simp only [dirPaths, List.mem_append, List.mem_cons, List.not_mem_nil, or_false, List.mem_flatMap,
        List.mem_map, exists_eq_left] at h
      rcases h with (rfl | rfl | rfl) | rfl | ⟨p, hp, rfl⟩
      · exact .inputs
      · exact .outputs
      · exact .kpis
      · exact .output z
      · rw [hper] at hp
        obtain ⟨p, hp', rfl⟩ := List.mem_map.mp hp
        exact .period z p hp'
    · simp only [filePaths, List.mem_append, List.mem_cons, List.not_mem_nil, or_false, List.mem_flatMap,
        List.mem_map, exists_eq_left] at h
      rcases h with ((rfl | rfl) | (rfl | rfl) | ⟨p, hp, f, hf, rfl⟩) | ⟨f, hf, rfl⟩
      · exact .log
      · exact .base
      · exact .input z
      · exact .result z
      · rw [hper] at hp
        rw [hfig] at hf
        obtain ⟨p, hp', rfl⟩ := List.mem_map.mp hp
        obtain ⟨f, hf', rfl⟩ := List.mem_map.mp hf
        exact .figure z p f hp' hf'
      · rcases hf with hf | hf
        · rw [← htab] at hf
          obtain ⟨f, hf', rfl⟩ := List.mem_map.mp hf
          exact .kpi f (List.mem_append_left _ hf')
        · rw [← hch] at hf
          obtain ⟨f, hf', rfl⟩ := List.mem_map.mp hf
          exact .kpi f (List.mem_append_right _ hf')

end Verif
