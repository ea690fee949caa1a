import Verif.Lemmas.DiskRun

/-!
# Lemmas for `Verif.Props.DiskRun`: the loop over the combinations and the tables
-/

set_option autoImplicit false

namespace Verif
namespace Disk
open Files Para Programme Report InputReader Simulation Workbook Spec KpiTables

variable {root : FPath} {E : FPath → Removal}

/-! ## Names of the tables -/

theorem runJobs_names {js : List (Except PyErr (List (String × Content)))} {ns : List (List String)}
    (h : List.Forall₂ (fun j n => ∀ fs, j = .ok fs → fs.map (·.1) = n) js ns) :
    (runJobs js).1.map (·.1) <+: ns.flatten := by
  induction h with
  | nil => exact List.nil_prefix
  | @cons j n js ns h1 _ ih =>
    cases j with
    | error e => exact List.nil_prefix
    | ok fs =>
      rw [List.flatten_cons, ← h1 fs rfl]
      unfold runJobs
      rw [List.map_append]
      exact (List.prefix_append_right_inj _).mpr ih

theorem chart_names {N : Type} {S : Study N} {b : Bool} {f : Kpi.Calcs N → Except PyErr (Option ℝ)} {z file : String}
    (fs : List (String × Content)) (h : chart S b f z file = .ok fs) : fs.map (·.1) = [file] := by
  obtain ⟨_, -, rfl⟩ := chart_mem h
  rfl

theorem jobs_names {N : Type} (S : Study N) (title : String) :
    (runJobs (jobs S title)).1.map (·.1) <+: Spec.tableFiles title ++ Spec.chartFiles := by
  have h : List.Forall₂ (fun (j : Except PyErr (List (String × Content))) n => ∀ fs, j = .ok fs → fs.map (·.1) = n)
      (jobs S title)
      [Spec.tableFiles title, ["operating_cost.png"], ["RES_self_consumption.png"], ["heat_from_RES.png"],
        ["HP_size_ratio.png"], ["HP_utilisation.png"], ["capital_cost.png"], ["levelised_cost_of_heat.png"],
        ["cost_of_heat.png"]] := by
    refine .cons (fun fs h => ?_) (.cons chart_names (.cons chart_names (.cons chart_names (.cons chart_names
      (.cons chart_names (.cons chart_names (.cons chart_names (.cons chart_names .nil))))))))
    unfold kpisToCsv at h
    simp only [FixedOrder.except_bind_ok, FixedOrder.except_pure_ok] at h
    obtain ⟨is, -, rfl⟩ := h
    rfl
  exact runJobs_names h

theorem tables_names (L : Libs) (base : Container) (dir : Dir Container) (title : String)
    (results : List Char → Option Programme.Outcome) :
    (Report.tables L base dir title results).1.map (·.1) <+: Spec.tableFiles title ++ Spec.chartFiles := by
  unfold Report.tables
  split
  · exact List.nil_prefix
  · split
    · exact List.nil_prefix
    · split
      · exact List.nil_prefix
      · unfold runKpis
        split
        · exact List.nil_prefix
        · exact jobs_names _ _

theorem file_names_nodup (title : String) : (Spec.tableFiles title ++ Spec.chartFiles).Nodup := by
  refine List.Nodup.of_map String.toList ?_
  simp only [Spec.tableFiles, Spec.tableColumns, Spec.chartFiles, Spec.charts, List.flatMap_cons, List.flatMap_nil,
    List.map_cons, List.map_nil, List.cons_append, List.nil_append, String.toList_append]
  generalize title.toList = t
  simp

theorem tables_nodup (L : Libs) (base : Container) (dir : Dir Container) (title : String)
    (results : List Char → Option Programme.Outcome) :
    ((Report.tables L base dir title results).1.map fun fc => fc.1.toList).Nodup := by
  have h := (file_names_nodup title).sublist (tables_names L base dir title results).sublist
  have := h.map (f := String.toList) fun a b e => String.toList_inj.mp e
  rwa [List.map_map] at this

/-! ## The study half way -/

/-- The folder of a study: its inputs, the results and figures so far, the folders still empty. -/
structure Laid (root : FPath) (fs : FS Data) (dir : Dir Container) (names todo : List Name)
    (st : Main.Store Name Programme.Outcome Figures.Drawn) : Prop where
  inputs : Inputs root fs dir
  folders : ∀ n ∈ names, fs (root ++ [outDir, n]) = some .dir
  results : ∀ n, fs (root ++ [outDir, n, resultsName]) = (st.results n).map fun o => .file (.results o)
  figures : ∀ n, ∀ D ∈ st.figures n, ∀ f ∈ figureNames D.bars.isSome,
    fs (root ++ [outDir, n, periodName D.period, f]) = some (.file (.figure D))
  todo : ∀ n ∈ todo, ∀ r rest, fs (root ++ outDir :: n :: r :: rest) = none
  noKpi : ∀ rest, fs (root ++ outDir :: kpiDir :: rest) = none

theorem folder_ne_kpi (s : ℤ × ℤ) : folderName s ≠ kpiDir := by
  rw [folderName_eq]
  intro h
  have := congrArg List.head? h
  simp [kpiDir] at this

/-- What is saved under the names of the results. -/
def SavedOnly (root : FPath) (solve : Name → Except PyErr Programme.Outcome) (fs : FS Data) : Prop :=
  ∀ n v, fs (root ++ [outDir, n, resultsName]) = some v →
    v = .file .torn ∨ ∃ o, solve n = .ok o ∧ v = .file (.results o)

section
variable {L : Libs} {gekko : Gekko} {v : Pandas.Value} {first n : ℕ} {dir : Dir Container}

/-- How a combination is solved from the input files, as in `Programme.setup`. -/
def solver (L : Libs) (gekko : Gekko) (v : Pandas.Value) (first n : ℕ) (dir : Dir Container) (name : Name) :
    Except PyErr Programme.Outcome :=
  match dir (name ++ ".pkl".toList) with
  | none => .error .fileNotFoundError
  | some c => solvePickle L gekko (controllerOf v) first n c

theorem solve_run {fs : FS Data} {name : Name} (hin : Inputs root fs dir)
    (hfold : fs (root ++ [outDir, name]) = some .dir)
    (hres : fs (root ++ [outDir, name, resultsName]) ≠ some .dir) :
    solve L gekko root v first n name fs = match solver L gekko v first n dir name with
    | .error e => ⟨.error e, fs, []⟩
    | .ok o => ⟨.ok (), set fs (root ++ [outDir, name, resultsName]) (.file (.results o)),
        [set fs (root ++ [outDir, name, resultsName]) (.file .torn),
         set fs (root ++ [outDir, name, resultsName]) (.file (.results o))]⟩ := by
  have hfile := hin.files (name ++ ".pkl".toList)
  unfold solver
  cases hc : dir (name ++ ".pkl".toList) with
  | none =>
    rw [hc] at hfile
    exact bind_stop (readContainer_none hfile)
  | some c =>
    rw [hc] at hfile
    have e : solve L gekko root v first n name fs = _ := bind_still (readContainer_some hfile)
    rw [e, lift_bind]
    dsimp only
    cases solvePickle L gekko (controllerOf v) first n c with
    | error e => rfl
    | ok o => exact write_at (rest := [outDir, name]) (.results o) hres hfold

/-- The body of the loop. -/
def job (L : Libs) (gekko : Gekko) (E : FPath → Removal) (root : FPath) (v : Pandas.Value) (first n : ℕ)
    (s : ℤ × ℤ) : Op Unit := do
  solve L gekko root v first n (folderName s)
  plot E root (folderName s)

theorem Laid.solved {fs : FS Data} {names todo : List Name} {m : Name}
    {st : Main.Store Name Programme.Outcome Figures.Drawn}
    (h : Laid root fs dir names (m :: todo) st) (hm : m ∉ todo) (hk : m ≠ kpiDir) (o : Programme.Outcome) :
    Laid root (set fs (root ++ [outDir, m, resultsName]) (.file (.results o))) dir names todo
      { st with results := fun k => if k = m then some o else st.results k } := by
  have k : ∀ {q : FPath}, q ≠ [outDir, m, resultsName] →
      set fs (root ++ [outDir, m, resultsName]) (.file (.results o)) (root ++ q) = fs (root ++ q) := set_at_ne
  refine ⟨h.inputs.congr (T := fun q => q = root ++ [outDir, m, resultsName]) (fun q hq => set_ne hq)
    fun q hq => ⟨m, [resultsName], hq⟩, fun i hi => (k (by simp)).trans (h.folders i hi), fun i => ?_,
    fun i D hD f hf => (k (by simp)).trans (h.figures i D hD f hf),
    fun i hi r rest => (k fun e => ?_).trans (h.todo i (List.mem_cons_of_mem _ hi) r rest),
    fun rest => (k fun e => ?_).trans (h.noKpi rest)⟩
  · by_cases e : i = m
    · subst e; dsimp only; rw [if_pos rfl]; exact set_self ..
    · dsimp only; rw [if_neg e]; exact (k (by simp [e])).trans (h.results i)
  · simp only [List.cons.injEq, true_and] at e; exact hm (e.1 ▸ hi)
  · simp only [List.cons.injEq, true_and] at e; exact hk e.1.symm

theorem Laid.plotted {fs g : FS Data} {names todo : List Name} {m : Name}
    {st : Main.Store Name Programme.Outcome Figures.Drawn}
    (h : Laid root fs dir names todo st) (hm : m ∉ todo) (hk : m ≠ kpiDir) (hg : Except' (Figs root m) fs g)
    {ds : List Figures.Drawn} (hds : ∀ D ∈ ds, ∀ f ∈ figureNames D.bars.isSome,
      g (root ++ [outDir, m, periodName D.period, f]) = some (.file (.figure D))) :
    Laid root g dir names todo { st with figures := fun k => if k = m then ds else st.figures k } := by
  have k : ∀ {q : FPath}, (∀ p rest, q ≠ outDir :: m :: periodName p :: rest) → g (root ++ q) = fs (root ++ q) :=
    fun hq => hg _ fun ⟨p, rest, e⟩ => hq p rest (List.append_cancel_left e)
  refine ⟨h.inputs.congr hg fun q ⟨p, rest, e⟩ => ⟨m, _, e⟩, fun i hi => (k (by simp)).trans (h.folders i hi),
    fun i => (k fun p rest e => ?_).trans (h.results i), fun i D hD f hf => ?_,
    fun i hi r rest => (k fun p rest' e => ?_).trans (h.todo i hi r rest),
    fun rest => (k fun p rest' e => ?_).trans (h.noKpi rest)⟩
  · simp only [List.cons.injEq, true_and] at e
    exact periodName_ne_results p e.2.1.symm
  · dsimp only at hD
    split_ifs at hD with e
    · subst e; exact hds D hD f hf
    · exact (k fun p rest e' => by
        simp only [List.cons.injEq, true_and] at e'
        exact e e'.1).trans (h.figures i D hD f hf)
  · simp only [List.cons.injEq, true_and] at e; exact hm (e.1 ▸ hi)
  · simp only [List.cons.injEq, true_and] at e; exact hk e.1.symm

theorem SavedOnly.congr {solve : Name → Except PyErr Programme.Outcome} {fs g : FS Data} (h : SavedOnly root solve fs)
    (hg : ∀ n, g (root ++ [outDir, n, resultsName]) = fs (root ++ [outDir, n, resultsName])) :
    SavedOnly root solve g := fun n v hv => h n v (hg n ▸ hv)

theorem SavedOnly.set {solve : Name → Except PyErr Programme.Outcome} {fs : FS Data} (h : SavedOnly root solve fs)
    {m : Name} {w : Node Data} (hw : w = .file .torn ∨ ∃ o, solve m = .ok o ∧ w = .file (.results o)) :
    SavedOnly root solve (set fs (root ++ [outDir, m, resultsName]) w) := by
  intro n v hv
  by_cases e : n = m
  · subst e
    rw [set_self] at hv
    cases hv
    exact hw
  · exact h n v (by rwa [set_at_ne (by simp [e])] at hv)

/-- The loop over the combinations does on the disk what `Main.singleLoop` does on values. -/
theorem loop_run (L : Libs) (gekko : Gekko) (v : Pandas.Value) (first n : ℕ) (dir : Dir Container)
    {K : Type} (kp : (Name → Option Programme.Outcome) → Except PyErr K) {names : List Name} :
    ∀ {ss : List (ℤ × ℤ)} {fs : FS Data} {st : Main.Store Name Programme.Outcome Figures.Drawn},
    ss.Nodup → (∀ s ∈ ss, folderName s ∈ names) → Laid root fs dir names (ss.map folderName) st →
    SavedOnly root (solver L gekko v first n dir) fs →
    (each (job L gekko E root v first n) ss fs).result =
      (match (Main.singleLoop ⟨solver L gekko v first n dir, plots dir, kp⟩ (ss.map folderName) st).1 with
        | none => .ok () | some e => .error e) ∧
    (∃ todo, Laid root (each (job L gekko E root v first n) ss fs).disk dir names todo
      (Main.singleLoop ⟨solver L gekko v first n dir, plots dir, kp⟩ (ss.map folderName) st).2) ∧
    ∀ s ∈ (each (job L gekko E root v first n) ss fs).states, SavedOnly root (solver L gekko v first n dir) s
  | [], fs, st, _, _, h, hs => ⟨rfl, ⟨[], h⟩, fun s hm => by rw [List.mem_singleton.mp hm]; exact hs⟩
  | s :: ss, fs, st, hnd, hmem, h, hs => by
    obtain ⟨hns, hnd⟩ := List.nodup_cons.mp hnd
    have hfresh : folderName s ∉ ss.map folderName := fun hm => by
      obtain ⟨s', h', e⟩ := List.mem_map.mp hm
      exact hns (folderName_inj e ▸ h')
    have hk := folder_ne_kpi s
    have hfold := h.folders _ (hmem s (List.mem_cons_self ..))
    have hsol := solve_run (L := L) (gekko := gekko) (v := v) (first := first) (n := n) h.inputs hfold
      (by rw [h.todo _ (List.mem_cons_self ..)]; simp)
    unfold Main.singleLoop Main.solveStep
    rw [List.map_cons]
    dsimp only
    cases hr : solver L gekko v first n dir (folderName s) with
    | error e =>
      rw [hr] at hsol
      have e1 : job L gekko E root v first n s fs = ⟨.error e, fs, []⟩ := bind_stop hsol
      have e2 : each (job L gekko E root v first n) (s :: ss) fs = ⟨.error e, fs, []⟩ := bind_stop e1
      rw [e2]
      exact ⟨rfl, ⟨_, h⟩, fun g hg => by rw [List.mem_singleton.mp hg]; exact hs⟩
    | ok o =>
      rw [hr] at hsol
      have h1 := h.solved hfresh hk o
      let g1 := set fs (root ++ [outDir, folderName s, resultsName]) (.file (.results o))
      have s1 : SavedOnly root (solver L gekko v first n dir) g1 := hs.set (.inr ⟨o, hr, rfl⟩)
      have s0 : SavedOnly root (solver L gekko v first n dir)
          (set fs (root ++ [outDir, folderName s, resultsName]) (.file .torn)) := hs.set (.inl rfl)
      obtain ⟨p1, p2⟩ := plot_run (E := E) (name := folderName s) (o := o) h1.inputs
        (h1.folders _ (hmem s (List.mem_cons_self ..))) (set_self ..) (fun p rest => by
          rw [set_at_ne fun e => ?_]
          · exact h.todo _ (List.mem_cons_self ..) _ _
          · simp only [List.cons.injEq, true_and] at e
            exact periodName_ne_results p e.1)
      have pt := plot_touches (E := E) (root := root) (folderName s) g1
      have ps : ∀ g ∈ (plot E root (folderName s) g1).states, SavedOnly root (solver L gekko v first n dir) g :=
        fun g hg => s1.congr fun i => pt g hg _ fun ⟨p, rest, e⟩ => by
          have := List.append_cancel_left e
          simp only [List.cons.injEq, true_and] at this
          exact periodName_ne_results p this.2.1.symm
      have h2 := h1.plotted hfresh hk (pt _ (List.mem_cons_self ..)) p2
      have e1 : job L gekko E root v first n s fs = _ := bind_run hsol
      have hstates : ∀ g ∈ (job L gekko E root v first n s fs).states,
          SavedOnly root (solver L gekko v first n dir) g := by
        intro g hg
        rw [e1] at hg
        unfold Done.states at hg
        simp only [List.mem_cons, List.mem_append, List.not_mem_nil, or_false] at hg
        rcases hg with rfl | (rfl | rfl) | hg
        · exact ps _ (List.mem_cons_self ..)
        · exact s0
        · exact s1
        · exact ps _ (List.mem_cons_of_mem _ hg)
      unfold Main.plotStep
      dsimp only
      rw [if_pos rfl]
      dsimp only
      cases hp : (plots dir (folderName s) o).2 with
      | some e =>
        rw [hp] at p1
        have r1 : (job L gekko E root v first n s fs).result = .error e := by rw [e1]; exact p1
        have e2 : each (job L gekko E root v first n) (s :: ss) fs = _ := bind_error r1
        rw [e2]
        refine ⟨rfl, ⟨ss.map folderName, ?_⟩, hstates⟩
        show Laid root (job L gekko E root v first n s fs).disk _ _ _ _
        rw [e1]
        exact h2
      | none =>
        rw [hp] at p1
        have r1 : (job L gekko E root v first n s fs).result = .ok () := by rw [e1]; exact p1
        have d1 : (job L gekko E root v first n s fs).disk = (plot E root (folderName s) g1).disk := by rw [e1]
        obtain ⟨i1, i2, i3⟩ := loop_run L gekko v first n dir kp hnd
          (fun s' h' => hmem s' (List.mem_cons_of_mem _ h')) h2 (ps _ (List.mem_cons_self ..))
        rw [← d1] at i1 i2 i3
        have e2 : each (job L gekko E root v first n) (s :: ss) fs = _ := bind_ok r1
        refine ⟨by rw [e2]; exact i1, by rw [e2]; exact i2, fun g hg => ?_⟩
        rcases mem_states_bind (m := job L gekko E root v first n s)
          (f := fun _ => each (job L gekko E root v first n) ss) hg with hg | ⟨_, _, hg⟩
        · exact hstates g hg
        · exact i3 g hg

end

/-! ## The tables -/

/-- `run_KPIs` on the disk writes and raises what `Report.tables` gives. -/
theorem kpis_run {L : Libs} {fs : FS Data} {dir : Dir Container} {names todo : List Name}
    {st : Main.Store Name Programme.Outcome Figures.Drawn} (h : Laid root fs dir names todo st) {base : Container}
    (hb : dir baseFile = some base) (title : Name) :
    (kpis L E title root fs).result =
      (match (Report.tables L base dir (String.ofList title) st.results).2 with | none => .ok () | some e => .error e) ∧
    (∀ fc ∈ (Report.tables L base dir (String.ofList title) st.results).1,
      (kpis L E title root fs).disk (root ++ [outDir, kpiDir, fc.1.toList]) = some (.file (.kpi fc.2))) := by
  let g := set fs (root ++ [outDir, kpiDir]) .dir
  let t := Report.tables L base dir (String.ofList title) st.results
  have h1 : freshDir E (root ++ [outDir, kpiDir]) fs = ⟨.ok (), g, [g]⟩ :=
    freshDir_at (rest := [outDir]) (h.noKpi []) h.inputs.outd
  have k : ∀ {q : FPath}, q ≠ [outDir, kpiDir] → g (root ++ q) = fs (root ++ q) := set_at_ne
  have hin : Inputs root g dir := h.inputs.congr (T := fun q => q = root ++ [outDir, kpiDir])
    (fun q hq => set_ne hq) fun q hq => ⟨kpiDir, [], hq⟩
  have hbase : g (root ++ [inDir, baseFile]) = some (.file (.inputs base)) := by rw [hin.files, hb]; rfl
  have e1 : inputFiles root g = dir := by
    funext i
    unfold inputFiles
    rw [hin.files i]
    cases dir i <;> rfl
  have e2 : resultFiles root g = st.results := by
    funext i
    unfold resultFiles
    rw [k (by simp), h.results i]
    cases st.results i <;> rfl
  let w : Op Unit := each (fun fc => write (root ++ [outDir, kpiDir, fc.1.toList]) (.kpi fc.2)) t.1
  have hw := each_write (root := root) (rest := [outDir, kpiDir]) (nm := fun fc : String × Content => fc.1.toList)
    (v := fun fc => .kpi fc.2) (bs := t.1) (tables_nodup L base dir _ _) (fs := g) (set_self ..)
    (fun fc _ => by
      rw [k (by simp)]
      show fs (root ++ outDir :: kpiDir :: [fc.1.toList]) ≠ _
      rw [h.noKpi]; simp)
  let m : Op Unit := match t.2 with
    | none => pure ()
    | some e => fail e
  have e : kpis L E title root fs = ⟨((w >>= fun _ => m) g).result, ((w >>= fun _ => m) g).disk,
      [g] ++ ((w >>= fun _ => m) g).seen⟩ := by
    unfold kpis
    refine (bind_run h1).trans ?_
    rw [bind_still (readContainer_some hbase), bind_still (m := snapshot) (fs := g) rfl, e1, e2]
    rfl
  have e3 : (w >>= fun _ => m) g = _ := bind_ok hw.1
  rw [e, e3]
  show (m (w g).disk).result = (match t.2 with | none => .ok () | some e => .error e) ∧
    ∀ fc ∈ t.1, (m (w g).disk).disk _ = _
  have hm : (m (w g).disk).result = (match t.2 with | none => .ok () | some e => .error e) ∧
      (m (w g).disk).disk = (w g).disk := by
    simp only [m]
    cases t.2 <;> exact ⟨rfl, rfl⟩
  rw [hm.2]
  exact ⟨hm.1, hw.2⟩

end Disk
end Verif
