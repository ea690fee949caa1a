import Verif.Lemmas.DiskLoop
import Verif.Props.Report

/-!
# Lemmas for `Verif.Props.DiskRun`: a whole run in an empty folder
-/

set_option autoImplicit false

namespace Verif
namespace Disk
open Files Para Programme Report InputReader Simulation Workbook Spec KpiTables

variable {α β : Type} {root x : FPath} {E : FPath → Removal}

/-- Nothing in the folders of the outputs. -/
def NoOut (root : FPath) (fs : FS Data) : Prop := ∀ n r rest, fs (root ++ outDir :: n :: r :: rest) = none

theorem NoOut.set {fs : FS Data} (h : NoOut root fs) {p : FPath} (hp : ∀ n r rest, p ≠ outDir :: n :: r :: rest)
    (v : Node Data) : NoOut root (set fs (root ++ p) v) := fun n r rest =>
  (set_at_ne (hp n r rest).symm).trans (h n r rest)

theorem NoOut.congr {fs g : FS Data} (h : NoOut root fs) {T : FPath → Prop} (hg : Except' T fs g)
    (hT : ∀ n r rest, ¬ T (root ++ outDir :: n :: r :: rest)) : NoOut root g := fun n r rest =>
  (hg _ (hT n r rest)).trans (h n r rest)

theorem set_out {fs : FS Data} (hout : ¬ root <+: x) (p : FPath) (v : Node Data) : set fs (root ++ p) v x = fs x :=
  set_ne fun e => hout (e ▸ List.prefix_append ..)

theorem validBook_ok {fs : FS Data} (h : fs x ≠ none) :
    (do let _ ← Disk.valid (.path x) : Op Unit) fs = ⟨.ok (), fs, []⟩ := by
  have : Disk.valid (.path x) fs = ⟨.ok x, fs, []⟩ := by
    unfold Disk.valid validPath
    cases hx : fs x with
    | none => exact absurd hx h
    | some v => simp [hx]
  exact bind_still this

theorem valid_at {fs : FS Data} {p : FPath} (h : fs p ≠ none) : Disk.valid (.path p) fs = ⟨.ok p, fs, []⟩ := by
  unfold Disk.valid validPath
  cases hx : fs p with
  | none => exact absurd hx h
  | some v => simp [hx]

/-- Reading the workbook in an empty folder. -/
theorem readExcel_run {fs : FS Data} {wb : Pandas.Workbook} (top : fs root = some .dir)
    (hi : ∀ rest, fs (root ++ inDir :: rest) = none) (ho : ∀ rest, fs (root ++ outDir :: rest) = none)
    (hout : ¬ root <+: x) (hx : fs x = some (.file (.workbook wb))) :
    (match readInputs wb with
      | .error e => (readExcel (do let _ ← Disk.valid (.path x)) (readWorkbook x) E root fs).result = .error e
      | .ok base => (readExcel (do let _ ← Disk.valid (.path x)) (readWorkbook x) E root fs).result = .ok () ∧
        Inputs root (readExcel (do let _ ← Disk.valid (.path x)) (readWorkbook x) E root fs).disk
          (fun n => if n = baseFile then some base else none) ∧
        ∀ n rest, (readExcel (do let _ ← Disk.valid (.path x)) (readWorkbook x) E root fs).disk
          (root ++ outDir :: n :: rest) = none) ∧
    ∀ s ∈ (readExcel (do let _ ← Disk.valid (.path x)) (readWorkbook x) E root fs).states, NoOut root s := by
  let g1 := set fs (root ++ [inDir]) .dir
  let g2 := set g1 (root ++ [outDir]) .dir
  have k1 : ∀ {q : FPath}, q ≠ [inDir] → g1 (root ++ q) = fs (root ++ q) := set_at_ne
  have k2 : ∀ {q : FPath}, q ≠ [outDir] → g2 (root ++ q) = g1 (root ++ q) := set_at_ne
  have n0 : NoOut root fs := fun n r rest => ho _
  have n1 : NoOut root g1 := n0.set (by simp) _
  have n2 : NoOut root g2 := n1.set (by simp) _
  have t1 : g1 root = some .dir := by
    have := k1 (q := []) (by simp)
    rw [List.append_nil] at this
    exact this.trans top
  have t2 : g2 root = some .dir := by
    have := k2 (q := []) (by simp)
    rw [List.append_nil] at this
    exact this.trans t1
  have h1 : freshDir E (root ++ [inDir]) fs = ⟨.ok (), g1, [g1]⟩ :=
    freshDir_at (rest := []) (hi []) (by rw [List.append_nil]; exact top)
  have h2 : freshDir E (root ++ [outDir]) g1 = ⟨.ok (), g2, [g2]⟩ :=
    freshDir_at (rest := []) ((k1 (by simp [in_ne_out.symm])).trans (ho [])) (by rw [List.append_nil]; exact t1)
  have hb : readWorkbook x g1 = ⟨.ok wb, g1, []⟩ := readWorkbook_some ((set_out hout _ _).trans hx)
  let w : Op Unit := do
    let base ← lift (readInputs wb)
    write (root ++ [inDir, baseFile]) (.inputs base)
  have e : readExcel (do let _ ← Disk.valid (.path x)) (readWorkbook x) E root fs =
      ⟨(w g2).result, (w g2).disk, [g1] ++ ([g2] ++ (w g2).seen)⟩ := by
    unfold readExcel
    rw [bind_still (validBook_ok (by rw [hx]; simp)), bind_run h1, bind_still hb, bind_run h2]
  rw [e]
  have ew : w g2 = match readInputs wb with
    | .ok base => write (root ++ [inDir, baseFile]) (.inputs base) g2
    | .error e => ⟨.error e, g2, []⟩ := by
    simp only [w, lift_bind]
    cases readInputs wb <;> rfl
  have hf : ∀ n, g2 (root ++ [inDir, n]) = none := fun n =>
    (k2 (by simp)).trans ((k1 (by simp)).trans (hi [n]))
  cases hr : readInputs wb with
  | error er =>
    rw [hr] at ew
    rw [ew]
    refine ⟨rfl, fun s hs => ?_⟩
    simp only [Done.states, List.mem_cons, List.mem_append, List.not_mem_nil, or_false] at hs
    rcases hs with rfl | rfl | rfl
    · exact n2
    · exact n1
    · exact n2
  | ok base =>
    rw [hr] at ew
    have hw := write_at (root := root) (rest := [inDir]) (n := baseFile) (.inputs base) (fs := g2)
      (by show g2 (root ++ [inDir, baseFile]) ≠ _; rw [hf]; simp) ((k2 (by simp [in_ne_out])).trans (set_self ..))
    let g3 := set g2 (root ++ [inDir, baseFile]) (.file (.inputs base))
    have ew' : w g2 = ⟨.ok (), g3, [set g2 (root ++ [inDir, baseFile]) (.file .torn), g3]⟩ := ew.trans hw
    have k3 : ∀ {q : FPath}, q ≠ [inDir, baseFile] → g3 (root ++ q) = g2 (root ++ q) := set_at_ne
    have n3 : NoOut root g3 := n2.set (by simp [in_ne_out]) _
    have nt : NoOut root (set g2 (root ++ [inDir, baseFile]) (.file .torn)) := n2.set (by simp [in_ne_out]) _
    rw [ew']
    refine ⟨⟨rfl, ⟨?_, ?_, ?_, fun n => ?_⟩, fun n rest => ?_⟩, fun s hs => ?_⟩
    · have := k3 (q := []) (by simp)
      rw [List.append_nil] at this
      exact this.trans t2
    · exact (k3 (by simp)).trans ((k2 (by simp [in_ne_out])).trans (set_self ..))
    · exact (k3 (by simp)).trans (set_self ..)
    · show g3 _ = _
      by_cases hn : n = baseFile
      · subst hn; rw [if_pos rfl]; exact set_self ..
      · rw [if_neg hn]; exact (k3 (by simp [hn])).trans (hf n)
    · exact (k3 (by simp [in_ne_out.symm])).trans ((k2 (by simp)).trans
        ((k1 (by simp)).trans (ho (n :: rest))))
    · simp only [Done.states, List.mem_cons, List.mem_append, List.not_mem_nil, or_false] at hs
      rcases hs with rfl | rfl | rfl | rfl | rfl
      · exact n3
      · exact n1
      · exact n2
      · exact nt
      · exact n3

theorem combos_nodup {pa : Ranges} {sizes : List (ℤ × ℤ)} (h : combos pa = .ok sizes) : sizes.Nodup := by
  have h' : folderNames pa = .ok (sizes.map folderName) := by unfold folderNames; rw [h]
  obtain ⟨_, _, cs, -, -, hc, hn, -⟩ := C40_each_pair_once h'
  cases Except.ok.inj (hc.symm.trans h)
  exact hn

/-- The combinations and their folders. -/
theorem para_run {fs : FS Data} {dir : Dir Container} (hin : Inputs root fs dir) {base : Container}
    (hb : dir baseFile = some base) (ho : ∀ n rest, fs (root ++ outDir :: n :: rest) = none) :
    (match (do let pa ← rangesOf base.parametric; combos pa) with
      | .error e => (para E root fs).result = .error e
      | .ok sizes => (para E root fs).result = .ok sizes ∧ Inputs root (para E root fs).disk dir ∧
        (∀ s ∈ sizes, (para E root fs).disk (root ++ [outDir, folderName s]) = some .dir) ∧
        (∀ rest, (para E root fs).disk (root ++ outDir :: kpiDir :: rest) = none)) ∧
    ∀ s ∈ (para E root fs).states, NoOut root s := by
  have n0 : NoOut root fs := fun n r rest => ho _ _
  have hbase : fs (root ++ [inDir, baseFile]) = some (.file (.inputs base)) := by rw [hin.files, hb]; rfl
  have still : ∀ e, ∀ s ∈ (⟨.error e, fs, []⟩ : Done (List (ℤ × ℤ))).states, NoOut root s := fun e s hs => by
    rw [List.mem_singleton.mp hs]; exact n0
  unfold para
  rw [bind_still (valid_at (by rw [hin.ind]; simp)), bind_still (valid_at (by rw [hin.outd]; simp)),
    bind_still (readContainer_some hbase), lift_bind]
  cases rangesOf base.parametric with
  | error er => exact ⟨rfl, still er⟩
  | ok pa =>
    show (match combos pa with | .error e => _ | .ok sizes => _) ∧ _
    dsimp only
    rw [lift_bind]
    cases hc : combos pa with
    | error er => exact ⟨rfl, still er⟩
    | ok sizes =>
      obtain ⟨f1, f2, f3⟩ := folders_run (E := E) (combos_nodup hc) hin.outd fun s _ => ho (folderName s) []
      dsimp only
      rw [bind_ok f1]
      have hst : ∀ s ∈ (each (fun s => freshDir E (root ++ [outDir, folderName s])) sizes fs).states, NoOut root s :=
        fun s hs n r rest => (f2 _ (fun z _ e => by
          have := List.append_cancel_left e
          simp at this) s hs).trans (n0 n r rest)
      have hd := fun q hq => f2 q hq _ (List.mem_cons_self ..)
      refine ⟨⟨rfl, ?_, f3, fun rest => ?_⟩, fun s hs => ?_⟩
      · exact hin.congr (T := fun q => ∃ s ∈ sizes, q = root ++ [outDir, folderName s])
          (fun q hq => hd q fun s hs e => hq ⟨s, hs, e⟩) fun q ⟨s, _, e⟩ => ⟨folderName s, [], e⟩
      · exact (hd _ fun s _ e => by
          have := List.append_cancel_left e
          simp only [List.cons.injEq, true_and] at this
          exact folder_ne_kpi s this.1.symm).trans (ho _ _)
      · refine hst s ?_
        simp only [Done.states, List.mem_cons, List.mem_append] at hs ⊢
        rcases hs with rfl | hs | hs
        · exact .inl rfl
        · exact .inr hs
        · cases hs

/-- The exception of `main`, if any. -/
def raised : Except PyErr Stage → Except PyErr Unit
  | .error e => .error e
  | .ok (_, none) => .ok ()
  | .ok (_, some e) => .error e

/-- What a run leaves, and every disk on the way, against an answer. -/
structure Matches (L : Libs) (gekko : Gekko) (wb : Pandas.Workbook) (root : FPath) (r : Done Unit)
    (answer : Except PyErr Stage × Main.Store (List Char) Programme.Outcome Figures.Drawn) : Prop where
  result : r.result = raised answer.1
  results : ∀ n, n ≠ kpiDir →
    r.disk (root ++ [outDir, n, resultsName]) = (answer.2.results n).map fun o => .file (.results o)
  figures : ∀ n, n ≠ kpiDir → ∀ D ∈ answer.2.figures n, ∀ f ∈ figureNames D.bars.isSome,
    r.disk (root ++ [outDir, n, periodName D.period, f]) = some (.file (.figure D))
  tables : ∀ k, answer.1 = .ok k → ∀ fc ∈ k.1, r.disk (root ++ [outDir, kpiDir, fc.1.toList]) = some (.file (.kpi fc.2))
  saved : ∀ s ∈ r.states, ∀ n, n ≠ kpiDir → ∀ v, s (root ++ [outDir, n, resultsName]) = some v →
    v = .file .torn ∨ ∃ S o, setup L gekko wb = .ok S ∧ S.solve n = .ok o ∧ v = .file (.results o)

theorem matches_error {L : Libs} {gekko : Gekko} {wb : Pandas.Workbook} {r : Done Unit} {e : PyErr}
    (hr : r.result = .error e) (hs : ∀ s ∈ r.states, NoOut root s) :
    Matches L gekko wb root r (.error e, .empty) :=
  ⟨hr, fun n _ => hs _ (List.mem_cons_self ..) _ _ _, fun _ _ _ h => (nomatch h), fun _ h => (nomatch h),
    fun s h n _ v hv => by rw [hs s h] at hv; cases hv⟩

theorem kpis_touches (L : Libs) (title : Name) :
    Steps (Except' fun q => ∃ rest, q = root ++ outDir :: kpiDir :: rest) (kpis L E title root) := by
  have A := along_except fun q => ∃ rest, q = root ++ outDir :: kpiDir :: rest
  refine Steps.bind A (touches_freshDir E ?_) fun _ => Steps.bind A (Steps.readContainer A _) fun _ =>
    Steps.bind A (Steps.snapshot A) fun _ =>
    Steps.bind A (Steps.each A fun f _ => touches_write _ ⟨[f.1.toList], rfl⟩) fun _ => ?_
  · rintro q ⟨r, rfl⟩
    exact ⟨r, by simp⟩
  · split
    · exact Steps.pure A ()
    · exact Steps.fail A _

/-- What `main` reads before the loop. -/
theorem setup_dir {L : Libs} {gekko : Gekko} {wb : Pandas.Workbook} {base : Container} {dir : Dir Container}
    {pa : Ranges} {sizes : List (ℤ × ℤ)} (hr : readInputs wb = .ok base) (hp : rangesOf base.parametric = .ok pa)
    (hz : combos pa = .ok sizes)
    (hd : createPickles base sizes (fun n => if n = baseFile then some base else none) = .ok dir) :
    setup L gekko wb = match (generalizing := false) sizes with
      | [] => .error .indexError
      | s :: _ => match dir (pickleName s) with
        | none => .error .fileNotFoundError
        | some c => do
          let controller ← Pandas.Dict.get c.controller.info "controller"
          let n ← (do natOf (← Pandas.Dict.get c.controller.info "total_timesteps"))
          let first ← (do natOf (← Pandas.Dict.get c.controller.info "first_hour"))
          return ⟨sizes.map folderName, solver L gekko controller first n dir⟩ := by
  unfold setup
  rw [hr, okBind, hp, okBind, hz, okBind, hd, okBind]
  cases sizes with
  | nil => rfl
  | cons s ss =>
    dsimp only
    cases dir (pickleName s) with
    | none => rfl
    | some c =>
      simp only [bind_assoc]
      rfl

/-- The loop and the tables. -/
theorem study_run {L : Libs} {gekko : Gekko} {wb : Pandas.Workbook} {base : Container} {dir : Dir Container}
    {pa : Ranges} {sizes : List (ℤ × ℤ)} (hr : readInputs wb = .ok base) (hp : rangesOf base.parametric = .ok pa)
    (hz : combos pa = .ok sizes)
    (hd : createPickles base sizes (fun n => if n = baseFile then some base else none) = .ok dir) {fs : FS Data}
    (hin : Inputs root fs dir) (hfold : ∀ s ∈ sizes, fs (root ++ [outDir, folderName s]) = some .dir)
    (hkpi : ∀ rest, fs (root ++ outDir :: kpiDir :: rest) = none) (hno : NoOut root fs) (title : Name) :
    ∃ answer, Spec.ReportUndisturbed false L gekko wb (String.ofList title) answer ∧
      Matches L gekko wb root (study L gekko E title root sizes fs) answer := by
  have hi : inputDir wb = .ok (base, dir) := by
    unfold inputDir; rw [hr, okBind, hp, okBind, hz, okBind, hd]; rfl
  obtain ⟨P1, P2⟩ := createPickles_ok hd
  have hb : dir baseFile = some base := by
    rw [P2 _ fun s _ => (pickleName_ne_base s).symm, if_pos rfl]
  have hset := setup_dir (L := L) (gekko := gekko) hr hp hz hd
  have hends : ∀ {answer}, Spec.EndsUndisturbed false L gekko wb (outputsOf L base dir (String.ofList title)) answer →
      Spec.ReportUndisturbed false L gekko wb (String.ofList title) answer := fun h => by
    unfold Spec.ReportUndisturbed; rw [hi]; exact h
  have stop : ∀ {e : PyErr}, setup L gekko wb = .error e → study L gekko E title root sizes fs = ⟨.error e, fs, []⟩ →
      ∃ answer, Spec.ReportUndisturbed false L gekko wb (String.ofList title) answer ∧
        Matches L gekko wb root (study L gekko E title root sizes fs) answer := fun {e} h1 h2 =>
    ⟨_, hends (by unfold Spec.EndsUndisturbed; rw [h1]), matches_error (e := e) (by rw [h2]) fun s hs => by
      rw [h2] at hs; rw [List.mem_singleton.mp hs]; exact hno⟩
  cases sizes with
  | nil => exact stop hset rfl
  | cons s ss =>
    obtain ⟨c, -, hc⟩ := P1 s (List.mem_cons_self ..)
    have hfile : fs (root ++ [inDir, folderName s ++ ".pkl".toList]) = some (.file (.inputs c)) := by
      rw [hin.files]
      show (dir (pickleName s)).map _ = _
      rw [hc]; rfl
    dsimp only at hset
    rw [hc] at hset
    dsimp only at hset
    have e0 : study L gekko E title root (s :: ss) fs = _ := bind_still (readContainer_some hfile)
    rw [lift_bind] at e0
    cases hv : Pandas.Dict.get c.controller.info "controller" with
    | error e => rw [hv] at e0 hset; exact stop hset e0
    | ok v =>
    rw [hv] at e0 hset
    rw [okBind] at hset
    dsimp only at e0
    rw [lift_bind] at e0
    cases hn : (do natOf (← Pandas.Dict.get c.controller.info "total_timesteps")) with
    | error e => rw [hn] at e0 hset; exact stop hset e0
    | ok n =>
    rw [hn] at e0 hset
    rw [okBind] at hset
    dsimp only at e0
    rw [lift_bind] at e0
    cases hf : (do natOf (← Pandas.Dict.get c.controller.info "first_hour")) with
    | error e => rw [hf] at e0 hset; exact stop hset e0
    | ok first =>
    rw [hf] at e0 hset
    rw [okBind] at hset
    dsimp only at e0
    have hset' : setup L gekko wb = .ok ⟨(s :: ss).map folderName, solver L gekko v first n dir⟩ := hset
    have e1 : study L gekko E title root (s :: ss) fs =
      (each (job L gekko E root v first n) (s :: ss) >>= fun _ => kpis L E title root) fs := e0
    have hlaid : Laid root fs dir ((s :: ss).map folderName) ((s :: ss).map folderName) Main.Store.empty := by
      refine ⟨hin, fun m hm => ?_, fun m => hno _ _ _, fun _ _ h => (nomatch h), fun m _ r rest => hno _ _ _, hkpi⟩
      obtain ⟨z, hzm, rfl⟩ := List.mem_map.mp hm
      exact hfold z hzm
    obtain ⟨l1, ⟨todo, l2⟩, l3⟩ := loop_run (E := E) L gekko v first n dir
      (outputsOf L base dir (String.ofList title)).kpis (combos_nodup hz) (fun z hz => List.mem_map_of_mem hz) hlaid
      (fun m v hv => by rw [hno] at hv; cases hv)
    let P : Main.Parts Name Programme.Outcome Figures.Drawn Stage :=
      ⟨solver L gekko v first n dir, plots dir, (outputsOf L base dir (String.ofList title)).kpis⟩
    have ans : Spec.ReportUndisturbed false L gekko wb (String.ofList title)
        (Main.finish P (Main.singleLoop P ((s :: ss).map folderName) .empty)) :=
      hends (by unfold Spec.EndsUndisturbed; rw [hset']; rfl)
    refine ⟨_, ans, ?_⟩
    rw [e1]
    change (each (job L gekko E root v first n) (s :: ss) fs).result =
      (match (Main.singleLoop P ((s :: ss).map folderName) .empty).1 with
        | none => .ok () | some e => .error e) at l1
    change Laid root _ dir _ todo (Main.singleLoop P ((s :: ss).map folderName) .empty).2 at l2
    have sv : ∀ g, SavedOnly root (solver L gekko v first n dir) g → ∀ m w,
        g (root ++ [outDir, m, resultsName]) = some w → w = .file .torn ∨
          ∃ S o, setup L gekko wb = .ok S ∧ S.solve m = .ok o ∧ w = .file (.results o) := fun g hg m w hw => by
      rcases hg m w hw with h | ⟨o, h1, h2⟩
      · exact .inl h
      · exact .inr ⟨_, o, hset', h1, h2⟩
    generalize Main.singleLoop P ((s :: ss).map folderName) .empty = lo at l1 l2 ⊢
    obtain ⟨lr, st⟩ := lo
    cases lr with
    | some e =>
      have e2 : (each (job L gekko E root v first n) (s :: ss) >>= fun _ => kpis L E title root) fs = _ := bind_error l1
      rw [e2]
      exact ⟨rfl, fun m _ => l2.results m, fun m _ => l2.figures m, fun _ h => (nomatch h),
        fun g hg m _ => sv g (l3 g hg) m⟩
    | none =>
      have e2 : (each (job L gekko E root v first n) (s :: ss) >>= fun _ => kpis L E title root) fs = _ := bind_ok l1
      obtain ⟨q1, q2⟩ := kpis_run (L := L) (E := E) l2 hb title
      have kt := kpis_touches (root := root) (E := E) L title (each (job L gekko E root v first n) (s :: ss) fs).disk
      have kd : ∀ g ∈ (kpis L E title root (each (job L gekko E root v first n) (s :: ss) fs).disk).states,
          ∀ m, m ≠ kpiDir → ∀ rest, g (root ++ outDir :: m :: rest) =
            (each (job L gekko E root v first n) (s :: ss) fs).disk (root ++ outDir :: m :: rest) :=
        fun g hg m hm rest => kt g hg _ fun ⟨r', e⟩ => by
          have := List.append_cancel_left e
          simp only [List.cons.injEq, true_and] at this
          exact hm this.1
      refine ⟨?_, fun m hm => ?_, fun m hm D hD f hf' => ?_, fun k hk fc hfc => ?_, fun g hg m hm w hw => ?_⟩
      · rw [e2]
        refine q1.trans ?_
        show _ = raised (.ok (Report.tables L base dir (String.ofList title) st.results))
        unfold raised
        generalize Report.tables L base dir (String.ofList title) st.results = t
        obtain ⟨t1, t2⟩ := t
        cases t2 <;> rfl
      · rw [e2]
        exact (kd _ (List.mem_cons_self ..) m hm _).trans (l2.results m)
      · rw [e2]
        exact (kd _ (List.mem_cons_self ..) m hm _).trans (l2.figures m D hD f hf')
      · rw [e2]
        cases Except.ok.inj hk
        exact q2 fc hfc
      · rcases mem_states_bind hg with hg | ⟨_, _, hg⟩
        · exact sv g (l3 g hg) m w hw
        · rw [kd g hg m hm] at hw
          exact sv _ (l3 _ (List.mem_cons_self ..)) m w hw

/-- Putting a stage before a run. -/
theorem Matches.after {L : Libs} {gekko : Gekko} {wb : Pandas.Workbook} {m : Op α} {f : α → Op Unit} {fs : FS Data}
    {a : α} (hm : (m fs).result = .ok a) (hs : ∀ s ∈ (m fs).states, NoOut root s)
    {answer : Except PyErr Stage × Main.Store (List Char) Programme.Outcome Figures.Drawn}
    (h : Matches L gekko wb root (f a (m fs).disk) answer) : Matches L gekko wb root ((m >>= f) fs) answer := by
  have e : (m >>= f) fs = _ := bind_ok hm
  refine ⟨by rw [e]; exact h.result, by rw [e]; exact h.results, by rw [e]; exact h.figures, by rw [e]; exact h.tables,
    fun s hs' n hn v hv => ?_⟩
  rcases mem_states_bind hs' with hs' | ⟨b, hb, hs'⟩
  · rw [hs s hs'] at hv; cases hv
  · cases Except.ok.inj (hb.symm.trans hm)
    exact h.saved s hs' n hn v hv

/-- A stage that fails. -/
theorem matches_stop {L : Libs} {gekko : Gekko} {wb : Pandas.Workbook} {m : Op α} {f : α → Op Unit} {fs : FS Data}
    {e : PyErr} (hm : (m fs).result = .error e) (hs : ∀ s ∈ (m fs).states, NoOut root s) :
    Matches L gekko wb root ((m >>= f) fs) (.error e, .empty) := by
  have eq : (m >>= f) fs = _ := bind_error hm
  refine matches_error (by rw [eq]) fun s h => ?_
  rw [eq] at h
  exact hs s h

/-- A run in an empty folder. -/
theorem body_run {L : Libs} {gekko : Gekko} {wb : Pandas.Workbook} {fs : FS Data} (top : fs root = some .dir)
    (empty : ∀ n rest, fs (root ++ n :: rest) = none) (hout : ¬ root <+: x)
    (hx : fs x = some (.file (.workbook wb))) (title : Name) :
    ∃ answer, Spec.ReportUndisturbed false L gekko wb (String.ofList title) answer ∧
      Matches L gekko wb root
        (body L gekko (do let _ ← Disk.valid (.path x)) (readWorkbook x) E title root fs) answer := by
  let g := set fs (root ++ [logName]) (.file .log)
  have h1 : write (root ++ [logName]) .log fs = ⟨.ok (), g, [set fs (root ++ [logName]) (.file .torn), g]⟩ :=
    write_at (rest := []) .log (by rw [List.nil_append, empty]; simp) (by rw [List.append_nil]; exact top)
  have k : ∀ {q : FPath}, q ≠ [logName] → g (root ++ q) = fs (root ++ q) := set_at_ne
  have hl : logName ≠ outDir := by decide
  have hl' : logName ≠ inDir := by decide
  have n0 : NoOut root fs := fun _ _ _ => empty _ _
  have gtop : g root = some .dir := by
    have := k (q := []) (by simp)
    rw [List.append_nil] at this
    exact this.trans top
  obtain ⟨x1, x2⟩ := readExcel_run (E := E) (fs := g) gtop (fun rest => (k (by simp [hl'.symm])).trans (empty ..))
    (fun rest => (k (by simp [hl.symm])).trans (empty ..)) hout ((set_out hout _ _).trans hx)
  have after : ∀ {answer}, Matches L gekko wb root ((do
        readExcel (do let _ ← Disk.valid (.path x)) (readWorkbook x) E root
        let sizes ← para E root
        makePickles root sizes
        study L gekko E title root sizes : Op Unit) g) answer →
      Matches L gekko wb root (body L gekko (do let _ ← Disk.valid (.path x)) (readWorkbook x) E title root fs) answer :=
    fun {answer} h => by
      refine Matches.after (a := ()) (by rw [h1]) (fun s hs => ?_) (by rw [h1]; exact h)
      rw [h1] at hs
      simp only [Done.states, List.mem_cons, List.not_mem_nil, or_false] at hs
      rcases hs with rfl | rfl | rfl
      · exact n0.set (by simp [hl]) _
      · exact n0.set (by simp [hl]) _
      · exact n0.set (by simp [hl]) _
  have bad : ∀ {e}, inputDir wb = .error e → Spec.ReportUndisturbed false L gekko wb (String.ofList title) (.error e, .empty) :=
    fun h => by unfold Spec.ReportUndisturbed; rw [h]
  cases hr : readInputs wb with
  | error e =>
    rw [hr] at x1
    exact ⟨_, bad (by unfold inputDir; rw [hr]; rfl), after (matches_stop x1 x2)⟩
  | ok base =>
    rw [hr] at x1
    obtain ⟨y1, y2, y3⟩ := x1
    have base0 : (fun n => if n = baseFile then some base else none : Dir Container) baseFile = some base := if_pos rfl
    obtain ⟨p1, p2⟩ := para_run (E := E) y2 base0 y3
    have comb : inputDir wb = (do
        let sizes ← (do let pa ← rangesOf base.parametric; combos pa)
        let dir ← createPickles base sizes (fun n => if n = baseFile then some base else none)
        return (base, dir)) := by
      unfold inputDir
      rw [hr, okBind]
      simp only [bind_assoc]
    cases hz : (do let pa ← rangesOf base.parametric; combos pa) with
    | error e =>
      rw [hz] at p1 comb
      exact ⟨_, bad comb, after (Matches.after y1 x2 (matches_stop p1 p2))⟩
    | ok sizes =>
      rw [hz] at p1 comb
      obtain ⟨q1, q2, q3, q4⟩ := p1
      obtain ⟨pa, hpa, hco⟩ : ∃ pa, rangesOf base.parametric = .ok pa ∧ combos pa = .ok sizes := by
        simpa only [FixedOrder.except_bind_ok] using hz
      have m1 := makePickles_run (ss := sizes) q2 base0
      have mt := makePickles_touches (root := root) sizes
        (para E root (readExcel (do let _ ← Disk.valid (.path x)) (readWorkbook x) E root g).disk).disk
      have m2 : ∀ s ∈ (makePickles root sizes
          (para E root (readExcel (do let _ ← Disk.valid (.path x)) (readWorkbook x) E root g).disk).disk).states,
          NoOut root s := fun s hs => (p2 _ (List.mem_cons_self ..)).congr (mt s hs) fun n r rest ⟨i, e⟩ => by
        have := List.append_cancel_left e
        simp at this
      rw [okBind] at comb
      cases hd : createPickles base sizes (fun n => if n = baseFile then some base else none) with
      | error e =>
        rw [hd] at m1 comb
        exact ⟨_, bad comb, after (Matches.after y1 x2 (Matches.after q1 p2 (matches_stop m1 m2)))⟩
      | ok dir =>
        rw [hd] at m1
        obtain ⟨m3, m4⟩ := m1
        have km := fun q hq => mt _ (List.mem_cons_self ..) q hq
        obtain ⟨answer, a1, a2⟩ := study_run (E := E) (L := L) (gekko := gekko) hr hpa hco hd m4
          (fun s hs => (km _ (fun ⟨i, e⟩ => by
            have := List.append_cancel_left e
            simp [in_ne_out.symm] at this)).trans (q3 s hs))
          (fun rest => (km _ (fun ⟨i, e⟩ => by
            have := List.append_cancel_left e
            simp [in_ne_out.symm] at this)).trans (q4 rest))
          (m2 _ (List.mem_cons_self ..)) title
        exact ⟨answer, a1, after (Matches.after y1 x2 (Matches.after q1 p2 (Matches.after m3 m2 a2)))⟩

end Disk
end Verif
