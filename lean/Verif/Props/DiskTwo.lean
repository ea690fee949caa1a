import Verif.Lemmas.DiskLate

/-!
# Two processes on one disk: a study on two cores leaves what the study on one core leaves (C121)
-/

set_option autoImplicit false

namespace Verif
open Files Para Disk Programme Simulation Report

/-! ## Vocabulary -/

/-- The operating system does not end the process that plots, and the parent does not lose patience with it after its
30 seconds. -/
def Spec.Quiet (ms : List Move) : Prop := ∀ a ∈ ms, a ≠ .timeout ∧ ∀ c, a ≠ .kill c

/-- The folder of a combination. -/
def Spec.folderOf (root : FPath) (z : ℤ × ℤ) : FPath := root ++ ["outputs".toList, folderName z]

open Spec

variable {L : Libs} {gekko : Gekko} {E : FPath → Removal} {xlsx outdir : Arg} {x d : FPath} {base : Name}
  {overwrite : Bool}

theorem quiet_iff {ms : List Move} : Quiet ms ↔ ∀ a ∈ ms, a.disturbs = false := by
  refine forall₂_congr fun a _ => ?_
  cases a <;> simp [Move.disturbs]

/-! ## The disk at the end -/

/-- The invariant along a schedule of a study. -/
theorem study_inv {fs : FS Data} {o : Opened} (h : (opening E xlsx outdir overwrite fs).result = .ok o)
    {ms : List Move} {m : Machine}
    (hm : o.moves L gekko E (o.machine (opening E xlsx outdir overwrite fs).disk) ms = some m) :
    ∃ G, Inv (Prog.solve L gekko o.root o.controller o.first o.n) (Prog.plot E o.root) (Sees o.root) (Mine o.root)
      (o.sizes.map folderName) (opening E xlsx outdir overwrite fs).disk G m :=
  inv_moves (apart L gekko E o.root o.controller o.first o.n) (opening_nodup h) inv_first hm

theorem main_of_loop {fs : FS Data} {o : Opened} (h : (opening E xlsx outdir overwrite fs).result = .ok o)
    (hl : (o.loop L gekko E (opening E xlsx outdir overwrite fs).disk).result = .ok ()) :
    (Disk.main L gekko E xlsx outdir overwrite fs).result = (kpis L E (lastName o.root) o.root
      (o.loop L gekko E (opening E xlsx outdir overwrite fs).disk).disk).result ∧
    (Disk.main L gekko E xlsx outdir overwrite fs).disk = (kpis L E (lastName o.root) o.root
      (o.loop L gekko E (opening E xlsx outdir overwrite fs).disk).disk).disk := by
  rw [main_opening, bind_ok h, bind_ok hl]
  exact ⟨rfl, rfl⟩

theorem main_opened {fs : FS Data} (h : (Disk.main L gekko E xlsx outdir overwrite fs).result = .ok ()) :
    ∃ o, (opening E xlsx outdir overwrite fs).result = .ok o ∧
      (o.loop L gekko E (opening E xlsx outdir overwrite fs).disk).result = .ok () := by
  rw [main_opening] at h
  obtain ⟨o, h1, h2⟩ := bind_result_ok h
  obtain ⟨_, h3, -⟩ := bind_result_ok h2
  exact ⟨o, h1, h3⟩

/-- **Returned means done.** If a study on two cores returns, whatever the order in which the two processes looked at
the disk and changed it, then the study on one core returns from the same disk, and leaves the same disk: every file and
folder, with everything in them. So where the study on one core raises, no schedule on two cores returns. -/
theorem C121_returned {fs disk : FS Data} {ms : List Move}
    (h : TwoCores L gekko E xlsx outdir overwrite fs ms (.ok ()) disk) :
    (Disk.main L gekko E xlsx outdir overwrite fs).result = .ok () ∧
    (Disk.main L gekko E xlsx outdir overwrite fs).disk = disk := by
  unfold TwoCores at h
  cases ho : (opening E xlsx outdir overwrite fs).result with
  | error e => rw [ho] at h; cases h.2.1
  | ok o =>
    rw [ho] at h
    obtain ⟨m, hm, h⟩ := h
    split at h
    · rename_i hp
      obtain ⟨G, hG⟩ := study_inv ho hm
      obtain ⟨e1, e2⟩ := ended_same (apart L gekko E o.root o.controller o.first o.n) (opening_nodup ho) hG hp
      obtain ⟨k1, k2⟩ := main_of_loop (L := L) (gekko := gekko) ho e1
      rw [k1, k2, show (o.loop L gekko E _).disk = m.disk from e2]
      exact ⟨h.1.symm, h.2.symm⟩
    · cases h.1
    · exact h.elim

/-! ## Every schedule -/

theorem loop_all {fs : FS Data} {o : Opened} (h : (opening E xlsx outdir overwrite fs).result = .ok o)
    (hl : (o.loop L gekko E (opening E xlsx outdir overwrite fs).disk).result = .ok ()) :
    ∀ n ∈ o.sizes.map folderName,
      SolveOk (Prog.solve L gekko o.root o.controller o.first o.n) (opening E xlsx outdir overwrite fs).disk n ∧
      PlotOk (Prog.solve L gekko o.root o.controller o.first o.n) (Prog.plot E o.root)
        (opening E xlsx outdir overwrite fs).disk n :=
  (each_both (apart L gekko E o.root o.controller o.first o.n) (opening_nodup h) fun _ _ _ _ => rfl).1.mp hl

theorem ended_twoCores {fs : FS Data} (h1 : (Disk.main L gekko E xlsx outdir overwrite fs).result = .ok ()) {o : Opened}
    (ho : (opening E xlsx outdir overwrite fs).result = .ok o) {ms : List Move} {m : Machine}
    (hm : o.moves L gekko E (o.machine (opening E xlsx outdir overwrite fs).disk) ms = some m)
    (hp : m.parent = .ended none) : TwoCores L gekko E xlsx outdir overwrite fs ms (.ok ())
      (Disk.main L gekko E xlsx outdir overwrite fs).disk := by
  obtain ⟨G, hG⟩ := study_inv ho hm
  obtain ⟨e1, e2⟩ := ended_same (apart L gekko E o.root o.controller o.first o.n) (opening_nodup ho) hG hp
  obtain ⟨k1, k2⟩ := main_of_loop (L := L) (gekko := gekko) ho e1
  rw [show (o.loop L gekko E _).disk = m.disk from e2] at k1 k2
  unfold TwoCores
  rw [ho]
  refine ⟨m, hm, ?_⟩
  rw [hp]
  exact ⟨h1.symm.trans k1, k2⟩

/-- **It can always go on to the end.** If the study on one core returns, then a quiet schedule on two cores, wherever it
has got to, can go on quietly and return, with the disk that one core leaves. -/
theorem C121_goes_on {fs : FS Data} (h1 : (Disk.main L gekko E xlsx outdir overwrite fs).result = .ok ()) {o : Opened}
    (ho : (opening E xlsx outdir overwrite fs).result = .ok o) {ms : List Move} (hq : Quiet ms) {m : Machine}
    (hm : o.moves L gekko E (o.machine (opening E xlsx outdir overwrite fs).disk) ms = some m) :
    ∃ more, Quiet more ∧ TwoCores L gekko E xlsx outdir overwrite fs (ms ++ more) (.ok ())
      (Disk.main L gekko E xlsx outdir overwrite fs).disk := by
  obtain ⟨o', ho', hl⟩ := main_opened h1
  cases Except.ok.inj (ho.symm.trans ho')
  have hall := loop_all ho hl
  obtain ⟨G, hG⟩ := study_inv ho hm
  have hA := apart L gekko E o.root o.controller o.first o.n
  have hc := calm_moves hA (opening_nodup ho) hall inv_first calm_first (quiet_iff.mp hq) hm
  obtain ⟨m', ⟨more, hmore, hrun⟩, hp⟩ := can_end hA (opening_nodup ho) hall hG hc
  refine ⟨more, quiet_iff.mpr hmore, ended_twoCores h1 ho (m := m') ?_ hp⟩
  unfold Opened.moves
  rw [moves_append, show Machine.moves _ _ _ ms = some m from hm]
  exact hrun

/-- **No schedule goes on for ever**, quiet or not: after some number of moves the next one is impossible. -/
theorem C121_ends (o : Opened) (m : Machine) (schedule : ℕ → Move) :
    ∃ k, o.moves L gekko E m ((List.range k).map schedule) = none :=
  moves_end m schedule

/-- **Every quiet schedule.** If the study on one core returns, then every quiet schedule on two cores that cannot
quietly go on has returned, with the disk that one core leaves. -/
theorem C121_every_schedule {fs : FS Data} (h1 : (Disk.main L gekko E xlsx outdir overwrite fs).result = .ok ())
    {o : Opened} (ho : (opening E xlsx outdir overwrite fs).result = .ok o) {ms : List Move} (hq : Quiet ms) {m : Machine}
    (hm : o.moves L gekko E (o.machine (opening E xlsx outdir overwrite fs).disk) ms = some m)
    (hstop : ∀ a, Quiet [a] → o.moves L gekko E m [a] = none) :
    TwoCores L gekko E xlsx outdir overwrite fs ms (.ok ()) (Disk.main L gekko E xlsx outdir overwrite fs).disk := by
  obtain ⟨more, hmore, h⟩ := C121_goes_on h1 ho hq hm
  cases more with
  | nil => rwa [List.append_nil] at h
  | cons a as =>
    exfalso
    have hs := hstop a fun b hb => hmore b (by rw [List.mem_singleton.mp hb]; exact List.mem_cons_self ..)
    unfold TwoCores at h
    rw [ho] at h
    obtain ⟨m', hm', -⟩ := h
    unfold Opened.moves at hm hm' hs
    rw [show ms ++ a :: as = (ms ++ [a]) ++ as by simp, moves_append, moves_append, hm] at hm'
    simp only [Option.bind_some] at hm'
    rw [hs] at hm'
    cases hm'

/-- **However it ends, quietly it returns.** If the study on one core returns, a quiet schedule on two cores that has
come to an end has returned, with the disk that one core leaves. -/
theorem C121_quiet_end {fs disk : FS Data} (h1 : (Disk.main L gekko E xlsx outdir overwrite fs).result = .ok ())
    {ms : List Move} (hq : Quiet ms) {answer : Except PyErr Unit}
    (h : TwoCores L gekko E xlsx outdir overwrite fs ms answer disk) :
    answer = .ok () ∧ disk = (Disk.main L gekko E xlsx outdir overwrite fs).disk := by
  obtain ⟨o, ho, hl⟩ := main_opened h1
  have h' := h
  unfold TwoCores at h
  rw [ho] at h
  obtain ⟨m, hm, h⟩ := h
  have hc := calm_moves (apart L gekko E o.root o.controller o.first o.n) (opening_nodup ho) (loop_all ho hl) inv_first
    calm_first (quiet_iff.mp hq) hm
  split at h
  · rename_i hp
    have ht := ended_twoCores h1 ho hm hp
    unfold TwoCores at ht
    rw [ho] at ht
    obtain ⟨m', hm', ht⟩ := ht
    cases Option.some.inj (hm.symm.trans hm')
    rw [hp] at ht
    exact ⟨h.1.trans ht.1.symm, h.2.trans ht.2.symm⟩
  · rename_i e hp
    have := hc.parent
    rw [hp] at this
    exact this.elim
  · exact h.elim

/-! ## Every moment -/

/-- A combination's folder in a machine, and outside the folders. -/
theorem study_moment {fs : FS Data} {o : Opened} (ho : (opening E xlsx outdir overwrite fs).result = .ok o)
    {ms : List Move} {m : Machine}
    (hm : o.moves L gekko E (o.machine (opening E xlsx outdir overwrite fs).disk) ms = some m) (z : ℤ × ℤ) :
    ∃ g, (g = (opening E xlsx outdir overwrite fs).disk ∨ z ∈ o.sizes ∧
        g ∈ (both (Prog.solve L gekko o.root o.controller o.first o.n) (Prog.plot E o.root) (folderName z)
          (opening E xlsx outdir overwrite fs).disk).seen) ∧ On (Mine o.root (folderName z)) m.disk g := by
  obtain ⟨G, hG⟩ := study_inv ho hm
  have hA := apart L gekko E o.root o.controller o.first o.n
  by_cases hz : z ∈ o.sizes
  · refine ⟨G.disk (folderName z), ?_, fun q hq =>
      hG.inside _ (List.mem_map_of_mem hz) q (hA.sub _ q hq)⟩
    rcases stage_moment (hG.stage (folderName z)) with h | h
    · exact .inl h
    · exact .inr ⟨hz, h⟩
  · refine ⟨_, .inl rfl, fun q hq => hG.outside q fun n hn hw => ?_⟩
    obtain ⟨z', hz', rfl⟩ := List.mem_map.mp hn
    exact hA.apart (folderName z) (folderName z') q (fun e => hz (folderName_inj e ▸ hz')) hq (hA.sub _ q hw)

/-- The tables are not in the folder of a combination. -/
theorem kpis_mine {title : Name} {root : FPath} {fs s : FS Data} (hs : s ∈ (kpis L E title root fs).states) (z : ℤ × ℤ) :
    On (Mine root (folderName z)) s fs := fun q hq => kpis_touches L title fs s hs q fun ⟨rest, e⟩ => by
  obtain ⟨t, rfl⟩ := hq
  rw [List.append_assoc] at e
  have := List.append_cancel_left e
  simp only [List.cons_append, List.cons.injEq, true_and] at this
  exact folder_ne_kpi z this.1

theorem twoCoresAt_cases {fs s : FS Data} (h : TwoCoresAt L gekko E xlsx outdir overwrite fs s) :
    s ∈ (opening E xlsx outdir overwrite fs).states ∨ ∃ o, (opening E xlsx outdir overwrite fs).result = .ok o ∧
      ∀ z, ∃ g, (g = (opening E xlsx outdir overwrite fs).disk ∨ z ∈ o.sizes ∧
        g ∈ (both (Prog.solve L gekko o.root o.controller o.first o.n) (Prog.plot E o.root) (folderName z)
          (opening E xlsx outdir overwrite fs).disk).seen) ∧ On (Mine o.root (folderName z)) s g := by
  rcases h with h | ⟨o, ms, m, ho, hm, h⟩
  · exact .inl h
  · refine .inr ⟨o, ho, fun z => ?_⟩
    obtain ⟨g, h1, h2⟩ := study_moment ho hm z
    rcases h with rfl | ⟨-, h⟩
    · exact ⟨g, h1, h2⟩
    · exact ⟨g, h1, (kpis_mine h z).trans h2⟩

/-- **No moment one core does not know.** If the study on one core returns, then wherever a study on two cores is cut off,
even with the plotting process ended by the operating system or given up by the parent, the folder of each combination is
as it is at some moment of the study on one core: everything in it, including files being written. -/
theorem C121_any_moment (hw : Workbook x base) (hb : Ordinary base) {fs : FS Data} (ht : Tree fs)
    (hn : NoFileAt fs (d ++ [base])) (hd : fs d = some .dir) (hout : ¬ Below (d ++ [base]) x) {wb : Pandas.Workbook}
    (hx : fs x = some (.file (.workbook wb)))
    (h1 : (Disk.main L gekko E (.path x) (.path d) overwrite fs).result = .ok ()) {s : FS Data}
    (hs : TwoCoresAt L gekko E (.path x) (.path d) overwrite fs s) (z : ℤ × ℤ) :
    ∃ s', (s' = fs ∨ s' ∈ (Disk.main L gekko E (.path x) (.path d) overwrite fs).states) ∧
      ∀ q, Below (folderOf (d ++ [base]) z) q → s q = s' q := by
  obtain ⟨o, ho, hl⟩ := main_opened h1
  obtain ⟨hroot, -⟩ := opening_run (L := L) (gekko := gekko) hw hb ⟨ht, hn⟩ hd hout hx ho
  have first : ∀ g ∈ (opening E (.path x) (.path d) overwrite fs).states,
      g = fs ∨ g ∈ (Disk.main L gekko E (.path x) (.path d) overwrite fs).states := fun g hg => by
    rw [main_opening]
    exact states_first (opening_recorded E (.path x) (.path d) overwrite) hg
  rcases twoCoresAt_cases hs with h | ⟨o', ho', h⟩
  · exact ⟨s, first s h, fun _ _ => rfl⟩
  · cases Except.ok.inj (ho.symm.trans ho')
    obtain ⟨g, h2, h3⟩ := h z
    rw [hroot] at h3
    rcases h2 with rfl | ⟨hz, hg⟩
    · exact ⟨_, first _ (List.mem_cons_self ..), h3⟩
    · obtain ⟨s', t1, t2⟩ := each_moments (apart L gekko E o.root o.controller o.first o.n) (.inr hg) (opening_nodup ho)
        (List.mem_map_of_mem hz) (fun _ _ => rfl) hl
      refine ⟨s', ?_, fun q hq => (h3 q hq).trans (t2 q (.inr (by rw [hroot]; exact hq)))⟩
      rcases t1 with rfl | t1
      · exact first _ (List.mem_cons_self ..)
      · refine .inr (List.mem_cons_of_mem _ ?_)
        rw [main_opening]
        exact seen_second ho (seen_first (m := o.loop L gekko E) t1)

/-- **No wrong results on two cores.** Wherever a study on two cores is cut off, in any schedule, a file of results holds
what it held before the run, or is one that was being written at that moment, or holds the results of its combination as
the workbook gives them. -/
theorem C121_cut_off (hw : Workbook x base) (hb : Ordinary base) {fs : FS Data} (ht : Tree fs)
    (hn : NoFileAt fs (d ++ [base])) (hd : fs d = some .dir) (hout : ¬ Below (d ++ [base]) x) {wb : Pandas.Workbook}
    (hx : fs x = some (.file (.workbook wb))) {s : FS Data}
    (hs : TwoCoresAt L gekko E (.path x) (.path d) overwrite fs s) {z : ℤ × ℤ} {v : Node Data}
    (hv : s (resultsAt (d ++ [base]) z) = some v) :
    fs (resultsAt (d ++ [base]) z) = some v ∨ v = .file .torn ∨
      ∃ o, v = .file (.results o) ∧ RunOf L gekko wb z (rows o) := by
  have first : ∀ g ∈ (opening E (.path x) (.path d) overwrite fs).states, g (resultsAt (d ++ [base]) z) = some v →
      fs (resultsAt (d ++ [base]) z) = some v ∨ v = .file .torn ∨
      ∃ o, v = .file (.results o) ∧ RunOf L gekko wb z (rows o) := fun g hg hv => by
    rcases states_first (f := fun o => o.loop L gekko E >>= fun _ => kpis L E (lastName o.root) o.root)
      (opening_recorded E (.path x) (.path d) overwrite) hg with rfl | hg
    · exact .inl hv
    · rw [← main_opening] at hg
      exact C120_cut_off hw hb ht hn hd hout hx hg hv
  rcases twoCoresAt_cases hs with h | ⟨o, ho, h⟩
  · exact first s h hv
  · obtain ⟨hroot, dir, hR⟩ := opening_run (L := L) (gekko := gekko) hw hb ⟨ht, hn⟩ hd hout hx ho
    obtain ⟨g, h2, h3⟩ := h z
    rw [hroot] at h3
    have hg := (h3 (resultsAt (d ++ [base]) z) (mine_of (d ++ [base]) (folderName z) [resultsName])).symm.trans hv
    rcases h2 with rfl | ⟨hz, h2⟩
    · exact first _ (List.mem_cons_self ..) hg
    · rw [← hroot] at hg
      rcases both_results hR hz (.inr h2) hg with h | ⟨r, h4, h5⟩
      · exact .inr (.inl h)
      · exact .inr (.inr ⟨r, h4, solved_run hR.setup h5⟩)

/-! ## After the end -/

/-- **Nothing happens afterwards.** Once the loop and `stop` have returned on two cores, no process of the study is left
that could change the disk: no further move is possible. -/
theorem C121_nothing_after {fs : FS Data} {o : Opened} (ho : (opening E xlsx outdir overwrite fs).result = .ok o)
    {ms : List Move} {m : Machine}
    (hm : o.moves L gekko E (o.machine (opening E xlsx outdir overwrite fs).disk) ms = some m)
    (hp : m.parent = .ended none) (a : Move) : o.moves L gekko E m [a] = none := by
  obtain ⟨G, hG⟩ := study_inv ho hm
  unfold Opened.moves Machine.moves
  rw [ended_stuck hG hp a]

/-- **It does when the parent has lost patience.** For every study that returns on one core: if the process that plots
has not begun by the time the parent has waited its 30 seconds, `main` raises `ValueError`, although nothing is wrong with
the study, and that process goes on to add figures to the folder of the study afterwards. -/
theorem C121_late_fails (hw : Workbook x base) (hb : Ordinary base) {fs : FS Data} (ht : Tree fs)
    (hn : NoFileAt fs (d ++ [base])) (hd : fs d = some .dir) (hout : ¬ Below (d ++ [base]) x) {wb : Pandas.Workbook}
    (hx : fs x = some (.file (.workbook wb)))
    (h1 : (Disk.main L gekko E (.path x) (.path d) overwrite fs).result = .ok ()) :
    ∃ o ms m more m' z p f D, (opening E (.path x) (.path d) overwrite fs).result = .ok o ∧
      o.moves L gekko E (o.machine (opening E (.path x) (.path d) overwrite fs).disk) ms = some m ∧
      TwoCores L gekko E (.path x) (.path d) overwrite fs ms (.error .valueError) m.disk ∧
      Quiet more ∧ o.moves L gekko E m more = some m' ∧
      m.disk (folderOf (d ++ [base]) z ++ [p, f]) = none ∧
      m'.disk (folderOf (d ++ [base]) z ++ [p, f]) = some (.file (.figure D)) := by
  obtain ⟨o, ho, hl⟩ := main_opened h1
  obtain ⟨hroot, dir, hR⟩ := opening_run (L := L) (gekko := gekko) hw hb ⟨ht, hn⟩ hd hout hx ho
  have hall := loop_all ho hl
  have hnd := opening_nodup ho
  obtain ⟨pa, sizes, ctl, first, n, Z⟩ := setup_ok hR.setup
  have hne : o.sizes ≠ [] := fun e => by
    have : o.sizes.map folderName = sizes.map folderName := Z.names
    rw [e] at this
    exact Z.nonempty (List.map_eq_nil_iff.mp this.symm)
  cases hs : o.sizes with
  | nil => exact absurd hs hne
  | cons z zs =>
    have hz : z ∈ o.sizes := by rw [hs]; exact List.mem_cons_self ..
    have hz' := hall _ (List.mem_map_of_mem hz)
    obtain ⟨p, f, D, k1, k2⟩ := drawn_more (E := E) hR hz hz'.1 hz'.2
    have hnames : o.sizes.map folderName = folderName z :: zs.map folderName := by rw [hs]; rfl
    rw [hnames] at hall hnd
    obtain ⟨ms, m, more, m', g1, g2, g3, g4, g5, g6⟩ :=
      gives_up (apart L gekko E o.root o.controller o.first o.n) hnd hall
    have hm : o.moves L gekko E (o.machine (opening E (.path x) (.path d) overwrite fs).disk) ms = some m := by
      unfold Opened.moves Opened.machine
      rw [hnames]
      exact g1
    have hsee : Sees o.root (folderName z) (o.root ++ [outDir, folderName z, periodName p, f]) :=
      .inr (mine_of o.root (folderName z) [periodName p, f])
    have hpath : folderOf (d ++ [base]) z ++ [periodName p, f] = o.root ++ [outDir, folderName z, periodName p, f] := by
      unfold folderOf
      rw [hroot, List.append_assoc]
      rfl
    refine ⟨o, ms, m, more, m', z, periodName p, f, D, ho, hm, ?_, quiet_iff.mpr g4, g5, ?_, ?_⟩
    · unfold TwoCores
      rw [ho]
      refine ⟨m, hm, ?_⟩
      rw [g2]
      exact ⟨rfl, rfl⟩
    · rw [hpath, g3 _ hsee]; exact k1
    · rw [hpath, g6 _ hsee]; exact k2

/-! ## A study -/

attribute [local irreducible] Report.Ends Sample.stores Sample.wallLibs

theorem sample_main_ok (gekko : Gekko) :
    (Disk.main Sample.wallLibs gekko sampleRemoval (.path ["w.xlsx".toList]) (.path [['d']]) true
      (studyDisk Sample.stores)).result = .ok () := by
  obtain ⟨files, st, h, hf⟩ := sample_study_written gekko (String.ofList ['w'])
  exact (studyDisk_written h hf).1

/-- The sample study of six combinations, over an earlier run, returns on two cores. -/
example (gekko : Gekko) : ∃ ms disk, Quiet ms ∧
    TwoCores Sample.wallLibs gekko sampleRemoval (.path ["w.xlsx".toList]) (.path [['d']]) true
      (studyDisk Sample.stores) ms (.ok ()) disk := by
  obtain ⟨o, ho, -⟩ := main_opened (sample_main_ok gekko)
  obtain ⟨more, h1, h2⟩ := C121_goes_on (sample_main_ok gekko) ho (ms := []) (fun _ h => absurd h (by simp)) rfl
  exact ⟨_, _, h1, h2⟩

/-- Or raises, and goes on plotting. -/
example (gekko : Gekko) : ∃ ms disk,
    TwoCores Sample.wallLibs gekko sampleRemoval (.path ["w.xlsx".toList]) (.path [['d']]) true
      (studyDisk Sample.stores) ms (.error .valueError) disk := by
  obtain ⟨o, ms, m, more, m', z, p, f, D, -, -, h, -⟩ := C121_late_fails sample_workbook.1 sample_workbook.2.1
    (studyDisk_tree _) (studyDisk_noFile _) (studyDisk_dir _) sample_workbook.2.2 (studyDisk_book _) (sample_main_ok gekko)
  exact ⟨ms, _, h⟩

/-- Whenever it returns, all its tables are on the disk. -/
example (gekko : Gekko) (ms : List Move) (disk : FS Data)
    (h : TwoCores Sample.wallLibs gekko sampleRemoval (.path ["w.xlsx".toList]) (.path [['d']]) true
      (studyDisk Sample.stores) ms (.ok ()) disk) :
    ∀ f ∈ tableFiles (String.ofList ['w']) ++ chartFiles, ∃ c,
      disk (kpiAt ([['d']] ++ [['w']]) f) = some (.file (.kpi c)) := by
  obtain ⟨files, st, he, hf⟩ := sample_study_written gekko (String.ofList ['w'])
  rw [← (C121_returned h).2]
  exact (studyDisk_written he hf).2

/-- Wherever it is cut off on two cores, what can be read as results is right. -/
example (gekko : Gekko) (s : FS Data) (z : ℤ × ℤ) (o : Programme.Outcome)
    (hs : TwoCoresAt Sample.wallLibs gekko sampleRemoval (.path ["w.xlsx".toList]) (.path [['d']]) true
      (studyDisk Sample.stores) s)
    (ho : s (resultsAt ([['d']] ++ [['w']]) z) = some (.file (.results o))) :
    RunOf Sample.wallLibs gekko Sample.stores z (rows o) := by
  rcases C121_cut_off sample_workbook.1 sample_workbook.2.1 (studyDisk_tree _) (studyDisk_noFile _) (studyDisk_dir _)
    sample_workbook.2.2 (studyDisk_book _) hs ho with h | h | ⟨o', h, hr⟩
  · unfold studyDisk resultsAt at h
    simp at h
  · cases h
  · cases h; exact hr

/-- And its folders are as at a moment of the study on one core. -/
example (gekko : Gekko) (s : FS Data) (z : ℤ × ℤ)
    (hs : TwoCoresAt Sample.wallLibs gekko sampleRemoval (.path ["w.xlsx".toList]) (.path [['d']]) true
      (studyDisk Sample.stores) s) :
    ∃ s', (s' = studyDisk Sample.stores ∨ s' ∈ (Disk.main Sample.wallLibs gekko sampleRemoval
        (.path ["w.xlsx".toList]) (.path [['d']]) true (studyDisk Sample.stores)).states) ∧
      ∀ q, Below (folderOf ([['d']] ++ [['w']]) z) q → s q = s' q :=
  C121_any_moment sample_workbook.1 sample_workbook.2.1 (studyDisk_tree _) (studyDisk_noFile _) (studyDisk_dir _)
    sample_workbook.2.2 (studyDisk_book _) (sample_main_ok gekko) hs z

end Verif
