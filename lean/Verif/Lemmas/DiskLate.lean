import Verif.Lemmas.DiskMoments

/-!
# Lemmas for `Verif.Props.DiskTwo`: the worker after the parent has ended
-/

set_option autoImplicit false

namespace Verif
namespace Disk
open Files Para Pandas Programme Report InputReader Simulation Workbook OutputProcess Spec

variable {solve plot : Name → Prog Unit} {A W : Name → FPath → Prop} {fs0 : FS Data} {n : Name} {rest : List Name}

/-- Ended well, nothing can happen any more. -/
theorem ended_stuck {names : List Name} {G : Ghost} {m : Machine} (h : Inv solve plot A W names fs0 G m)
    (hp : m.parent = .ended none) (a : Move) : m.move solve plot a = none := by
  have hip := h.parent
  unfold ParentInv at hip
  rw [hp] at hip
  have hw := hip.2.2.2.2
  have hdead : m.proc.isAlive = false := by
    unfold State.isAlive State.process
    rw [hw]
    cases m.proc.current with
    | none => rfl
    | some i => cases i <;> rfl
  unfold Machine.move
  cases a with
  | start => dsimp only; rw [hp]
  | begin => dsimp only; rw [hp]
  | work => dsimp only; rw [hp]
  | submit => dsimp only; rw [hp]
  | call => dsimp only; rw [hp]
  | reply r => dsimp only; rw [hp]
  | timeout => simp [OutputProcess.step, hdead]
  | take =>
    dsimp only
    split
    · simp [OutputProcess.step, hw]
    · rfl
  | draw => dsimp only; rw [hw]
  | finish => dsimp only; rw [hw]
  | fail => dsimp only; rw [hw]
  | quit => simp [OutputProcess.step, hw]
  | kill c => simp [OutputProcess.step, hw, Worker.alive]

/-- If the worker has not begun when the parent loses patience, the parent ends with `ValueError`, and then the worker
plots. -/
theorem gives_up (H : Apart solve plot A W) (hnd : (n :: rest).Nodup)
    (hok : ∀ k ∈ n :: rest, SolveOk solve fs0 k ∧ PlotOk solve plot fs0 k) :
    ∃ ms m more m', Machine.moves solve plot ⟨fs0, OutputProcess.init Name, .ret (), .starting (n :: rest)⟩ ms = some m ∧
      m.parent = .ended (some .valueError) ∧ On (A n) m.disk (solved solve fs0 n) ∧
      (∀ a ∈ more, a.disturbs = false) ∧ m.moves solve plot more = some m' ∧
      On (A n) m'.disk (drawn solve plot fs0 n) := by
  let m0 : Machine := ⟨fs0, OutputProcess.init Name, .ret (), .starting (n :: rest)⟩
  let m1 : Machine := ⟨fs0, ⟨[], [.waiting], some 0, .idle⟩, .ret (), .loop (n :: rest)⟩
  have e1 : m0.move solve plot .start = some m1 := rfl
  obtain ⟨G1, i1⟩ := inv_move H hnd inv_first e1
  obtain ⟨m2, ⟨ms, -, h2⟩, p2, q2⟩ := can_stop H hnd hok i1 rfl
  obtain ⟨G2, i2⟩ := inv_moves H hnd i1 h2
  -- nothing has been plotted
  have hjobs : G2.jobs = n :: rest := by
    have hq := i2.queue
    rw [q2] at hq
    simp only [m1, List.nil_append] at hq
    have := congrArg (List.filterMap fun i : Item Name => match i with | .job j => some j | .sentinel => none) hq
    simpa [List.filterMap_append, List.filterMap_map, List.filterMap_replicate, Function.comp_def] using this.symm
  have hn2 : On (A n) m2.disk (solved solve fs0 n) := by
    have hj := i2.jobs n (by rw [hjobs]; exact List.mem_cons_self ..)
    exact hj.2 ▸ i2.inside n (List.mem_cons_self ..)
  let m3 : Machine := ⟨m2.disk, ⟨(n :: rest).map .job ++ [.sentinel], [.waiting], some 0, .raising⟩, m2.job, .stopping none⟩
  let m4 : Machine := ⟨m2.disk, ⟨(n :: rest).map .job ++ [.sentinel], [.waiting], some 0, .idle⟩, m2.job,
    .ended (some .valueError)⟩
  let m5 : Machine := ⟨m2.disk, ⟨rest.map .job ++ [.sentinel], [.running n], some 0, .idle⟩, plot n,
    .ended (some .valueError)⟩
  have hm2 : m2 = ⟨m2.disk, ⟨(n :: rest).map .job ++ [.sentinel], [.waiting], some 0, .joining true⟩, m2.job,
      .stopping none⟩ := by
    cases m2
    cases p2
    cases q2
    rfl
  have e3 : m2.move solve plot .timeout = some m3 := by rw [hm2]; rfl
  have e4 : m3.move solve plot (.reply .valueError) = some m4 := rfl
  have e5 : m4.move solve plot .take = some m5 := by
    simp [m4, m5, Machine.move, OutputProcess.step, State.setWorker]
  obtain ⟨G3, i3⟩ := inv_move H hnd i2 e3
  obtain ⟨G4, i4⟩ := inv_move H hnd i3 e4
  obtain ⟨G5, i5⟩ := inv_move H hnd i4 e5
  obtain ⟨d, e, ⟨more, c1, c2⟩, over⟩ := draw_all (solve := solve) (plot := plot) (n := n) m5.job m5 rfl rfl
  obtain ⟨G6, i6⟩ := inv_moves H hnd i5 c2
  have hw := i6.worker
  have hdraw : On (A n) d (drawn solve plot fs0 n) := by
    change G6.live = [n] ∧ (plot n).Reach (solved solve fs0 n) e (G6.disk n) at hw
    have hin := i6.inside n (List.mem_cons_self ..)
    rcases over with ⟨u, rfl⟩ | ⟨er, rfl⟩
    · have : drawn solve plot fs0 n = G6.disk n := hw.2.run.2
      rw [this]
      exact hin
    · have := (hok n (List.mem_cons_self ..)).2
      unfold PlotOk at this
      rw [hw.2.run.1] at this
      cases this
  refine ⟨.start :: (ms ++ [.timeout, .reply .valueError]), m4, .take :: more, { m5 with disk := d, job := e }, ?_, rfl, hn2, ?_, ?_, hdraw⟩
  · show Machine.moves solve plot m0 _ = some m4
    have : Machine.moves solve plot m1 (ms ++ [.timeout, .reply .valueError]) = some m4 := by
      rw [moves_append, h2]
      simp [Machine.moves, e3, e4]
    unfold Machine.moves
    rw [e1]
    exact this
  · intro a ha
    rcases List.mem_cons.mp ha with rfl | ha
    · rfl
    · exact c1 a ha
  · unfold Machine.moves
    rw [e5]
    exact c2

/-- Plotting a combination adds a figure. -/
theorem drawn_more {L : Libs} {gekko : Gekko} {E : FPath → Removal} {wb : Pandas.Workbook} {o : Opened}
    {fs : FS Data} {dir : Dir Container} (h : Ready L gekko wb o fs dir) {z : ℤ × ℤ} (hz : z ∈ o.sizes)
    (h1 : SolveOk (Prog.solve L gekko o.root o.controller o.first o.n) fs (folderName z))
    (h2 : PlotOk (Prog.solve L gekko o.root o.controller o.first o.n) (Prog.plot E o.root) fs (folderName z)) :
    ∃ p f D, solved (Prog.solve L gekko o.root o.controller o.first o.n) fs (folderName z)
        (o.root ++ [outDir, folderName z, periodName p, f]) = none ∧
      drawn (Prog.solve L gekko o.root o.controller o.first o.n) (Prog.plot E o.root) fs (folderName z)
        (o.root ++ [outDir, folderName z, periodName p, f]) = some (.file (.figure D)) := by
  have hsol := solve_run (L := L) (gekko := gekko) (v := o.controller) (first := o.first) (n := o.n) h.inputs
    (h.folders z hz) (by rw [h.empty]; simp)
  unfold drawn
  unfold SolveOk at h1
  unfold PlotOk at h2
  unfold solved at h2 ⊢
  rw [solve_steps] at h1 h2 ⊢
  rw [plot_steps] at h2 ⊢
  cases hr : solver L gekko o.controller o.first o.n dir (folderName z) with
  | error e =>
    rw [hr] at hsol
    dsimp only at hsol
    rw [hsol] at h1
    cases h1
  | ok r =>
    rw [hr] at hsol
    dsimp only at hsol
    rw [hsol] at h2 ⊢
    dsimp only at h2 ⊢
    have hne : ∀ p rest, outDir :: folderName z :: periodName p :: rest ≠ [outDir, folderName z, resultsName] :=
      fun p rest e => by
        simp only [List.cons.injEq, true_and] at e
        exact periodName_ne_results p e.1
    have hin : Inputs o.root (set fs (o.root ++ [outDir, folderName z, resultsName]) (.file (.results r))) dir :=
      h.inputs.congr (T := fun q => q = o.root ++ [outDir, folderName z, resultsName]) (fun q hq => set_ne hq)
        fun q hq => ⟨folderName z, [resultsName], hq⟩
    obtain ⟨p1, p2⟩ := plot_run (E := E) (name := folderName z) (o := r) hin
      ((set_at_ne (by simp)).trans (h.folders z hz)) (set_self ..)
      (fun p rest => (set_at_ne (hne p rest)).trans (h.empty ..))
    rw [h2] at p1
    cases hp : plots dir (folderName z) r with
    | mk ds err =>
      rw [hp] at p1 p2
      cases err with
      | some e => cases p1
      | none =>
        unfold plots at hp
        dsimp only at hp
        split at hp
        · rename_i ds' hd
          cases hp
          cases hc : dir (folderName z ++ ".pkl".toList) with
          | none => rw [hc] at hd; cases hd
          | some c =>
            rw [hc] at hd
            simp only [FixedOrder.except_bind_ok] at hd
            obtain ⟨_, -, n, -, _, -, first, -, hd⟩ := hd
            unfold Figures.runPlots at hd
            have : ds ≠ [] := by
              rintro rfl
              have hl := mapM_length hd
              unfold Figures.periods at hl
              split_ifs at hl
            obtain ⟨D, hD⟩ := List.exists_mem_of_ne_nil _ this
            have hf : figureNames D.bars.isSome ≠ [] := by
              cases D.bars.isSome <;> decide
            obtain ⟨f, hf⟩ := List.exists_mem_of_ne_nil _ hf
            exact ⟨D.period, f, D, (set_at_ne (hne _ _)).trans (h.empty ..), p2 D hD f hf⟩
        · cases hp

end Disk
end Verif
