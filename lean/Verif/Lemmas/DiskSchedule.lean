import Verif.Lemmas.DiskMachine

/-!
# Lemmas for `Verif.Props.DiskTwo`: how the two processes end
-/

set_option autoImplicit false

namespace Verif
namespace Disk
open Files OutputProcess

variable {solve plot : Name → Prog Unit} {A W : Name → FPath → Prop} {names : List Name} {fs0 : FS Data}
variable {G : Ghost} {m m' : Machine}

/-! ## The end -/

theorem ended_all (h : Inv solve plot A W names fs0 G m) (hp : m.parent = .ended none) :
    ∀ n ∈ names, SolveOk solve fs0 n ∧ PlotOk solve plot fs0 n ∧ On (A n) m.disk (drawn solve plot fs0 n) := by
  have hpar := h.parent
  unfold ParentInv at hpar
  rw [hp] at hpar
  obtain ⟨p1, p2, p3, p4, -⟩ := hpar
  have hs := h.split
  rw [p1, p2, p3, p4] at hs
  simp only [List.append_nil] at hs
  intro n hn
  obtain ⟨k1, k2, k3⟩ := h.plotted n (hs ▸ hn)
  exact ⟨k1, k2, k3 ▸ h.inside n hn⟩

/-! ## One core -/

/-- One combination on one core. -/
def both (solve plot : Name → Prog Unit) (n : Name) : Op Unit := do
  (solve n).run
  (plot n).run

theorem both_run (H : Apart solve plot A W) (n : Name) {fs : FS Data} (hfs : On (A n) fs fs0) :
    ((both solve plot n fs).result = .ok () ↔ SolveOk solve fs0 n ∧ PlotOk solve plot fs0 n) ∧
    ((both solve plot n fs).result = .ok () → On (A n) (both solve plot n fs).disk (drawn solve plot fs0 n)) ∧
    Except' (W n) fs (both solve plot n fs).disk := by
  obtain ⟨s1, s2⟩ := (H.solve n).run hfs
  obtain ⟨d1, d2⟩ := (H.plot n).run s2
  have s3 := (H.solve n).run_outside fs
  have d3 := (H.plot n).run_outside ((solve n).run fs).disk
  unfold both SolveOk PlotOk drawn solved
  cases hr : ((solve n).run fs).result with
  | error e =>
    rw [bind_error hr]
    refine ⟨⟨(fun h => by cases h), fun h => ?_⟩, (fun h => by cases h), s3⟩
    rw [← s1, hr] at h
    cases h.1
  | ok u =>
    rw [bind_ok hr]
    dsimp only
    refine ⟨⟨fun h => ⟨s1 ▸ hr, d1 ▸ h⟩, fun h => d1.trans h.2⟩, fun _ => d2, fun q hq => (d3 q hq).trans (s3 q hq)⟩

theorem each_both (H : Apart solve plot A W) : ∀ {names : List Name} {fs : FS Data}, names.Nodup →
    (∀ n ∈ names, On (A n) fs fs0) →
    ((each (both solve plot) names fs).result = .ok () ↔ ∀ n ∈ names, SolveOk solve fs0 n ∧ PlotOk solve plot fs0 n) ∧
    ((each (both solve plot) names fs).result = .ok () →
      ∀ n ∈ names, On (A n) (each (both solve plot) names fs).disk (drawn solve plot fs0 n)) ∧
    ∀ q, (∀ n ∈ names, ¬ W n q) → (each (both solve plot) names fs).disk q = fs q
  | [], fs, _, _ => ⟨⟨fun _ _ h => absurd h (by simp), fun _ => rfl⟩, fun _ _ h => absurd h (by simp), fun _ _ => rfl⟩
  | n :: ns, fs, hnd, hfs => by
    obtain ⟨hn, hns⟩ := List.nodup_cons.mp hnd
    obtain ⟨b1, b2, b3⟩ := both_run H n (hfs n (List.mem_cons_self ..))
    have hfs' : ∀ x ∈ ns, On (A x) (both solve plot n fs).disk fs0 := fun x hx q hq => by
      have hne : n ≠ x := fun e => hn (e ▸ hx)
      exact (b3 q fun hw => H.apart n x q hne hw hq).trans (hfs x (List.mem_cons_of_mem _ hx) q hq)
    obtain ⟨r1, r2, r3⟩ := each_both H hns hfs'
    have e : each (both solve plot) (n :: ns) = (both solve plot n >>= fun _ => each (both solve plot) ns) := rfl
    rw [e]
    cases hr : (both solve plot n fs).result with
    | error er =>
      rw [bind_error hr]
      refine ⟨⟨(fun h => by cases h), fun h => ?_⟩, (fun h => by cases h),
        fun q hq => b3 q (hq n (List.mem_cons_self ..))⟩
      have := b1.mpr (h n (List.mem_cons_self ..))
      rw [hr] at this
      cases this
    | ok u =>
      rw [bind_ok hr]
      dsimp only
      refine ⟨⟨fun h x hx => ?_, fun h => r1.mpr fun x hx => h x (List.mem_cons_of_mem _ hx)⟩, fun h x hx => ?_,
        fun q hq => (r3 q fun x hx => hq x (List.mem_cons_of_mem _ hx)).trans (b3 q (hq n (List.mem_cons_self ..)))⟩
      · rcases List.mem_cons.mp hx with rfl | hx
        · exact b1.mp hr
        · exact r1.mp h x hx
      · rcases List.mem_cons.mp hx with rfl | hx
        · intro q hq
          refine (r3 q fun y hy hw => ?_).trans (b2 hr q hq)
          exact H.apart y x q (fun e => hn (e ▸ hy)) hw hq
        · exact r2 h x hx

/-- Two cores that end well leave what one core leaves. -/
theorem ended_same (H : Apart solve plot A W) (hnd : names.Nodup) (h : Inv solve plot A W names fs0 G m)
    (hp : m.parent = .ended none) :
    (each (both solve plot) names fs0).result = .ok () ∧ (each (both solve plot) names fs0).disk = m.disk := by
  have hall := ended_all h hp
  obtain ⟨r1, r2, r3⟩ := each_both H (fs := fs0) hnd (fun _ _ _ _ => rfl)
  have hok := r1.mpr fun n hn => ⟨(hall n hn).1, (hall n hn).2.1⟩
  refine ⟨hok, funext fun q => ?_⟩
  by_cases hq : ∀ n ∈ names, ¬ W n q
  · exact (r3 q hq).trans (h.outside q hq).symm
  · push Not at hq
    obtain ⟨n, hn, hw⟩ := hq
    have ha := H.sub n q hw
    exact (r2 hok n hn q ha).trans ((hall n hn).2.2 q ha).symm

/-! ## Without disturbance -/

/-- Nobody was killed and nobody was late. -/
structure Calm (m : Machine) : Prop where
  pc : m.proc.pc ≠ .raising
  code : ∀ c, m.proc.workers = [.exited c] → c = 0
  parent : match m.parent with
    | .cancelling _ | .leaving _ | .stopping (some _) | .ended (some _) => False
    | .stopping none => m.proc.pc = .joining true ∧ (.sentinel ∈ m.proc.queue ∨ m.proc.workers = [.exited 0])
    | _ => True

/-- The moves that are a disturbance. -/
def Move.disturbs : Move → Bool
  | .timeout | .kill _ => true
  | _ => false

theorem calm_first : Calm ⟨fs0, OutputProcess.init Name, .ret (), .starting names⟩ :=
  ⟨by simp [OutputProcess.init], fun c h => by simp [OutputProcess.init] at h, trivial⟩

/-- What the worker does leaves the parent where it is. -/
theorem calm_worker (hc : Calm m) (hp : m'.parent = m.parent) (hpc : m'.proc.pc = m.proc.pc)
    (hcode : ∀ c, m'.proc.workers = [.exited c] → c = 0)
    (hs : .sentinel ∈ m.proc.queue ∨ m.proc.workers = [.exited 0] →
      .sentinel ∈ m'.proc.queue ∨ m'.proc.workers = [.exited 0]) : Calm m' := by
  refine ⟨hpc ▸ hc.pc, hcode, ?_⟩
  have h := hc.parent
  rw [hp]
  split at h
  · exact h.elim
  · exact h.elim
  · exact h.elim
  · exact h.elim
  · rw [hpc]; exact ⟨h.1, hs h.2⟩
  · exact h

theorem calm_move (hok : ∀ n ∈ names, SolveOk solve fs0 n ∧ PlotOk solve plot fs0 n)
    (h : Inv solve plot A W names fs0 G m) (hc : Calm m) {a : Move} (ha : a.disturbs = false)
    (hm : m.move solve plot a = some m') : Calm m' := by
  have hpar := hc.parent
  have hip := h.parent
  unfold ParentInv at hip
  unfold Machine.move at hm
  cases a with
  | timeout => cases ha
  | kill c => cases ha
  | start =>
    dsimp only at hm
    split at hm
    · obtain ⟨s, hs, rfl⟩ := Option.map_eq_some_iff.mp hm
      rename_i hp
      rw [hp] at hip
      rw [hip.2.2.2.2.2] at hs
      have : OutputProcess.step (fun _ => .returns) (OutputProcess.init Name) .start
        = some ⟨[], [.waiting], some 0, .idle⟩ := rfl
      cases this.symm.trans hs
      exact ⟨by simp, fun c h => by simp at h, trivial⟩
    · cases hm
  | begin =>
    dsimp only at hm
    split at hm
    · cases hm
      exact ⟨hc.pc, hc.code, trivial⟩
    · cases hm
  | work =>
    dsimp only at hm
    split at hm
    · obtain ⟨s, hs, rfl⟩ := Option.map_eq_some_iff.mp hm
      exact ⟨hc.pc, hc.code, trivial⟩
    · cases hm
  | submit =>
    dsimp only at hm
    split at hm
    · obtain ⟨s, hs, rfl⟩ := Option.map_eq_some_iff.mp hm
      unfold OutputProcess.step at hs
      dsimp only at hs
      split_ifs at hs
      cases hs
      exact ⟨hc.pc, hc.code, trivial⟩
    · cases hm
  | call =>
    dsimp only at hm
    split at hm
    · obtain ⟨s, hs, rfl⟩ := Option.map_eq_some_iff.mp hm
      rename_i hp
      rw [hp] at hip
      obtain ⟨-, -, hl⟩ := hip
      have hs' : stopCall m.proc true = some s := hs
      unfold stopCall at hs'
      rw [if_pos hl.pc, hl.current] at hs'
      cases hs'
      exact ⟨by simp, hc.code, rfl, .inl (by simp)⟩
    · rename_i n e todo hp
      rw [hp] at hip
      obtain ⟨h1, -, -, hr⟩ := hip
      have hn : n ∈ names := by rw [h.split, h1]; simp
      have := (hok n hn).1
      unfold SolveOk at this
      rw [hr.run.1] at this
      cases this
    · rename_i hp; rw [hp] at hpar; exact hpar.elim
    · cases hm
  | reply r =>
    dsimp only at hm
    split at hm
    · rename_i hp; rw [hp] at hpar; exact hpar.elim
    · rename_i err hp
      obtain ⟨s, hs, rfl⟩ := Option.map_eq_some_iff.mp hm
      rw [hp] at hpar hip
      cases err with
      | some e => exact hpar.elim
      | none =>
        obtain ⟨hj, -⟩ := hpar
        obtain ⟨-, -, hcur, hne⟩ := hip
        have hs2 : replyStep m.proc r = some s := hs
        unfold replyStep at hs2
        rw [hj] at hs2
        have hcode : ∀ c, m.proc.process = some (.exited c) → c = 0 := by
          intro c hcp
          refine hc.code c ?_
          refine one_worker h.worker ?_
          unfold State.process at hcp
          rw [hcur] at hcp
          exact hcp
        cases r with
        | returned =>
          dsimp only at hs2
          split at hs2
          · cases hs2; exact ⟨by simp, hc.code, trivial⟩
          · split_ifs at hs2; cases hs2; exact ⟨by simp, hc.code, trivial⟩
          · cases hs2
        | systemError =>
          dsimp only at hs2
          split at hs2
          · rename_i c _ hcp
            split_ifs at hs2 with hc0
            exact absurd (hcode _ hcp) hc0
          · rename_i hcon _; cases hcon
          · cases hs2
        | valueError =>
          cases hs2
    · cases hm
  | take =>
    dsimp only at hm
    split at hm
    · rename_i n l hq
      obtain ⟨s, hs, rfl⟩ := Option.map_eq_some_iff.mp hm
      unfold OutputProcess.step at hs
      dsimp only at hs
      split_ifs at hs with hcc
      cases hs
      have hwk := one_worker h.worker hcc.1
      refine calm_worker hc rfl rfl (fun c e => ?_) fun hs => ?_
      · dsimp only [State.setWorker] at e; rw [hwk] at e; simp at e
      · rcases hs with hs | hs
        · refine .inl ?_
          dsimp only [State.setWorker]
          rw [hq] at hs ⊢
          rcases List.mem_cons.mp hs with hs | hs
          · cases hs
          · exact hs
        · rw [hwk] at hs; simp at hs
    · cases hm
  | draw =>
    dsimp only at hm
    split at hm
    · obtain ⟨s, hs, rfl⟩ := Option.map_eq_some_iff.mp hm
      exact calm_worker hc rfl rfl hc.code id
    · cases hm
  | finish =>
    dsimp only at hm
    split at hm
    · rename_i n _ hwk hj
      obtain ⟨s, hs, rfl⟩ := Option.map_eq_some_iff.mp hm
      unfold OutputProcess.step at hs
      dsimp only at hs
      split_ifs at hs with hcc
      cases hs
      refine calm_worker hc rfl rfl (fun c e => ?_) fun hs => ?_
      · dsimp only [State.setWorker] at e; rw [hwk] at e; simp at e
      · rcases hs with hs | hs
        · exact .inl hs
        · rw [hwk] at hs; simp at hs
    · cases hm
  | fail =>
    dsimp only at hm
    split at hm
    · rename_i n e hwk hj
      have hw := h.worker
      unfold WorkerInv at hw
      rw [hwk, hj] at hw
      obtain ⟨w1, w2⟩ := hw
      have hn : n ∈ names := by rw [h.split, w1]; simp
      have := (hok n hn).2
      unfold PlotOk at this
      rw [w2.run.1] at this
      cases this
    · cases hm
  | quit =>
    dsimp only at hm
    obtain ⟨s, hs, rfl⟩ := Option.map_eq_some_iff.mp hm
    unfold OutputProcess.step at hs
    dsimp only at hs
    split_ifs at hs with hcc
    cases hs
    have hwk := one_worker h.worker hcc.1
    have hset : (m.proc.setWorker 0 (.exited 0)).workers = [.exited 0] := by
      show m.proc.workers.set 0 (.exited 0) = [.exited 0]
      rw [hwk]; rfl
    refine calm_worker hc rfl rfl (fun c e => ?_) fun _ => .inr hset
    dsimp only at e
    rw [hset] at e
    cases e
    rfl

theorem calm_moves (H : Apart solve plot A W) (hnd : names.Nodup)
    (hok : ∀ n ∈ names, SolveOk solve fs0 n ∧ PlotOk solve plot fs0 n) {ms : List Move} :
    ∀ {G : Ghost} {m : Machine}, Inv solve plot A W names fs0 G m → Calm m → (∀ a ∈ ms, a.disturbs = false) →
      m.moves solve plot ms = some m' → Calm m' := by
  induction ms with
  | nil => intro G m _ hc _ hm; cases hm; exact hc
  | cons a as ih =>
    intro G m h hc ha hm
    unfold Machine.moves at hm
    split at hm
    · cases hm
    · rename_i m1 h1
      obtain ⟨G1, h2⟩ := inv_move H hnd h h1
      exact ih h2 (calm_move hok h hc (ha a (List.mem_cons_self ..)) h1)
        (fun b hb => ha b (List.mem_cons_of_mem _ hb)) hm

/-! ## It can always end -/

theorem moves_append (as : List Move) : ∀ (m : Machine) (bs : List Move),
    m.moves solve plot (as ++ bs) = (m.moves solve plot as).bind fun m' => m'.moves solve plot bs := by
  induction as with
  | nil => intro m bs; rfl
  | cons a as ih =>
    intro m bs
    have e : ∀ l, m.moves solve plot (a :: l) = (m.move solve plot a).bind fun m1 => m1.moves solve plot l := by
      intro l
      rw [Machine.moves]
      cases m.move solve plot a <;> rfl
    rw [List.cons_append, e, e]
    cases m.move solve plot a with
    | none => rfl
    | some m1 => exact ih m1 bs

/-- From `m` the two processes can get to `m'` without disturbance. -/
def Can (solve plot : Name → Prog Unit) (m m' : Machine) : Prop :=
  ∃ ms, (∀ a ∈ ms, a.disturbs = false) ∧ m.moves solve plot ms = some m'

theorem Can.refl : Can solve plot m m := ⟨[], by simp, rfl⟩

theorem Can.trans {m1 m2 m3 : Machine} (h : Can solve plot m1 m2) (h' : Can solve plot m2 m3) :
    Can solve plot m1 m3 := by
  obtain ⟨a, a1, a2⟩ := h
  obtain ⟨b, b1, b2⟩ := h'
  refine ⟨a ++ b, fun x hx => ?_, ?_⟩
  · rcases List.mem_append.mp hx with hx | hx
    · exact a1 x hx
    · exact b1 x hx
  · rw [moves_append, a2]; exact b2

theorem Can.one {a : Move} (ha : a.disturbs = false) (h : m.move solve plot a = some m') : Can solve plot m m' :=
  ⟨[a], by simpa using ha, by unfold Machine.moves; rw [h]; rfl⟩

theorem Can.inv (H : Apart solve plot A W) (hnd : names.Nodup) (h : Can solve plot m m')
    (hi : Inv solve plot A W names fs0 G m) : ∃ G', Inv solve plot A W names fs0 G' m' :=
  h.elim fun _ hms => inv_moves H hnd hi hms.2

theorem Can.calm (H : Apart solve plot A W) (hnd : names.Nodup)
    (hok : ∀ n ∈ names, SolveOk solve fs0 n ∧ PlotOk solve plot fs0 n) (h : Can solve plot m m')
    (hi : Inv solve plot A W names fs0 G m) (hc : Calm m) : Calm m' :=
  h.elim fun _ hms => calm_moves H hnd hok hi hc hms.1 hms.2

/-- The process has ended. -/
def Prog.Over (e : Prog Unit) : Prop := (∃ u, e = .ret u) ∨ ∃ er, e = .raise er

theorem work_all {n : Name} {todo : List Name} (p : Prog Unit) : ∀ m : Machine, m.parent = .solving n p todo →
    ∃ d e, Can solve plot m { m with disk := d, parent := .solving n e todo } ∧ e.Over := by
  induction p with
  | ret u => intro m hp; exact ⟨m.disk, _, by rw [← hp]; exact .refl, .inl ⟨u, rfl⟩⟩
  | raise er => intro m hp; exact ⟨m.disk, _, by rw [← hp]; exact .refl, .inr ⟨er, rfl⟩⟩
  | look k ih =>
    intro m hp
    obtain ⟨d, e, h1, h2⟩ := ih m.disk { m with parent := .solving n (k m.disk) todo } rfl
    refine ⟨d, e, .trans (.one (a := .work) rfl ?_) h1, h2⟩
    unfold Machine.move
    dsimp only
    rw [hp]
    rfl
  | change g k ih =>
    intro m hp
    obtain ⟨d, e, h1, h2⟩ := ih { m with disk := g m.disk, parent := .solving n k todo } rfl
    refine ⟨d, e, .trans (.one (a := .work) rfl ?_) h1, h2⟩
    unfold Machine.move
    dsimp only
    rw [hp]
    rfl

theorem draw_all {n : Name} (p : Prog Unit) : ∀ m : Machine, m.proc.workers = [.running n] → m.job = p →
    ∃ d e, Can solve plot m { m with disk := d, job := e } ∧ e.Over := by
  induction p with
  | ret u => intro m _ hj; exact ⟨m.disk, _, by rw [← hj]; exact .refl, .inl ⟨u, rfl⟩⟩
  | raise er => intro m _ hj; exact ⟨m.disk, _, by rw [← hj]; exact .refl, .inr ⟨er, rfl⟩⟩
  | look k ih =>
    intro m hw hj
    obtain ⟨d, e, h1, h2⟩ := ih m.disk { m with job := k m.disk } hw rfl
    refine ⟨d, e, .trans (.one (a := .draw) rfl ?_) h1, h2⟩
    unfold Machine.move
    dsimp only
    rw [hw, hj]
    rfl
  | change g k ih =>
    intro m hw hj
    obtain ⟨d, e, h1, h2⟩ := ih { m with disk := g m.disk, job := k } hw rfl
    refine ⟨d, e, .trans (.one (a := .draw) rfl ?_) h1, h2⟩
    unfold Machine.move
    dsimp only
    rw [hw, hj]
    rfl

section
variable (H : Apart solve plot A W) (hnd : names.Nodup)
  (hok : ∀ n ∈ names, SolveOk solve fs0 n ∧ PlotOk solve plot fs0 n)
include H hnd hok

/-- The combination in the solver is solved and submitted. -/
theorem can_submit {n : Name} {p : Prog Unit} {todo : List Name} (h : Inv solve plot A W names fs0 G m)
    (hp : m.parent = .solving n p todo) : ∃ m', Can solve plot m m' ∧ m'.parent = .loop todo ∧
      m'.proc = { m.proc with queue := m.proc.queue ++ [.job n] } := by
  obtain ⟨d, e, h1, h2⟩ := work_all (solve := solve) (plot := plot) p m hp
  obtain ⟨G', h3⟩ := h1.inv H hnd h
  have hpar := h3.parent
  unfold ParentInv at hpar
  obtain ⟨p1, p2, p3, p4⟩ := hpar
  have hn : n ∈ names := by rw [h3.split, p1]; simp
  rcases h2 with ⟨u, rfl⟩ | ⟨er, rfl⟩
  · have hstep : OutputProcess.step (fun _ => .returns) m.proc (.submit n) =
        some { m.proc with queue := m.proc.queue ++ [.job n] } := by
      unfold OutputProcess.step
      exact if_pos p3.pc
    refine ⟨_, h1.trans (.one (a := .submit) (m' := ⟨d, { m.proc with queue := m.proc.queue ++ [.job n] }, m.job,
      .loop todo⟩) rfl ?_), rfl, rfl⟩
    unfold Machine.move
    dsimp only
    rw [hstep]
    rfl
  · have := (hok n hn).1
    unfold SolveOk at this
    rw [p4.run.1] at this
    cases this

theorem can_stop : ∀ {todo : List Name} {G : Ghost} {m : Machine}, Inv solve plot A W names fs0 G m →
    m.parent = .loop todo → ∃ m', Can solve plot m m' ∧ m'.parent = .stopping none ∧
      m'.proc = ⟨m.proc.queue ++ todo.map .job ++ [.sentinel], m.proc.workers, some 0, .joining true⟩
  | [], G, m, h, hp => by
    have hpar := h.parent
    unfold ParentInv at hpar
    rw [hp] at hpar
    obtain ⟨p1, p2, p3⟩ := hpar
    have hstep : OutputProcess.step (fun _ => .returns) m.proc (.stop true) =
        some ⟨m.proc.queue ++ [.sentinel], m.proc.workers, some 0, .joining true⟩ := by
      show stopCall m.proc true = _
      unfold stopCall
      rw [if_pos p3.pc, p3.current]
    refine ⟨_, .one (a := .call) (m' := ⟨m.disk,
      ⟨m.proc.queue ++ [.sentinel], m.proc.workers, some 0, .joining true⟩, m.job, .stopping none⟩) rfl ?_, rfl,
      by simp⟩
    unfold Machine.move
    dsimp only
    rw [hp]
    dsimp only
    rw [hstep]
    rfl
  | n :: todo, G, m, h, hp => by
    have h1 : Can solve plot m { m with parent := .solving n (solve n) todo } := by
      refine .one (a := .begin) rfl ?_
      unfold Machine.move
      dsimp only
      rw [hp]
    obtain ⟨G1, h2⟩ := h1.inv H hnd h
    obtain ⟨m2, h3, h4, e2⟩ := can_submit H hnd hok h2 rfl
    obtain ⟨G2, h5⟩ := h3.inv H hnd h2
    obtain ⟨m3, h6, h7, e3⟩ := can_stop h5 h4
    refine ⟨m3, h1.trans (h3.trans h6), h7, ?_⟩
    rw [e3, e2]
    simp

/-- The combination in the worker is plotted. -/
theorem can_finish {n : Name} (h : Inv solve plot A W names fs0 G m) (hw : m.proc.workers = [.running n]) :
    ∃ m', Can solve plot m m' ∧ m'.proc.workers = [.waiting] ∧ m'.proc.queue = m.proc.queue ∧
      m'.parent = m.parent := by
  obtain ⟨d, e, h1, h2⟩ := draw_all (solve := solve) (plot := plot) m.job m hw rfl
  obtain ⟨G', h3⟩ := h1.inv H hnd h
  have hwk := h3.worker
  unfold WorkerInv at hwk
  dsimp only at hwk
  rw [hw] at hwk
  obtain ⟨w1, w2⟩ := hwk
  have hn : n ∈ names := by rw [h3.split, w1]; simp
  rcases h2 with ⟨u, rfl⟩ | ⟨er, rfl⟩
  · have hstep : OutputProcess.step (fun _ => .returns) m.proc (.finish 0 n) = some (m.proc.setWorker 0 .waiting) := by
      unfold OutputProcess.step
      exact if_pos ⟨by rw [hw]; rfl, rfl⟩
    have hset : (m.proc.setWorker 0 .waiting).workers = [.waiting] := by
      show m.proc.workers.set 0 .waiting = [.waiting]
      rw [hw]; rfl
    refine ⟨_, h1.trans (.one (a := .finish) (m' := ⟨d, m.proc.setWorker 0 .waiting, .ret u, m.parent⟩) rfl ?_), hset,
      rfl, rfl⟩
    unfold Machine.move
    dsimp only
    rw [hw]
    dsimp only
    rw [hstep]
    rfl
  · have := (hok n hn).2
    unfold PlotOk at this
    rw [w2.run.1] at this
    cases this

theorem can_quit : ∀ (k : ℕ) {G : Ghost} {m : Machine}, m.proc.queue.length = k → Inv solve plot A W names fs0 G m →
    Calm m → m.parent = .stopping none → m.proc.workers = [.waiting] →
    ∃ m', Can solve plot m m' ∧ m'.proc.workers = [.exited 0] ∧ m'.parent = .stopping none
  | 0, G, m, hk, h, hc, hp, hw => by
    exfalso
    have hpar := hc.parent
    rw [hp] at hpar
    rcases hpar.2 with hs | hs
    · rw [List.length_eq_zero_iff.mp hk] at hs; cases hs
    · rw [hw] at hs; simp at hs
  | k + 1, G, m, hk, h, hc, hp, hw => by
    cases hq : m.proc.queue with
    | nil => rw [hq] at hk; cases hk
    | cons i l =>
      cases i with
      | job n =>
        have hstep : OutputProcess.step (fun _ => .returns) m.proc (.take 0 n) =
            some { m.proc.setWorker 0 (.running n) with queue := l } := by
          unfold OutputProcess.step
          dsimp only
          rw [if_pos ⟨by rw [hw]; rfl, by rw [hq]; rfl⟩, hq]
          rfl
        have h1 : Can solve plot m ⟨m.disk, { m.proc.setWorker 0 (.running n) with queue := l }, plot n, m.parent⟩ := by
          refine .one (a := .take) rfl ?_
          unfold Machine.move
          dsimp only
          rw [hq]
          dsimp only
          rw [hstep]
          rfl
        obtain ⟨G1, h2⟩ := h1.inv H hnd h
        obtain ⟨m2, h3, h4, h5, h6⟩ := can_finish H hnd hok h2 (n := n) (by
          show m.proc.workers.set 0 (.running n) = [.running n]
          rw [hw]; rfl)
        obtain ⟨G2, h7⟩ := h3.inv H hnd h2
        have hc2 := (h1.trans h3).calm H hnd hok h hc
        obtain ⟨m3, h8, h9, h10⟩ := can_quit k (by
          rw [h5]
          show l.length = k
          rw [hq] at hk
          simpa using hk) h7 hc2 (h6.trans hp) h4
        exact ⟨m3, (h1.trans h3).trans h8, h9, h10⟩
      | sentinel =>
        have hstep : OutputProcess.step (fun _ => .returns) m.proc (.quit 0) =
            some { m.proc.setWorker 0 (.exited 0) with queue := l } := by
          unfold OutputProcess.step
          dsimp only
          rw [if_pos ⟨by rw [hw]; rfl, by rw [hq]; rfl⟩, hq]
          rfl
        refine ⟨_, .one (a := .quit) (m' := ⟨m.disk, { m.proc.setWorker 0 (.exited 0) with queue := l }, m.job,
          m.parent⟩) rfl ?_, ?_, hp⟩
        · unfold Machine.move
          dsimp only
          rw [hstep]
          rfl
        · show m.proc.workers.set 0 (.exited 0) = [.exited 0]
          rw [hw]; rfl

/-- From anywhere without disturbance the two processes can come to a good end. -/
theorem can_end (h : Inv solve plot A W names fs0 G m) (hc : Calm m) :
    ∃ m', Can solve plot m m' ∧ m'.parent = .ended none := by
  -- to the call of `stop`
  have h1 : ∃ m', Can solve plot m m' ∧ (m'.parent = .stopping none ∨ m'.parent = .ended none) := by
    have hpar := hc.parent
    cases hp : m.parent with
    | starting ns =>
      have hip := h.parent
      unfold ParentInv at hip
      rw [hp] at hip
      have h1 : Can solve plot m ⟨m.disk, ⟨[], [.waiting], some 0, .idle⟩, m.job, .loop ns⟩ := by
        refine .one (a := .start) rfl ?_
        unfold Machine.move
        dsimp only
        rw [hp]
        dsimp only
        rw [hip.2.2.2.2.2]
        rfl
      obtain ⟨G1, h2⟩ := h1.inv H hnd h
      obtain ⟨m2, h3, h4, -⟩ := can_stop H hnd hok h2 rfl
      exact ⟨m2, h1.trans h3, .inl h4⟩
    | loop todo =>
      obtain ⟨m2, h3, h4, -⟩ := can_stop H hnd hok h hp
      exact ⟨m2, h3, .inl h4⟩
    | solving n p todo =>
      obtain ⟨m1, h1, h2, -⟩ := can_submit H hnd hok h hp
      obtain ⟨G1, h3⟩ := h1.inv H hnd h
      obtain ⟨m2, h4, h5, -⟩ := can_stop H hnd hok h3 h2
      exact ⟨m2, h1.trans h4, .inl h5⟩
    | cancelling e => rw [hp] at hpar; exact hpar.elim
    | leaving e => rw [hp] at hpar; exact hpar.elim
    | stopping err => cases err with
      | none => exact ⟨m, .refl, .inl hp⟩
      | some e => rw [hp] at hpar; exact hpar.elim
    | ended err => cases err with
      | none => exact ⟨m, .refl, .inr hp⟩
      | some e => rw [hp] at hpar; exact hpar.elim
  obtain ⟨m1, h1, hp | hp⟩ := h1
  swap
  · exact ⟨m1, h1, hp⟩
  obtain ⟨G1, i1⟩ := h1.inv H hnd h
  have c1 := h1.calm H hnd hok h hc
  -- until the worker has ended
  have h2 : ∃ m', Can solve plot m1 m' ∧ m'.proc.workers = [.exited 0] ∧ m'.parent = .stopping none := by
    have hip := i1.parent
    unfold ParentInv at hip
    rw [hp] at hip
    obtain ⟨w, hw⟩ : ∃ w, m1.proc.workers = [w] := by
      cases hwk : m1.proc.workers with
      | nil => exact absurd hwk hip.2.2.2
      | cons w ws => exact ⟨w, hwk ▸ one_worker i1.worker (w := w) (by rw [hwk]; rfl)⟩
    cases w with
    | waiting => exact can_quit H hnd hok _ rfl i1 c1 hp hw
    | running n =>
      obtain ⟨m2, h3, h4, h5, h6⟩ := can_finish H hnd hok i1 hw
      obtain ⟨G2, i2⟩ := h3.inv H hnd i1
      obtain ⟨m3, h7, h8, h9⟩ := can_quit H hnd hok _ rfl i2 (h3.calm H hnd hok i1 c1) (h6.trans hp) h4
      exact ⟨m3, h3.trans h7, h8, h9⟩
    | exited c =>
      cases c1.code c hw
      exact ⟨m1, .refl, hw, hp⟩
  obtain ⟨m2, h2, hw, hp2⟩ := h2
  obtain ⟨G2, i2⟩ := h2.inv H hnd i1
  have c2 := (h2.calm H hnd hok i1 c1).parent
  rw [hp2] at c2
  have hip := i2.parent
  unfold ParentInv at hip
  rw [hp2] at hip
  obtain ⟨-, -, hcur, -⟩ := hip
  have hstep : OutputProcess.step (fun _ => .returns) m2.proc (.reply .returned) =
      some ⟨m2.proc.queue, m2.proc.workers, none, .idle⟩ := by
    have hproc : m2.proc.process = some (.exited 0) := by
      unfold State.process
      rw [hcur, hw]
      rfl
    show replyStep m2.proc .returned = _
    unfold replyStep
    dsimp only
    rw [c2.1, hproc]
    rfl
  refine ⟨_, h1.trans (h2.trans (.one (a := .reply .returned) (m' := ⟨m2.disk,
    ⟨m2.proc.queue, m2.proc.workers, none, .idle⟩, m2.job, .ended none⟩) rfl ?_)), rfl⟩
  unfold Machine.move
  dsimp only
  rw [hp2]
  dsimp only
  rw [hstep]
  rfl

end

end Disk
end Verif
