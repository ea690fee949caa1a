import Verif.Lemmas.DiskApart

/-!
# Lemmas for `Verif.Props.DiskTwo`: every schedule comes to an end
-/

set_option autoImplicit false

namespace Verif
namespace Disk
open Files OutputProcess

variable {α : Type} {solve plot : Name → Prog Unit}

/-- What a process has still to do after one look or change. -/
def Prog.Child (q p : Prog α) : Prop := ∃ fs fs', p.next fs = some (q, fs')

theorem child_wf : WellFounded (Prog.Child (α := α)) := by
  refine ⟨fun p => ?_⟩
  induction p with
  | ret a => exact ⟨_, fun q ⟨_, _, h⟩ => by cases h⟩
  | raise e => exact ⟨_, fun q ⟨_, _, h⟩ => by cases h⟩
  | look k ih =>
    refine ⟨_, fun q ⟨fs, fs', h⟩ => ?_⟩
    obtain ⟨rfl, -⟩ : k fs = q ∧ fs = fs' := by simpa [Prog.next] using h
    exact ih fs
  | change g k ih =>
    refine ⟨_, fun q ⟨fs, fs', h⟩ => ?_⟩
    obtain ⟨rfl, -⟩ : k = q ∧ g fs = fs' := by simpa [Prog.next] using h
    exact ih

/-- How far the parent is from its end. -/
def Parent.rank : Parent → ℕ
  | .starting ns => 2 * ns.length + 6
  | .loop todo => 2 * todo.length + 5
  | .solving _ _ todo => 2 * todo.length + 6
  | .cancelling _ => 4
  | .leaving _ => 3
  | .stopping _ => 2
  | .ended _ => 0

/-- What the parent has still to solve of the combination it is at. -/
def Parent.prog : Parent → Prog Unit
  | .solving _ p _ => p
  | _ => .ret ()

/-- How far a worker is from its end, with an empty queue. -/
def workerRank : Worker Name → ℕ
  | .exited _ => 0
  | .waiting => 1
  | .running _ => 2

/-- How far the worker is from its end. -/
def Machine.workLeft (m : Machine) : ℕ := 2 * m.proc.queue.length + (m.proc.workers.map workerRank).sum

/-- Whether the parent can still lose patience. -/
def Machine.patience (m : Machine) : ℕ := match m.proc.pc with
  | .joining _ => 1
  | _ => 0

/-- How far a machine is from its end. -/
def Machine.key (m : Machine) : ℕ × Prog Unit × ℕ × Prog Unit × ℕ :=
  (m.parent.rank, m.parent.prog, m.workLeft, m.job, m.patience)

/-- The order of the keys. -/
def Nearer : ℕ × Prog Unit × ℕ × Prog Unit × ℕ → ℕ × Prog Unit × ℕ × Prog Unit × ℕ → Prop :=
  Prod.Lex (· < ·) (Prod.Lex Prog.Child (Prod.Lex (· < ·) (Prod.Lex Prog.Child (· < ·))))

theorem nearer_wf : WellFounded Nearer :=
  WellFounded.prod_lex wellFounded_lt (WellFounded.prod_lex child_wf (WellFounded.prod_lex wellFounded_lt
    (WellFounded.prod_lex child_wf wellFounded_lt)))

theorem nearer_parent {m m' : Machine} (h : m'.parent.rank < m.parent.rank) : Nearer m'.key m.key := .left _ _ h

theorem nearer_worker {m m' : Machine} (hp : m'.parent = m.parent) (h : m'.workLeft < m.workLeft) :
    Nearer m'.key m.key := by
  unfold Nearer Machine.key
  rw [hp]
  exact .right _ (.right _ (.left _ _ h))

theorem sum_set {l : List (Worker Name)} {w x : Worker Name} (h : l[0]? = some w) :
    (l.map workerRank).sum = workerRank w + (l.tail.map workerRank).sum ∧
    ((l.set 0 x).map workerRank).sum = workerRank x + (l.tail.map workerRank).sum := by
  cases l with
  | nil => cases h
  | cons a l =>
    cases h
    exact ⟨rfl, rfl⟩

theorem tail_length {l : List (Item Name)} {i : Item Name} (h : l.head? = some i) : l.length = l.tail.length + 1 := by
  cases l with
  | nil => cases h
  | cons a l => rfl

/-- Every move brings the end nearer. -/
theorem move_nearer {m m' : Machine} {a : Move} (h : m.move solve plot a = some m') : Nearer m'.key m.key := by
  unfold Machine.move at h
  cases a with
  | start =>
    dsimp only at h
    split at h
    · rename_i ns hp
      obtain ⟨s, -, rfl⟩ := Option.map_eq_some_iff.mp h
      refine nearer_parent ?_
      rw [hp]
      simp only [Parent.rank]
      omega
    · cases h
  | begin =>
    dsimp only at h
    split at h
    · rename_i n todo hp
      cases h
      refine nearer_parent ?_
      rw [hp]
      simp only [Parent.rank, List.length_cons]
      omega
    · cases h
  | work =>
    dsimp only at h
    split at h
    · rename_i n p todo hp
      obtain ⟨⟨p', d⟩, hn, rfl⟩ := Option.map_eq_some_iff.mp h
      unfold Nearer Machine.key
      rw [hp]
      exact .right _ (.left _ _ ⟨_, _, hn⟩)
    · cases h
  | submit =>
    dsimp only at h
    split at h
    · rename_i n u todo hp
      obtain ⟨s, -, rfl⟩ := Option.map_eq_some_iff.mp h
      refine nearer_parent ?_
      rw [hp]
      simp only [Parent.rank]
      omega
    · cases h
  | call =>
    dsimp only at h
    split at h
    · rename_i hp
      obtain ⟨s, -, rfl⟩ := Option.map_eq_some_iff.mp h
      exact nearer_parent (by rw [hp]; simp [Parent.rank])
    · rename_i n e todo hp
      obtain ⟨s, -, rfl⟩ := Option.map_eq_some_iff.mp h
      exact nearer_parent (by rw [hp]; simp [Parent.rank])
    · rename_i e hp
      obtain ⟨s, -, rfl⟩ := Option.map_eq_some_iff.mp h
      exact nearer_parent (by rw [hp]; simp [Parent.rank])
    · cases h
  | reply r =>
    dsimp only at h
    split at h
    · rename_i e hp
      obtain ⟨s, -, rfl⟩ := Option.map_eq_some_iff.mp h
      exact nearer_parent (by rw [hp]; simp [Parent.rank])
    · rename_i e hp
      obtain ⟨s, -, rfl⟩ := Option.map_eq_some_iff.mp h
      exact nearer_parent (by rw [hp]; simp [Parent.rank])
    · cases h
  | timeout =>
    obtain ⟨s, hs, rfl⟩ := Option.map_eq_some_iff.mp h
    simp only [OutputProcess.step] at hs
    split_ifs at hs with hc
    cases hs
    refine .right _ (.right _ (.right _ (.right _ ?_)))
    simp only [Machine.patience]
    rw [hc.1]
    exact Nat.zero_lt_one
  | take =>
    dsimp only at h
    split at h
    · obtain ⟨s, hs, rfl⟩ := Option.map_eq_some_iff.mp h
      simp only [OutputProcess.step] at hs
      split_ifs at hs with hc
      cases hs
      refine nearer_worker rfl ?_
      obtain ⟨e1, e2⟩ := sum_set (x := .running ‹Name›) hc.1
      have e3 := tail_length hc.2
      simp only [Machine.workLeft, State.setWorker]
      rw [e1, e2, e3]
      simp only [workerRank]
      omega
    · cases h
  | draw =>
    dsimp only at h
    split at h
    · obtain ⟨⟨p', d⟩, hn, rfl⟩ := Option.map_eq_some_iff.mp h
      exact .right _ (.right _ (.right _ (.left _ _ ⟨_, _, hn⟩)))
    · cases h
  | finish =>
    dsimp only at h
    split at h
    · obtain ⟨s, hs, rfl⟩ := Option.map_eq_some_iff.mp h
      simp only [OutputProcess.step] at hs
      split_ifs at hs with hc
      cases hs
      refine nearer_worker rfl ?_
      obtain ⟨e1, e2⟩ := sum_set (x := .waiting) hc.1
      simp only [Machine.workLeft, State.setWorker]
      rw [e1, e2]
      simp only [workerRank]
      omega
    · cases h
  | fail =>
    dsimp only at h
    split at h
    · obtain ⟨s, hs, rfl⟩ := Option.map_eq_some_iff.mp h
      simp only [OutputProcess.step] at hs
      split_ifs at hs with hc
      cases hs
      refine nearer_worker rfl ?_
      obtain ⟨e1, e2⟩ := sum_set (x := .exited 1) hc
      simp only [Machine.workLeft, State.setWorker]
      rw [e1, e2]
      simp only [workerRank]
      omega
    · cases h
  | quit =>
    obtain ⟨s, hs, rfl⟩ := Option.map_eq_some_iff.mp h
    simp only [OutputProcess.step] at hs
    split_ifs at hs with hc
    cases hs
    refine nearer_worker rfl ?_
    obtain ⟨e1, e2⟩ := sum_set (x := .exited 0) hc.1
    have e3 := tail_length hc.2
    simp only [Machine.workLeft, State.setWorker]
    rw [e1, e2, e3]
    simp only [workerRank]
    omega
  | kill c =>
    obtain ⟨s, hs, rfl⟩ := Option.map_eq_some_iff.mp h
    simp only [OutputProcess.step] at hs
    split at hs
    · rename_i x hx
      split_ifs at hs with hc
      cases hs
      refine nearer_worker rfl ?_
      obtain ⟨e1, e2⟩ := sum_set (x := .exited c) hx
      simp only [Machine.workLeft, State.setWorker]
      rw [e1, e2]
      have : 0 < workerRank x := by
        cases x with
        | exited _ => exact absurd hc.1 (by simp [Worker.alive])
        | waiting => simp [workerRank]
        | running _ => simp [workerRank]
      have e : workerRank (.exited c) = 0 := rfl
      omega
    · cases hs

/-- There is no schedule without an end. -/
theorem moves_end (m : Machine) (f : ℕ → Move) :
    ∃ k, m.moves solve plot ((List.range k).map f) = none := by
  by_contra hno
  push Not at hno
  have hsome : ∀ k, ∃ m', m.moves solve plot ((List.range k).map f) = some m' := fun k =>
    Option.ne_none_iff_exists'.mp (hno k)
  choose g hg using hsome
  have hstep : ∀ k, Nearer (g (k + 1)).key (g k).key := fun k => by
    have h := hg (k + 1)
    rw [List.range_succ, List.map_append, moves_append, hg k] at h
    simp only [Option.bind_some, List.map_cons, List.map_nil, Machine.moves] at h
    split at h
    · cases h
    · rename_i m1 h1
      cases h
      exact move_nearer h1
  obtain ⟨x, ⟨k, rfl⟩, hmin⟩ := nearer_wf.has_min (Set.range fun k => (g k).key) ⟨_, 0, rfl⟩
  exact hmin _ ⟨k + 1, rfl⟩ (hstep k)

end Disk
end Verif
