import Verif.Lemmas.DiskTwo

/-!
# Lemmas for `Verif.Props.DiskTwo`: two processes on one disk
-/

set_option autoImplicit false

namespace Verif
namespace Disk
open Files OutputProcess

variable {α β : Type}

/-! ## What a process looks at and what it changes -/

/-- The two disks are the same in `R`. -/
def On (R : FPath → Prop) (a b : FS Data) : Prop := ∀ q, R q → a q = b q

theorem On.symm {R : FPath → Prop} {a b : FS Data} (h : On R a b) : On R b a := fun q hq => (h q hq).symm
theorem On.trans {R : FPath → Prop} {a b c : FS Data} (h : On R a b) (h' : On R b c) : On R a c :=
  fun q hq => (h q hq).trans (h' q hq)

/-- The process looks at nothing but `R` and changes nothing but `W`. -/
def Prog.Within (R W : FPath → Prop) : Prog α → Prop
  | .ret _ => True
  | .raise _ => True
  | .look k => (∀ a b, On R a b → k a = k b) ∧ ∀ a, (k a).Within R W
  | .change g k => (∀ a b, On R a b → On R (g a) (g b)) ∧ (∀ a, Except' W a (g a)) ∧ k.Within R W

section
variable {R W : FPath → Prop}

theorem Prog.Within.bind {p : Prog α} {f : α → Prog β} (hp : p.Within R W) (hf : ∀ a, (f a).Within R W) :
    (p >>= f).Within R W := by
  rw [Prog.bind_def]
  induction p with
  | ret a => exact hf a
  | raise e => trivial
  | look k ih => exact ⟨fun a b h => congrArg (Prog.bind · f) (hp.1 a b h), fun a => ih a (hp.2 a)⟩
  | change g k ih => exact ⟨hp.1, hp.2.1, ih hp.2.2⟩

theorem Prog.Within.lift (x : Except PyErr α) : (Prog.lift x).Within R W := by cases x <;> trivial

theorem Prog.Within.each {f : β → Prog Unit} {bs : List β} (h : ∀ b ∈ bs, (f b).Within R W) :
    (Prog.each f bs).Within R W := by
  induction bs with
  | nil => trivial
  | cons b bs ih =>
    exact (h b (List.mem_cons_self ..)).bind fun _ => ih fun b' hb => h b' (List.mem_cons_of_mem _ hb)

theorem Prog.Within.next {p p' : Prog α} (hp : p.Within R W) {a a' b : FS Data} (hab : On R a b)
    (h : p.next a = some (p', a')) :
    ∃ b', p.next b = some (p', b') ∧ On R a' b' ∧ p'.Within R W ∧ Except' W a a' := by
  cases p with
  | ret _ => cases h
  | raise _ => cases h
  | look k =>
    obtain ⟨rfl, rfl⟩ : k a = p' ∧ a = a' := by simpa [Prog.next] using h
    exact ⟨b, by simp only [Prog.next, hp.1 a b hab], hab, hp.2 a, fun _ _ => rfl⟩
  | change g k =>
    obtain ⟨rfl, rfl⟩ : k = p' ∧ g a = a' := by simpa [Prog.next] using h
    exact ⟨g b, rfl, hp.1 a b hab, hp.2.2, hp.2.1 a⟩

theorem Prog.Within.run {p : Prog α} (hp : p.Within R W) {a b : FS Data} (hab : On R a b) :
    (p.run a).result = (p.run b).result ∧ On R (p.run a).disk (p.run b).disk := by
  induction p generalizing a b with
  | ret _ => exact ⟨rfl, hab⟩
  | raise _ => exact ⟨rfl, hab⟩
  | look k ih =>
    show ((k a).run a).result = ((k b).run b).result ∧ On R ((k a).run a).disk ((k b).run b).disk
    rw [hp.1 a b hab]
    exact ih b (hp.2 b) hab
  | change g k ih => exact ih hp.2.2 (hp.1 a b hab)

theorem Prog.Within.run_outside {p : Prog α} (hp : p.Within R W) (a : FS Data) : Except' W a (p.run a).disk := by
  induction p generalizing a with
  | ret _ => exact fun _ _ => rfl
  | raise _ => exact fun _ _ => rfl
  | look k ih => exact ih a (hp.2 a) a
  | change g k ih => exact fun q hq => (ih hp.2.2 (g a) q hq).trans (hp.2.1 a q hq)
end

/-! ## The way of a process that is alone -/

/-- From `p` on the disk `a` the process alone gets to `q` on the disk `b`. -/
inductive Prog.Reach (p : Prog α) (a : FS Data) : Prog α → FS Data → Prop
  | here : Prog.Reach p a p a
  | step {q q' : Prog α} {b b' : FS Data} : Prog.Reach p a q b → q.next b = some (q', b') → Prog.Reach p a q' b'

theorem Prog.Reach.within {R W : FPath → Prop} {p q : Prog α} {a b : FS Data} (h : p.Reach a q b)
    (hp : p.Within R W) : q.Within R W := by
  induction h with
  | here => exact hp
  | step _ hn ih => exact (ih.next (fun _ _ => rfl) hn).choose_spec.2.2.1

theorem Prog.Reach.run {p q : Prog α} {a b : FS Data} (h : p.Reach a q b) :
    (p.run a).result = (q.run b).result ∧ (p.run a).disk = (q.run b).disk := by
  induction h with
  | here => exact ⟨rfl, rfl⟩
  | @step q q' b b' _ hn ih =>
    rw [ih.1, ih.2]
    cases q with
    | ret _ => cases hn
    | raise _ => cases hn
    | look k =>
      obtain ⟨rfl, rfl⟩ : k b = q' ∧ b = b' := by simpa [Prog.next] using hn
      exact ⟨rfl, rfl⟩
    | change g k =>
      obtain ⟨rfl, rfl⟩ : k = q' ∧ g b = b' := by simpa [Prog.next] using hn
      exact ⟨rfl, rfl⟩

theorem Prog.Reach.seen {p q : Prog α} {a b : FS Data} (h : p.Reach a q b) :
    ∃ l, (p.run a).seen = l ++ (q.run b).seen ∧ (b = a ∨ b ∈ l) := by
  induction h with
  | here => exact ⟨[], rfl, .inl rfl⟩
  | @step q q' b b' _ hn ih =>
    obtain ⟨l, h1, h2⟩ := ih
    cases q with
    | ret _ => cases hn
    | raise _ => cases hn
    | look k =>
      obtain ⟨rfl, rfl⟩ : k b = q' ∧ b = b' := by simpa [Prog.next] using hn
      exact ⟨l, h1, h2⟩
    | change g k =>
      obtain ⟨rfl, rfl⟩ : k = q' ∧ g b = b' := by simpa [Prog.next] using hn
      refine ⟨l ++ [g b], ?_, .inr (by simp)⟩
      rw [h1, List.append_assoc]
      rfl

/-! ## Programs that keep apart -/

/-- The programs of different combinations do not look at what the others change. -/
structure Apart (solve plot : Name → Prog Unit) (A W : Name → FPath → Prop) : Prop where
  solve : ∀ n, (solve n).Within (A n) (W n)
  plot : ∀ n, (plot n).Within (A n) (W n)
  sub : ∀ n q, W n q → A n q
  apart : ∀ n m q, n ≠ m → W n q → ¬ A m q

variable {solve plot : Name → Prog Unit} {A W : Name → FPath → Prop} {names : List Name} {fs0 : FS Data}

/-- The disk after solving `n` alone. -/
def solved (solve : Name → Prog Unit) (fs0 : FS Data) (n : Name) : FS Data := ((solve n).run fs0).disk
/-- The disk after solving and plotting `n` alone. -/
def drawn (solve plot : Name → Prog Unit) (fs0 : FS Data) (n : Name) : FS Data :=
  ((plot n).run (solved solve fs0 n)).disk
/-- Solving `n` alone succeeds. -/
def SolveOk (solve : Name → Prog Unit) (fs0 : FS Data) (n : Name) : Prop := ((solve n).run fs0).result = .ok ()
/-- Plotting `n` alone after solving it succeeds. -/
def PlotOk (solve plot : Name → Prog Unit) (fs0 : FS Data) (n : Name) : Prop :=
  ((plot n).run (solved solve fs0 n)).result = .ok ()

/-- Which combinations are where: plotted, in the worker, in the queue, in the solver, still to do; how often the
worker was asked to end; and the disk of each combination if it were alone. -/
structure Ghost where
  plotted : List Name
  live : List Name
  jobs : List Name
  cur : List Name
  todo : List Name
  bells : ℕ
  disk : Name → FS Data

/-- The worker of a machine. -/
def WorkerInv (solve plot : Name → Prog Unit) (fs0 : FS Data) (G : Ghost) (m : Machine) : Prop :=
  match m.proc.workers with
  | [] => G.live = [] ∧ ∃ ns, m.parent = .starting ns
  | [.waiting] => G.live = []
  | [.running n] => G.live = [n] ∧ (plot n).Reach (solved solve fs0 n) m.job (G.disk n)
  | [.exited c] => c = 0 → G.live = [] ∧ G.jobs = []
  | _ => False

/-- In the loop: nobody has been asked to end. -/
structure InLoop (G : Ghost) (m : Machine) : Prop where
  bells : G.bells = 0
  pc : m.proc.pc = .idle
  current : m.proc.current = some 0
  going : m.proc.workers ≠ [.exited 0]
  some : m.proc.workers ≠ []

/-- The parent of a machine. -/
def ParentInv (solve : Name → Prog Unit) (fs0 : FS Data) (G : Ghost) (m : Machine) : Prop :=
  match m.parent with
  | .starting ns => G.plotted = [] ∧ G.jobs = [] ∧ G.cur = [] ∧ G.todo = ns ∧ G.bells = 0 ∧
    m.proc = OutputProcess.init Name
  | .loop todo => G.cur = [] ∧ G.todo = todo ∧ InLoop G m
  | .solving n p todo => G.cur = [n] ∧ G.todo = todo ∧ InLoop G m ∧ (solve n).Reach fs0 p (G.disk n)
  | .stopping none => G.cur = [] ∧ G.todo = [] ∧ m.proc.current = some 0 ∧ m.proc.workers ≠ []
  | .ended none => G.cur = [] ∧ G.todo = [] ∧ G.live = [] ∧ G.jobs = [] ∧ m.proc.workers = [.exited 0]
  | _ => m.proc.workers ≠ []

/-- A machine and where its combinations are. -/
structure Inv (solve plot : Name → Prog Unit) (A W : Name → FPath → Prop) (names : List Name) (fs0 : FS Data)
    (G : Ghost) (m : Machine) : Prop where
  split : names = G.plotted ++ G.live ++ G.jobs ++ G.cur ++ G.todo
  queue : m.proc.queue = G.jobs.map .job ++ List.replicate G.bells .sentinel
  worker : WorkerInv solve plot fs0 G m
  parent : ParentInv solve fs0 G m
  plotted : ∀ n ∈ G.plotted, SolveOk solve fs0 n ∧ PlotOk solve plot fs0 n ∧ G.disk n = drawn solve plot fs0 n
  live : ∀ n ∈ G.live, SolveOk solve fs0 n
  jobs : ∀ n ∈ G.jobs, SolveOk solve fs0 n ∧ G.disk n = solved solve fs0 n
  todo : ∀ n ∈ G.todo, G.disk n = fs0
  stage : ∀ n, (∃ p, (solve n).Reach fs0 p (G.disk n)) ∨
    (SolveOk solve fs0 n ∧ ∃ p, (plot n).Reach (solved solve fs0 n) p (G.disk n))
  inside : ∀ n ∈ names, On (A n) m.disk (G.disk n)
  outside : ∀ q, (∀ n ∈ names, ¬ W n q) → m.disk q = fs0 q

/-- The change of one process leaves the combinations of the other alone. -/
theorem inside_step (H : Apart solve plot A W) {d d' g' : FS Data} {disk : Name → FS Data} {n : Name}
    (hin : ∀ m ∈ names, On (A m) d (disk m)) (hout : ∀ q, (∀ m ∈ names, ¬ W m q) → d q = fs0 q) (hn : n ∈ names)
    (hW : Except' (W n) d d') (hA : On (A n) d' g') :
    (∀ m ∈ names, On (A m) d' (Function.update disk n g' m)) ∧ ∀ q, (∀ m ∈ names, ¬ W m q) → d' q = fs0 q := by
  refine ⟨fun m hm => ?_, fun q hq => (hW q (hq n hn)).trans (hout q hq)⟩
  by_cases e : m = n
  · subst e
    rw [Function.update_self]
    exact hA
  · rw [Function.update_of_ne e]
    exact fun q hq => (hW q fun hw => H.apart n m q (fun e' => e e'.symm) hw hq).trans (hin m hm q hq)

theorem update_list {disk : Name → FS Data} {n : Name} {g' : FS Data} {l : List Name} {P : Name → FS Data → Prop}
    (hn : n ∉ l) (h : ∀ m ∈ l, P m (disk m)) : ∀ m ∈ l, P m (Function.update disk n g' m) := by
  intro m hm
  have e : m ≠ n := fun e => hn (e ▸ hm)
  rw [Function.update_of_ne e]
  exact h m hm

theorem replicate_head {J : Type} {jobs : List J} {k : ℕ} {j : J} {l : List (Item J)}
    (h : jobs.map Item.job ++ List.replicate k .sentinel = .job j :: l) :
    ∃ js, jobs = j :: js ∧ l = js.map .job ++ List.replicate k .sentinel := by
  cases jobs with
  | nil => cases k <;> simp [List.replicate_succ] at h
  | cons a js =>
    simp only [List.map_cons, List.cons_append, List.cons.injEq, Item.job.injEq] at h
    obtain ⟨rfl, rfl⟩ := h
    exact ⟨js, rfl, rfl⟩

theorem sentinel_head {J : Type} {jobs : List J} {k : ℕ} {l : List (Item J)}
    (h : jobs.map Item.job ++ List.replicate k .sentinel = .sentinel :: l) :
    jobs = [] ∧ 0 < k ∧ l = List.replicate (k - 1) .sentinel := by
  cases jobs with
  | cons a js => simp at h
  | nil =>
    cases k with
    | zero => simp at h
    | succ k =>
      simp only [List.map_nil, List.nil_append, List.replicate_succ, List.cons.injEq, true_and] at h
      exact ⟨rfl, Nat.succ_pos k, h.symm⟩

/-- Where a combination of the middle is not. -/
theorem split_cur {names plotted live jobs todo : List Name} {n : Name} (hnd : names.Nodup)
    (h : names = plotted ++ live ++ jobs ++ [n] ++ todo) :
    n ∈ names ∧ n ∉ plotted ∧ n ∉ live ∧ n ∉ jobs ∧ n ∉ todo := by
  subst h
  simp only [List.nodup_append, List.mem_append, List.mem_singleton] at hnd
  obtain ⟨⟨_, _, h1⟩, _, h2⟩ := hnd
  refine ⟨by simp, fun h => h1 n (.inl (.inl h)) n rfl rfl, fun h => h1 n (.inl (.inr h)) n rfl rfl,
    fun h => h1 n (.inr h) n rfl rfl, fun h => h2 n (.inr rfl) n h rfl⟩

theorem split_live {names plotted jobs cur todo : List Name} {n : Name} (hnd : names.Nodup)
    (h : names = plotted ++ [n] ++ jobs ++ cur ++ todo) :
    n ∈ names ∧ n ∉ plotted ∧ n ∉ jobs ∧ n ∉ cur ∧ n ∉ todo := by
  subst h
  simp only [List.nodup_append, List.mem_append, List.mem_singleton] at hnd
  obtain ⟨⟨⟨⟨_, _, h1⟩, _, h2⟩, _, h3⟩, _, h4⟩ := hnd
  refine ⟨by simp, fun h => h1 n h n rfl rfl, fun h => h2 n (.inr rfl) n h rfl,
    fun h => h3 n (.inl (.inr rfl)) n h rfl, fun h => h4 n (.inl (.inl (.inr rfl))) n h rfl⟩

section
variable {G : Ghost} {m m' : Machine}

theorem inv_work (H : Apart solve plot A W) (hnd : names.Nodup) (h : Inv solve plot A W names fs0 G m)
    (hm : m.move solve plot .work = some m') : ∃ G', Inv solve plot A W names fs0 G' m' := by
  unfold Machine.move at hm
  dsimp only at hm
  cases hp : m.parent with
  | solving n p todo =>
    rw [hp] at hm
    dsimp only at hm
    obtain ⟨⟨p', d'⟩, hn, rfl⟩ := Option.map_eq_some_iff.mp hm
    have hpar := h.parent
    unfold ParentInv at hpar
    rw [hp] at hpar
    obtain ⟨hc, ht, hl, hr⟩ := hpar
    have hs := h.split
    rw [hc] at hs
    obtain ⟨k1, k2, k3, k4, k5⟩ := split_cur hnd hs
    obtain ⟨g', e1, e2, -, e3⟩ := (hr.within (H.solve n)).next (h.inside n k1) hn
    obtain ⟨i1, i2⟩ := inside_step H h.inside h.outside k1 e3 e2
    refine ⟨{ G with disk := Function.update G.disk n g' }, ⟨h.split, h.queue, ?_, ?_,
      update_list (P := fun n g => SolveOk solve fs0 n ∧ PlotOk solve plot fs0 n ∧ g = drawn solve plot fs0 n) k2 h.plotted,
      h.live, update_list (P := fun n g => SolveOk solve fs0 n ∧ g = solved solve fs0 n) k4 h.jobs,
      update_list (P := fun _ g => g = fs0) k5 h.todo, fun x => ?_, i1, i2⟩⟩
    · have hw := h.worker
      unfold WorkerInv at hw ⊢
      dsimp only
      split at hw
      · rename_i e
        exact absurd e hl.some
      · exact hw
      · rename_i x e
        refine ⟨hw.1, ?_⟩
        have : x ≠ n := fun e => k3 (by rw [hw.1, e]; exact List.mem_singleton_self n)
        rw [Function.update_of_ne this]
        exact hw.2
      · exact hw
      · exact hw.elim
    · show G.cur = [n] ∧ G.todo = todo ∧ InLoop _ _ ∧ (solve n).Reach fs0 p' (Function.update G.disk n g' n)
      rw [Function.update_self]
      exact ⟨hc, ht, ⟨hl.bells, hl.pc, hl.current, hl.going, hl.some⟩, hr.step e1⟩
    · dsimp only
      by_cases e : x = n
      · subst e
        rw [Function.update_self]
        exact .inl ⟨p', hr.step e1⟩
      · rw [Function.update_of_ne e]
        exact h.stage x
  | _ => rw [hp] at hm; cases hm

theorem inv_draw (H : Apart solve plot A W) (hnd : names.Nodup) (h : Inv solve plot A W names fs0 G m)
    (hm : m.move solve plot .draw = some m') : ∃ G', Inv solve plot A W names fs0 G' m' := by
  unfold Machine.move at hm
  dsimp only at hm
  split at hm
  · rename_i n hwk
    obtain ⟨⟨p', d'⟩, hn, rfl⟩ := Option.map_eq_some_iff.mp hm
    have hw := h.worker
    unfold WorkerInv at hw
    rw [hwk] at hw
    obtain ⟨hl, hr⟩ := hw
    have hs := h.split
    rw [hl] at hs
    obtain ⟨k1, k2, k3, k4, k5⟩ := split_live hnd hs
    obtain ⟨g', e1, e2, -, e3⟩ := (hr.within (H.plot n)).next (h.inside n k1) hn
    obtain ⟨i1, i2⟩ := inside_step H h.inside h.outside k1 e3 e2
    have hso := h.live n (by rw [hl]; exact List.mem_singleton_self n)
    refine ⟨{ G with disk := Function.update G.disk n g' }, ⟨h.split, h.queue, ?_, ?_,
      update_list (P := fun n g => SolveOk solve fs0 n ∧ PlotOk solve plot fs0 n ∧ g = drawn solve plot fs0 n) k2 h.plotted,
      h.live, update_list (P := fun n g => SolveOk solve fs0 n ∧ g = solved solve fs0 n) k3 h.jobs,
      update_list (P := fun _ g => g = fs0) k5 h.todo, fun x => ?_, i1, i2⟩⟩
    · unfold WorkerInv
      dsimp only
      rw [hwk]
      dsimp only
      rw [Function.update_self]
      exact ⟨hl, hr.step e1⟩
    · have hp := h.parent
      unfold ParentInv at hp ⊢
      dsimp only
      cases hpp : m.parent with
      | starting ns => rw [hpp] at hp; exact hp
      | loop todo =>
        rw [hpp] at hp
        exact ⟨hp.1, hp.2.1, ⟨hp.2.2.bells, hp.2.2.pc, hp.2.2.current, hp.2.2.going, hp.2.2.some⟩⟩
      | solving x p todo =>
        rw [hpp] at hp
        dsimp only at hp ⊢
        have : x ≠ n := fun e => k4 (by rw [hp.1, e]; exact List.mem_singleton_self n)
        rw [Function.update_of_ne this]
        exact ⟨hp.1, hp.2.1, ⟨hp.2.2.1.bells, hp.2.2.1.pc, hp.2.2.1.current, hp.2.2.1.going, hp.2.2.1.some⟩, hp.2.2.2⟩
      | stopping err => rw [hpp] at hp; cases err <;> exact hp
      | ended err => rw [hpp] at hp; cases err <;> exact hp
      | _ => rw [hpp] at hp; exact hp
    · dsimp only
      by_cases e : x = n
      · subst e
        rw [Function.update_self]
        exact .inr ⟨hso, p', hr.step e1⟩
      · rw [Function.update_of_ne e]
        exact h.stage x
  · cases hm

/-! ## The moves that leave the disk alone -/

theorem parent_stays {G' : Ghost} (h : ParentInv solve fs0 G m) (hp : m'.parent = m.parent)
    (hc : m'.proc.current = m.proc.current) (h0 : m.proc.workers ≠ []) (h1 : m.proc.workers ≠ [.exited 0])
    (h2 : m'.proc.workers ≠ []) (hcur : G'.cur = G.cur) (htodo : G'.todo = G.todo) (hdisk : G'.disk = G.disk)
    (hl : InLoop G m → InLoop G' m') : ParentInv solve fs0 G' m' := by
  unfold ParentInv at h ⊢
  rw [hp, hc, hcur, htodo, hdisk]
  cases hpp : m.parent with
  | starting ns =>
    rw [hpp] at h
    obtain ⟨-, -, -, -, -, h⟩ := h
    rw [h] at h0
    exact absurd rfl h0
  | loop todo => rw [hpp] at h; exact ⟨h.1, h.2.1, hl h.2.2⟩
  | solving n p todo => rw [hpp] at h; exact ⟨h.1, h.2.1, hl h.2.2.1, h.2.2.2⟩
  | stopping err => rw [hpp] at h; cases err with
    | none => exact ⟨h.1, h.2.1, h.2.2.1, h2⟩
    | some e => exact h2
  | ended err => rw [hpp] at h; cases err with
    | none => exact absurd h.2.2.2.2 h1
    | some e => exact h2
  | _ => exact h2

theorem inv_start (h : Inv solve plot A W names fs0 G m) (hm : m.move solve plot .start = some m') :
    ∃ G', Inv solve plot A W names fs0 G' m' := by
  unfold Machine.move at hm
  dsimp only at hm
  cases hp : m.parent with
  | starting ns =>
    rw [hp] at hm
    dsimp only at hm
    obtain ⟨s, hs, rfl⟩ := Option.map_eq_some_iff.mp hm
    have hpar := h.parent
    unfold ParentInv at hpar
    rw [hp] at hpar
    obtain ⟨p1, p2, p3, p4, p5, p6⟩ := hpar
    rw [p6] at hs
    have es : s = ⟨[], [.waiting], some 0, .idle⟩ := by
      have : OutputProcess.step (fun _ => .returns) (OutputProcess.init Name) .start
        = some ⟨[], [.waiting], some 0, .idle⟩ := rfl
      exact (Option.some.inj (this.symm.trans hs)).symm
    have hq := h.queue
    have hw := h.worker
    unfold WorkerInv at hw
    rw [p6] at hw
    subst es
    refine ⟨G, ⟨h.split, ?_, hw.1, ?_, h.plotted, h.live, h.jobs, h.todo, h.stage, h.inside, h.outside⟩⟩
    · rw [p2, p5]; rfl
    · exact ⟨p3, p4, ⟨p5, rfl, rfl, by simp, by simp⟩⟩
  | _ => rw [hp] at hm; cases hm

theorem inv_begin (h : Inv solve plot A W names fs0 G m) (hm : m.move solve plot .begin = some m') :
    ∃ G', Inv solve plot A W names fs0 G' m' := by
  unfold Machine.move at hm
  dsimp only at hm
  split at hm
  · rename_i n todo hp
    cases hm
    have hpar := h.parent
    unfold ParentInv at hpar
    rw [hp] at hpar
    obtain ⟨p1, p2, p3⟩ := hpar
    have hf : G.disk n = fs0 := h.todo n (by rw [p2]; exact List.mem_cons_self ..)
    refine ⟨{ G with cur := [n], todo := todo }, ⟨?_, h.queue, ?_, ?_, h.plotted, h.live, h.jobs,
      fun x hx => h.todo x (by rw [p2]; exact List.mem_cons_of_mem _ hx), h.stage, h.inside, h.outside⟩⟩
    · have := h.split
      rw [p1, p2] at this
      rw [this]
      simp
    · have hw := h.worker
      unfold WorkerInv at hw ⊢
      dsimp only
      split at hw
      · rename_i e; exact absurd e p3.some
      all_goals exact hw
    · refine ⟨rfl, rfl, ⟨p3.bells, p3.pc, p3.current, p3.going, p3.some⟩, ?_⟩
      dsimp only
      rw [hf]
      exact .here
  · cases hm

theorem inv_submit (h : Inv solve plot A W names fs0 G m) (hm : m.move solve plot .submit = some m') :
    ∃ G', Inv solve plot A W names fs0 G' m' := by
  unfold Machine.move at hm
  dsimp only at hm
  split at hm
  · rename_i n _ todo hp
    obtain ⟨s, hs, rfl⟩ := Option.map_eq_some_iff.mp hm
    have hpar := h.parent
    unfold ParentInv at hpar
    rw [hp] at hpar
    obtain ⟨p1, p2, p3, p4⟩ := hpar
    have es : s = { m.proc with queue := m.proc.queue ++ [.job n] } := by
      unfold OutputProcess.step at hs
      dsimp only at hs
      rw [if_pos p3.pc] at hs
      exact (Option.some.inj hs).symm
    subst es
    obtain ⟨r1, r2⟩ := p4.run
    refine ⟨{ G with jobs := G.jobs ++ [n], cur := [] }, ⟨?_, ?_, ?_, ?_, h.plotted, h.live, fun x hx => ?_, h.todo,
      h.stage, h.inside, h.outside⟩⟩
    · have := h.split
      rw [p1] at this
      rw [this]
      simp
    · dsimp only
      rw [h.queue, p3.bells]
      simp
    · have hw := h.worker
      unfold WorkerInv at hw ⊢
      dsimp only
      split at hw
      · rename_i e; exact absurd e p3.some
      · exact hw
      · exact hw
      · rename_i c e
        intro hc
        exact absurd (hc ▸ e) p3.going
      · exact hw.elim
    · exact ⟨rfl, p2, ⟨p3.bells, p3.pc, p3.current, p3.going, p3.some⟩⟩
    · rcases List.mem_append.mp hx with hx | hx
      · exact h.jobs x hx
      · rw [List.mem_singleton.mp hx]
        exact ⟨r1, r2.symm⟩
  · cases hm

theorem stopCall_cases {s s' : State Name} {b : Bool} (h : stopCall s b = some s') :
    s'.workers = s.workers ∧ s'.current = s.current ∧
    ((s.current = none ∧ s'.queue = s.queue) ∨ (s.current ≠ none ∧ s'.queue = s.queue ++ [.sentinel])) := by
  unfold stopCall at h
  split_ifs at h
  cases hc : s.current with
  | none => rw [hc] at h; cases h; exact ⟨rfl, rfl, .inl ⟨rfl, rfl⟩⟩
  | some w => rw [hc] at h; cases h; exact ⟨rfl, rfl, .inr ⟨by simp, rfl⟩⟩

/-- The worker does not notice what the parent does. -/
theorem worker_stays {G' : Ghost} (h : WorkerInv solve plot fs0 G m) (hw : m'.proc.workers = m.proc.workers)
    (h0 : m.proc.workers ≠ []) (hj : m'.job = m.job) (hl : G'.live = G.live) (hjobs : G'.jobs = G.jobs)
    (hd : G'.disk = G.disk) : WorkerInv solve plot fs0 G' m' := by
  unfold WorkerInv at h ⊢
  rw [hw, hj, hl, hjobs, hd]
  split at h
  · rename_i e; exact absurd e h0
  all_goals exact h

theorem inv_call (h : Inv solve plot A W names fs0 G m) (hm : m.move solve plot .call = some m') :
    ∃ G', Inv solve plot A W names fs0 G' m' := by
  have main : ∀ (s : State Name) (P : Parent), stopCall m.proc true = some s → m.proc.workers ≠ [] →
      (∀ G' : Ghost, G'.cur = G.cur → G'.todo = G.todo → ParentInv solve fs0 G' { m with proc := s, parent := P }) →
      ∃ G', Inv solve plot A W names fs0 G' { m with proc := s, parent := P } := by
    intro s P hs h0 hp
    obtain ⟨s1, s2, s3⟩ := stopCall_cases hs
    rcases s3 with ⟨-, s3⟩ | ⟨-, s3⟩
    · exact ⟨G, ⟨h.split, s3.trans h.queue, worker_stays h.worker s1 h0 rfl rfl rfl rfl, hp G rfl rfl, h.plotted,
        h.live, h.jobs, h.todo, h.stage, h.inside, h.outside⟩⟩
    · refine ⟨{ G with bells := G.bells + 1 }, ⟨h.split, ?_, worker_stays h.worker s1 h0 rfl rfl rfl rfl, hp _ rfl rfl,
        h.plotted, h.live, h.jobs, h.todo, h.stage, h.inside, h.outside⟩⟩
      dsimp only
      rw [s3, h.queue, List.append_assoc, List.replicate_succ']
  unfold Machine.move at hm
  dsimp only at hm
  have hpar := h.parent
  unfold ParentInv at hpar
  split at hm
  · rename_i hp
    obtain ⟨s, hs, rfl⟩ := Option.map_eq_some_iff.mp hm
    rw [hp] at hpar
    obtain ⟨s1, s2, -⟩ := stopCall_cases hs
    refine main s _ hs hpar.2.2.some fun G' e1 e2 => ?_
    exact ⟨e1.trans hpar.1, e2.trans hpar.2.1, s2.trans hpar.2.2.current, fun e => hpar.2.2.some (s1.symm.trans e)⟩
  · rename_i e _ hp
    obtain ⟨s, hs, rfl⟩ := Option.map_eq_some_iff.mp hm
    rw [hp] at hpar
    obtain ⟨s1, s2, -⟩ := stopCall_cases hs
    exact main s _ hs hpar.2.2.1.some fun G' e1 e2 => (fun e => hpar.2.2.1.some (s1.symm.trans e))
  · rename_i e hp
    obtain ⟨s, hs, rfl⟩ := Option.map_eq_some_iff.mp hm
    rw [hp] at hpar
    obtain ⟨s1, s2, -⟩ := stopCall_cases hs
    exact main s _ hs hpar fun G' e1 e2 => (fun e => hpar (s1.symm.trans e))
  · cases hm

theorem replyStep_cases {s s' : State Name} {r : Reply} (h : replyStep s r = some s') :
    s'.workers = s.workers ∧ s'.queue = s.queue ∧
    (r = .returned → s.process = none ∨ s.process = some (.exited 0)) := by
  cases r with
  | returned =>
    unfold replyStep at h
    dsimp only at h
    split at h
    · rename_i hp
      cases h
      exact ⟨rfl, rfl, fun _ => .inl hp⟩
    · rename_i c _ hp
      split_ifs at h with hc
      cases h
      exact ⟨rfl, rfl, fun _ => .inr (by rw [hp, hc])⟩
    · cases h
  | systemError =>
    unfold replyStep at h
    dsimp only at h
    split at h
    · split_ifs at h; cases h; exact ⟨rfl, rfl, fun e => by cases e⟩
    · cases h; exact ⟨rfl, rfl, fun e => by cases e⟩
    · cases h
  | valueError =>
    unfold replyStep at h
    dsimp only at h
    split at h
    · split_ifs at h; cases h; exact ⟨rfl, rfl, fun e => by cases e⟩
    · cases h

theorem inv_reply {r : Reply} (h : Inv solve plot A W names fs0 G m) (hm : m.move solve plot (.reply r) = some m') :
    ∃ G', Inv solve plot A W names fs0 G' m' := by
  unfold Machine.move at hm
  dsimp only at hm
  have hpar := h.parent
  unfold ParentInv at hpar
  split at hm
  · rename_i e hp
    obtain ⟨s, hs, rfl⟩ := Option.map_eq_some_iff.mp hm
    rw [hp] at hpar
    obtain ⟨s1, s2, -⟩ := replyStep_cases hs
    exact ⟨G, ⟨h.split, s2.trans h.queue, worker_stays h.worker s1 hpar rfl rfl rfl rfl,
      (fun e => hpar (s1.symm.trans e)), h.plotted, h.live, h.jobs, h.todo, h.stage, h.inside, h.outside⟩⟩
  · rename_i err hp
    obtain ⟨s, hs, rfl⟩ := Option.map_eq_some_iff.mp hm
    rw [hp] at hpar
    obtain ⟨s1, s2, s3⟩ := replyStep_cases hs
    have h0 : m.proc.workers ≠ [] := by
      cases err with
      | none => exact hpar.2.2.2
      | some e => exact hpar
    refine ⟨G, ⟨h.split, s2.trans h.queue, worker_stays h.worker s1 h0 rfl rfl rfl rfl, ?_, h.plotted, h.live, h.jobs,
      h.todo, h.stage, h.inside, h.outside⟩⟩
    unfold ParentInv
    dsimp only
    have hne : s.workers ≠ [] := fun e => h0 (s1.symm.trans e)
    cases r with
    | systemError => exact hne
    | valueError => exact hne
    | returned =>
      cases err with
      | some e => exact hne
      | none =>
        show G.cur = [] ∧ G.todo = [] ∧ G.live = [] ∧ G.jobs = [] ∧ s.workers = [.exited 0]
        obtain ⟨p1, p2, p3, -⟩ := hpar
        have hw := h.worker
        unfold WorkerInv at hw
        have hproc := s3 rfl
        unfold State.process at hproc
        rw [p3] at hproc
        simp only [Option.bind_some] at hproc
        split at hw
        · rename_i e; exact absurd e h0
        · rename_i e; rw [e] at hproc; simp at hproc
        · rename_i e; rw [e] at hproc; simp at hproc
        · rename_i c e
          rw [e] at hproc
          have hc : c = 0 := by simpa using hproc
          obtain ⟨w1, w2⟩ := hw hc
          exact ⟨p1, p2, w1, w2, by rw [s1, e, hc]⟩
        · exact hw.elim
  · cases hm

theorem inv_timeout (h : Inv solve plot A W names fs0 G m) (hm : m.move solve plot .timeout = some m') :
    ∃ G', Inv solve plot A W names fs0 G' m' := by
  unfold Machine.move at hm
  dsimp only at hm
  obtain ⟨s, hs, rfl⟩ := Option.map_eq_some_iff.mp hm
  unfold OutputProcess.step at hs
  dsimp only at hs
  split_ifs at hs with hc
  cases hs
  have hpar := h.parent
  have h0 : m.proc.workers ≠ [] := by
    intro e
    have := hc.2
    unfold State.isAlive State.process at this
    rw [e] at this
    cases hcur : m.proc.current <;> rw [hcur] at this <;> simp at this
  refine ⟨G, ⟨h.split, h.queue, worker_stays h.worker rfl h0 rfl rfl rfl rfl, ?_, h.plotted, h.live, h.jobs,
      h.todo, h.stage, h.inside, h.outside⟩⟩
  unfold ParentInv at hpar ⊢
  dsimp only
  cases hp : m.parent with
  | starting ns => rw [hp] at hpar; rw [hpar.2.2.2.2.2] at h0; exact absurd rfl h0
  | loop todo => rw [hp] at hpar; have := hpar.2.2.pc; rw [hc.1] at this; cases this
  | solving n p todo => rw [hp] at hpar; have := hpar.2.2.1.pc; rw [hc.1] at this; cases this
  | stopping err => rw [hp] at hpar; cases err <;> exact hpar
  | ended err => rw [hp] at hpar; cases err <;> exact hpar
  | _ => exact h0

/-- A worker that can move is not the one that never was, nor the one that has ended. -/
theorem one_worker (h : WorkerInv solve plot fs0 G m) {w : Worker Name} (hw : m.proc.workers[0]? = some w) :
    m.proc.workers = [w] := by
  unfold WorkerInv at h
  split at h
  · rename_i e; rw [e] at hw; cases hw
  all_goals first
    | (rename_i e; rw [e] at hw ⊢; cases hw; rfl)
    | exact h.elim

theorem inv_take (h : Inv solve plot A W names fs0 G m) (hm : m.move solve plot .take = some m') :
    ∃ G', Inv solve plot A W names fs0 G' m' := by
  unfold Machine.move at hm
  dsimp only at hm
  split at hm
  · rename_i n l hq
    obtain ⟨s, hs, rfl⟩ := Option.map_eq_some_iff.mp hm
    unfold OutputProcess.step at hs
    dsimp only at hs
    split_ifs at hs with hc
    cases hs
    have hwk := one_worker h.worker hc.1
    obtain ⟨js, j1, j2⟩ := replicate_head (h.queue.symm.trans hq)
    have hw := h.worker
    unfold WorkerInv at hw
    rw [hwk] at hw
    have hlive : G.live = [] := hw
    obtain ⟨o1, o2⟩ := h.jobs n (by rw [j1]; exact List.mem_cons_self ..)
    refine ⟨{ G with live := [n], jobs := js }, ⟨?_, ?_, ?_, ?_, h.plotted, fun x hx => ?_, fun x hx => ?_, h.todo,
      h.stage, h.inside, h.outside⟩⟩
    · have := h.split
      rw [hlive, j1] at this
      rw [this]
      simp
    · dsimp only [State.setWorker]
      rw [hq]
      exact j2
    · unfold WorkerInv
      dsimp only [State.setWorker]
      rw [hwk]
      refine ⟨rfl, ?_⟩
      rw [o2]
      exact .here
    · refine parent_stays h.parent rfl rfl (by rw [hwk]; simp) (by rw [hwk]; simp) ?_ rfl rfl rfl fun hl => ?_
      · dsimp only [State.setWorker]; rw [hwk]; simp
      · exact ⟨hl.bells, hl.pc, hl.current, by dsimp only [State.setWorker]; rw [hwk]; simp,
          by dsimp only [State.setWorker]; rw [hwk]; simp⟩
    · rw [List.mem_singleton.mp hx]; exact o1
    · exact h.jobs x (by rw [j1]; exact List.mem_cons_of_mem _ hx)
  · cases hm

theorem inv_finish (h : Inv solve plot A W names fs0 G m) (hm : m.move solve plot .finish = some m') :
    ∃ G', Inv solve plot A W names fs0 G' m' := by
  unfold Machine.move at hm
  dsimp only at hm
  split at hm
  · rename_i n _ hwk hj
    obtain ⟨s, hs, rfl⟩ := Option.map_eq_some_iff.mp hm
    unfold OutputProcess.step at hs
    dsimp only at hs
    split_ifs at hs with hc
    cases hs
    have hw := h.worker
    unfold WorkerInv at hw
    rw [hwk, hj] at hw
    obtain ⟨w1, w2⟩ := hw
    obtain ⟨r1, r2⟩ := w2.run
    refine ⟨{ G with plotted := G.plotted ++ [n], live := [] }, ⟨?_, h.queue, ?_, ?_, fun x hx => ?_,
      fun x hx => absurd hx (by simp), h.jobs, h.todo, h.stage, h.inside, h.outside⟩⟩
    · have := h.split
      rw [w1] at this
      rw [this]
      simp
    · unfold WorkerInv
      dsimp only [State.setWorker]
      rw [hwk]
      rfl
    · refine parent_stays h.parent rfl rfl (by rw [hwk]; simp) (by rw [hwk]; simp) ?_ rfl rfl rfl fun hl => ?_
      · dsimp only [State.setWorker]; rw [hwk]; simp
      · exact ⟨hl.bells, hl.pc, hl.current, by dsimp only [State.setWorker]; rw [hwk]; simp,
          by dsimp only [State.setWorker]; rw [hwk]; simp⟩
    · rcases List.mem_append.mp hx with hx | hx
      · exact h.plotted x hx
      · rw [List.mem_singleton.mp hx]
        exact ⟨h.live n (by rw [w1]; exact List.mem_singleton_self n), r1, r2.symm⟩
  · cases hm

/-- The worker ends with an error. -/
theorem inv_exit {c : ℤ} (hc : c ≠ 0) (h : Inv solve plot A W names fs0 G m) {w : Worker Name}
    (hwk : m.proc.workers = [w]) (hw : w.alive = true) :
    Inv solve plot A W names fs0 G { m with proc := m.proc.setWorker 0 (.exited c) } := by
  have hset : (m.proc.setWorker 0 (.exited c)).workers = [.exited c] := by
    show m.proc.workers.set 0 (.exited c) = [.exited c]
    rw [hwk]; rfl
  have hne : m.proc.workers ≠ [.exited 0] := by
    rw [hwk]
    intro e
    cases List.singleton_injective e
    cases hw
  refine ⟨h.split, h.queue, ?_, ?_, h.plotted, h.live, h.jobs, h.todo, h.stage, h.inside, h.outside⟩
  · unfold WorkerInv
    dsimp only
    rw [hset]
    exact fun e => absurd e hc
  · have hno : (m.proc.setWorker 0 (.exited c)).workers ≠ [.exited 0] := by
      rw [hset]
      intro e
      cases List.singleton_injective e
      exact hc rfl
    refine parent_stays h.parent rfl rfl (by rw [hwk]; simp) hne ?_ rfl rfl rfl fun hl => ?_
    · dsimp only; rw [hset]; simp
    · exact ⟨hl.bells, hl.pc, hl.current, hno, by dsimp only; rw [hset]; simp⟩

theorem inv_fail (h : Inv solve plot A W names fs0 G m) (hm : m.move solve plot .fail = some m') :
    ∃ G', Inv solve plot A W names fs0 G' m' := by
  unfold Machine.move at hm
  dsimp only at hm
  split at hm
  · rename_i n _ hwk hj
    obtain ⟨s, hs, rfl⟩ := Option.map_eq_some_iff.mp hm
    unfold OutputProcess.step at hs
    dsimp only at hs
    split_ifs at hs with hc
    cases hs
    exact ⟨G, inv_exit (by decide) h hwk rfl⟩
  · cases hm

theorem inv_kill {c : ℤ} (h : Inv solve plot A W names fs0 G m) (hm : m.move solve plot (.kill c) = some m') :
    ∃ G', Inv solve plot A W names fs0 G' m' := by
  unfold Machine.move at hm
  dsimp only at hm
  obtain ⟨s, hs, rfl⟩ := Option.map_eq_some_iff.mp hm
  unfold OutputProcess.step at hs
  dsimp only at hs
  split at hs
  · rename_i w hwk
    split_ifs at hs with hc
    cases hs
    exact ⟨G, inv_exit hc.2 h (one_worker h.worker hwk) hc.1⟩
  · cases hs

theorem inv_quit (h : Inv solve plot A W names fs0 G m) (hm : m.move solve plot .quit = some m') :
    ∃ G', Inv solve plot A W names fs0 G' m' := by
  unfold Machine.move at hm
  dsimp only at hm
  obtain ⟨s, hs, rfl⟩ := Option.map_eq_some_iff.mp hm
  unfold OutputProcess.step at hs
  dsimp only at hs
  split_ifs at hs with hc
  cases hs
  have hwk := one_worker h.worker hc.1
  have hw := h.worker
  unfold WorkerInv at hw
  rw [hwk] at hw
  have hq : ∃ l, m.proc.queue = .sentinel :: l := by
    cases hq : m.proc.queue with
    | nil => have := hc.2; rw [hq] at this; cases this
    | cons a l => have := hc.2; rw [hq] at this; cases this; exact ⟨l, rfl⟩
  obtain ⟨l, hq⟩ := hq
  obtain ⟨j1, j2, j3⟩ := sentinel_head (h.queue.symm.trans hq)
  have hset : (m.proc.setWorker 0 (.exited 0)).workers = [.exited 0] := by
    show m.proc.workers.set 0 (.exited 0) = [.exited 0]
    rw [hwk]; rfl
  refine ⟨{ G with bells := G.bells - 1 }, ⟨h.split, ?_, ?_, ?_, h.plotted, h.live, h.jobs, h.todo, h.stage, h.inside,
    h.outside⟩⟩
  · dsimp only [State.setWorker]
    rw [hq, j1]
    exact j3
  · unfold WorkerInv
    dsimp only
    rw [hset]
    exact fun _ => ⟨hw, j1⟩
  · refine parent_stays h.parent rfl rfl (by rw [hwk]; simp) (by rw [hwk]; simp) ?_ rfl rfl rfl fun hl => ?_
    · dsimp only; rw [hset]; simp
    · exact absurd hl.bells (by omega)

/-- Where the combinations are stays known. -/
theorem inv_move (H : Apart solve plot A W) (hnd : names.Nodup) (h : Inv solve plot A W names fs0 G m) {a : Move}
    (hm : m.move solve plot a = some m') : ∃ G', Inv solve plot A W names fs0 G' m' := by
  cases a with
  | start => exact inv_start h hm
  | begin => exact inv_begin h hm
  | work => exact inv_work H hnd h hm
  | submit => exact inv_submit h hm
  | call => exact inv_call h hm
  | reply r => exact inv_reply h hm
  | timeout => exact inv_timeout h hm
  | take => exact inv_take h hm
  | draw => exact inv_draw H hnd h hm
  | finish => exact inv_finish h hm
  | fail => exact inv_fail h hm
  | quit => exact inv_quit h hm
  | kill c => exact inv_kill h hm

theorem inv_moves (H : Apart solve plot A W) (hnd : names.Nodup) {ms : List Move} : ∀ {G : Ghost} {m : Machine},
    Inv solve plot A W names fs0 G m → m.moves solve plot ms = some m' → ∃ G', Inv solve plot A W names fs0 G' m' := by
  induction ms with
  | nil => intro G m h hm; cases hm; exact ⟨G, h⟩
  | cons a as ih =>
    intro G m h hm
    unfold Machine.moves at hm
    split at hm
    · cases hm
    · rename_i m1 h1
      obtain ⟨G1, h2⟩ := inv_move H hnd h h1
      exact ih h2 hm

theorem inv_first : Inv solve plot A W names fs0 ⟨[], [], [], [], names, 0, fun _ => fs0⟩
    ⟨fs0, OutputProcess.init Name, .ret (), .starting names⟩ where
  split := rfl
  queue := rfl
  worker := ⟨rfl, names, rfl⟩
  parent := ⟨rfl, rfl, rfl, rfl, rfl, rfl⟩
  plotted := fun _ h => absurd h (by simp)
  live := fun _ h => absurd h (by simp)
  jobs := fun _ h => absurd h (by simp)
  todo := fun _ _ => rfl
  stage := fun _ => .inl ⟨_, .here⟩
  inside := fun _ _ _ _ => rfl
  outside := fun _ _ => rfl

end

end Disk
end Verif
