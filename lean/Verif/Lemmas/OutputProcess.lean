import Verif.Spec.OutputProcess
import Mathlib.Tactic.Tauto

/-!
# Lemmas on executions of the output process
-/

set_option autoImplicit false

namespace Verif
namespace OutputProcess
open Spec
variable {J : Type} [DecidableEq J] {out : J → Outcome}

theorem run_append {s : State J} {es es' : List (Event J)} :
    run out s (es ++ es') = (run out s es).bind (run out · es') := by
  induction es generalizing s with
  | nil => rfl
  | cons e es ih =>
    simp only [List.cons_append, run]
    cases step out s e with
    | none => rfl
    | some s' => exact ih

theorem run_snoc {s s' : State J} {es : List (Event J)} {e : Event J}
    (h : run out s (es ++ [e]) = some s') : ∃ t, run out s es = some t ∧ step out t e = some s' := by
  rw [run_append, Option.bind_eq_some_iff] at h
  obtain ⟨t, ht, h⟩ := h
  refine ⟨t, ht, ?_⟩
  simp only [run] at h
  cases hs : step out t e with
  | none => rw [hs] at h; cases h
  | some u => rw [hs] at h; exact h

theorem run_split {s s' : State J} {es es' : List (Event J)} (h : run out s (es ++ es') = some s') :
    ∃ t, run out s es = some t ∧ run out t es' = some s' := by
  rwa [run_append, Option.bind_eq_some_iff] at h

/-- Induction over executions. -/
theorem run_inv {s : State J} {I : List (Event J) → State J → Prop} (h0 : I [] s)
    (hs : ∀ es t e t', run out s es = some t → I es t → step out t e = some t' → I (es ++ [e]) t')
    {es : List (Event J)} {s' : State J} (h : run out s es = some s') : I es s' := by
  induction es using List.reverseRecOn generalizing s' with
  | nil => cases h; exact h0
  | append_singleton es e ih =>
    obtain ⟨t, ht, he⟩ := run_snoc h
    exact hs _ _ _ _ ht (ih ht) he

omit [DecidableEq J] in
theorem submitted_append (es es' : List (Event J)) :
    submitted (es ++ es') = submitted es ++ submitted es' := List.filterMap_append

omit [DecidableEq J] in
theorem begun_append (es es' : List (Event J)) : begun (es ++ es') = begun es ++ begun es' :=
  List.filterMap_append

omit [DecidableEq J] in
theorem finished_append (es es' : List (Event J)) :
    finished (es ++ es') = finished es ++ finished es' := List.filterMap_append

theorem head_cons {α : Type} {x : α} : ∀ {q : List α}, q.head? = some x → q = x :: q.tail
  | _ :: _, h => by cases h; rfl

/-- In one step, the jobs begun and the jobs in the queue keep adding up to the jobs submitted. -/
theorem step_jobs {s s' : State J} {e : Event J} (h : step out s e = some s') :
    begun [e] ++ queued s' = queued s ++ submitted [e] := by
  cases e with
  | start => simp only [step] at h; split_ifs at h; cases h; simp [begun, queued, submitted]
  | submit j =>
    simp only [step] at h; split_ifs at h; cases h; simp [begun, queued, submitted]
  | stop b =>
    simp only [step, stopCall] at h
    split_ifs at h
    cases hc : s.current <;> rw [hc] at h <;> cases h <;> simp [begun, queued, submitted]
  | cancel b =>
    simp only [step, stopCall] at h
    split_ifs at h
    cases hc : s.current <;> rw [hc] at h <;> cases h <;> simp [begun, queued, submitted]
  | timeout => simp only [step] at h; split_ifs at h; cases h; simp [begun, queued, submitted]
  | reply r =>
    have : s'.queue = s.queue := by
      simp only [step] at h
      cases r <;> simp only [replyStep] at h <;> split at h <;> (try split_ifs at h) <;>
        cases h <;> rfl
    simp [begun, queued, submitted, this]
  | take w j =>
    simp only [step] at h
    split_ifs at h with hc
    cases h
    simp only [begun, queued, submitted]
    conv_rhs => rw [head_cons hc.2]
    simp
  | quit w =>
    simp only [step] at h
    split_ifs at h with hc
    cases h
    simp only [begun, queued, submitted]
    conv_rhs => rw [head_cons hc.2]
    simp
  | finish w j =>
    simp only [step] at h; split_ifs at h; cases h; simp [begun, queued, submitted, State.setWorker]
  | fail w j =>
    simp only [step] at h
    split_ifs at h
    split at h <;> cases h <;> simp [begun, queued, submitted, State.setWorker]
  | kill w c =>
    simp only [step] at h
    split at h
    · split_ifs at h; cases h; simp [begun, queued, submitted, State.setWorker]
    · cases h

/-! ### Sessions with a single worker -/

/-- The single worker of a session, and what it has finished of the jobs it began. -/
def Doing (w : Worker J) (bs fs : List J) : Prop :=
  match w with
  | .waiting => fs = bs
  | .running j => bs = fs ++ [j]
  | .exited c => c ≠ 0

omit [DecidableEq J] in
theorem worker_one {w x : Worker J} {k : ℕ} (h : [w][k]? = some x) : k = 0 ∧ w = x := by
  cases k with
  | zero => exact ⟨rfl, by simpa using h⟩
  | succ k => simp at h

/-- Before any worker is started none can act. -/
theorem no_work {s s' : State J} {e : Event J} (hw : s.workers = []) (he : isWork e = true)
    (h : step out s e = some s') : False := by
  cases e <;> simp [isWork] at he <;> simp [step, hw] at h

/-- A worker that has ended does not act. -/
theorem ended_no_work {s s' : State J} {e : Event J} {c : ℤ} (hw : s.workers = [.exited c])
    (he : isWork e = true) (h : step out s e = some s') : False := by
  cases e <;> simp [isWork] at he <;> simp only [step, hw] at h
  case kill k c' =>
    split at h
    · rename_i x hx
      obtain ⟨-, rfl⟩ := worker_one hx
      simp [Worker.alive] at h
    · cases h
  case fail k j =>
    split_ifs at h with hc
    obtain ⟨-, hx⟩ := worker_one hc
    cases hx
  all_goals
    split_ifs at h with hc
    obtain ⟨-, hx⟩ := worker_one hc.1
    cases hx

/-- What an event of the only worker does. -/
theorem work_step (hout : ∀ j, out j ≠ .exits 0) {s s' : State J} {e : Event J} {w : Worker J}
    {bs fs : List J} (hw : s.workers = [w]) (hd : Doing w bs fs) (he : isWork e = true)
    (h : step out s e = some s') : s'.pc = s.pc ∧ s'.current = s.current ∧ ∃ w', s'.workers = [w'] ∧
      ((w' = .exited 0 ∧ e = .quit 0 ∧ s.queue = .sentinel :: s'.queue ∧ fs = bs) ∨
       (Doing w' (bs ++ begun [e]) (fs ++ finished [e]) ∧
        (s'.queue = s.queue ∧ begun [e] = [] ∨ ∃ j, s.queue = .job j :: s'.queue ∧ begun [e] = [j]))) := by
  cases e with
  | start => cases he
  | submit j => cases he
  | stop b => cases he
  | cancel b => cases he
  | timeout => cases he
  | reply r => cases he
  | take k j =>
    simp only [step, hw] at h
    split_ifs at h with hc
    cases h
    obtain ⟨rfl, rfl⟩ := worker_one hc.1
    refine ⟨rfl, rfl, .running j, by simp [State.setWorker, hw], .inr ⟨?_, .inr ⟨j, ?_, rfl⟩⟩⟩
    · simp only [Doing] at hd
      simp [Doing, begun, finished, hd]
    · exact head_cons hc.2
  | quit k =>
    simp only [step, hw] at h
    split_ifs at h with hc
    cases h
    obtain ⟨rfl, rfl⟩ := worker_one hc.1
    exact ⟨rfl, rfl, .exited 0, by simp [State.setWorker, hw], .inl ⟨rfl, rfl, head_cons hc.2, hd⟩⟩
  | finish k j =>
    simp only [step, hw] at h
    split_ifs at h with hc
    cases h
    obtain ⟨rfl, rfl⟩ := worker_one hc.1
    refine ⟨rfl, rfl, .waiting, by simp [State.setWorker, hw], .inr ⟨?_, .inl ⟨rfl, rfl⟩⟩⟩
    simp only [Doing] at hd
    simp [Doing, begun, finished, hd]
  | fail k j =>
    simp only [step, hw] at h
    split_ifs at h with hc
    obtain ⟨rfl, rfl⟩ := worker_one hc
    have : ∃ c, c ≠ 0 ∧ s' = s.setWorker 0 (.exited c) := by
      have := hout j
      split at h
      · cases h
      · cases h; exact ⟨1, by norm_num, rfl⟩
      · rename_i c hcode
        cases h
        refine ⟨c, ?_, rfl⟩
        rintro rfl
        exact this hcode
    obtain ⟨c, hc0, rfl⟩ := this
    exact ⟨rfl, rfl, .exited c, by simp [State.setWorker, hw], .inr ⟨hc0, .inl ⟨rfl, rfl⟩⟩⟩
  | kill k c =>
    simp only [step, hw] at h
    split at h
    · rename_i x hx
      split_ifs at h with hc
      cases h
      obtain ⟨rfl, rfl⟩ := worker_one hx
      exact ⟨rfl, rfl, .exited c, by simp [State.setWorker, hw], .inr ⟨hc.2, .inl ⟨rfl, rfl⟩⟩⟩
    · cases h

/-- Before the first `stop`. -/
def Before (es : List (Event J)) (s : State J) : Prop :=
  s.pc = .idle ∧ Item.sentinel ∉ s.queue ∧
    ((es.any isStart = true ∧ s.current = some 0 ∧
        ∃ w, s.workers = [w] ∧ Doing w (begun es) (finished es)) ∨
      (es.any isStart = false ∧ s.current = none ∧ s.workers = [] ∧ begun es = [] ∧ finished es = []))

theorem before_step (hout : ∀ j, out j ≠ .exits 0) {es : List (Event J)} {e : Event J}
    {s s' : State J} (hb : Before es s) (hstop : isStop e = false)
    (hstart : isStart e = true → es.any isStart = false)
    (h : step out s e = some s') : Before (es ++ [e]) s' := by
  obtain ⟨hpc, hq, hs⟩ := hb
  by_cases hwork : isWork e = true
  · have hns : isStart e = false := by cases e <;> simp [isWork] at hwork <;> rfl
    rcases hs with ⟨hst, hcur, w, hw, hd⟩ | ⟨-, -, hw, -⟩
    · obtain ⟨h1, h2, w', hw', h3 | ⟨hd', hq'⟩⟩ := work_step hout hw hd hwork h
      · rw [h3.2.2.1] at hq; simp at hq
      · refine ⟨h1.trans hpc, ?_, .inl ⟨by simp [hst], h2.trans hcur, w', hw', ?_⟩⟩
        · rcases hq' with ⟨hq', -⟩ | ⟨j, hq', -⟩
          · rwa [hq']
          · rw [hq'] at hq; exact fun hm => hq (List.mem_cons_of_mem _ hm)
        · rwa [begun_append, finished_append]
    · exact (no_work hw hwork h).elim
  · cases e with
    | start =>
      simp only [step, if_pos hpc] at h
      cases h
      rcases hs with ⟨hst, -⟩ | ⟨-, -, hw, hb, hf⟩
      · rw [hstart rfl] at hst; cases hst
      · refine ⟨hpc, hq, .inl ⟨by simp [isStart], by simp [hw], .waiting, by simp [hw], ?_⟩⟩
        rw [begun_append, finished_append, hb, hf]
        rfl
    | submit j =>
      simp only [step, if_pos hpc] at h
      cases h
      refine ⟨hpc, by simpa using hq, ?_⟩
      simpa [begun_append, finished_append, begun, finished, isStart] using hs
    | stop b => cases hstop
    | cancel b => cases hstop
    | timeout => simp [step, hpc] at h
    | reply r => cases r <;> simp [step, replyStep, hpc] at h
    | take k j => exact absurd rfl hwork
    | quit k => exact absurd rfl hwork
    | finish k j => exact absurd rfl hwork
    | fail k j => exact absurd rfl hwork
    | kill k c => exact absurd rfl hwork

/-- From the first `stop` on; `P` are the jobs submitted before it. -/
def After (P : List J) (es : List (Event J)) (s : State J) : Prop :=
  s.current = some 0 ∧ ∃ w, s.workers = [w] ∧
    ((∃ rest tail, s.queue = rest.map Item.job ++ .sentinel :: tail ∧ begun es ++ rest = P ∧
        Doing w (begun es) (finished es)) ∨
      (w = .exited 0 ∧ begun es = P ∧ finished es = P))

omit [DecidableEq J] in
theorem no_sentinel_jobs : ∀ {q : List (Item J)}, Item.sentinel ∉ q →
    q = (q.filterMap fun | .job j => some j | .sentinel => none).map Item.job
  | [], _ => rfl
  | .sentinel :: q, h => by simp at h
  | .job j :: q, h => by
    have := no_sentinel_jobs (q := q) (fun hm => h (List.mem_cons_of_mem _ hm))
    simpa using this

theorem after_begin {es : List (Event J)} {e : Event J} {s s' : State J} (hb : Before es s)
    (hst : es.any isStart = true) (hall : begun es ++ queued s = submitted es)
    (hstop : isStop e = true) (h : step out s e = some s') : After (submitted es) (es ++ [e]) s' := by
  obtain ⟨hpc, hq, hs⟩ := hb
  rcases hs with ⟨-, hcur, w, hw, hd⟩ | ⟨hst', -⟩
  swap
  · rw [hst] at hst'; cases hst'
  have : ∃ b, s' = { s with queue := s.queue ++ [.sentinel], pc := .joining b } := by
    cases e <;> simp [isStop] at hstop <;> simp [step, stopCall, hpc, hcur] at h <;>
      exact ⟨_, by rw [← h, hcur]⟩
  obtain ⟨b, rfl⟩ := this
  refine ⟨hcur, w, hw, .inl ⟨queued s, [], ?_, ?_, ?_⟩⟩
  · show s.queue ++ [.sentinel] = _
    conv_lhs => rw [no_sentinel_jobs hq]
    rfl
  · rw [begun_append]
    have : begun [e] = [] := by cases e <;> simp [isStop] at hstop <;> rfl
    rw [this, List.append_nil, hall]
  · rw [begun_append, finished_append]
    have h1 : begun [e] = [] := by cases e <;> simp [isStop] at hstop <;> rfl
    have h2 : finished [e] = [] := by cases e <;> simp [isStop] at hstop <;> rfl
    rwa [h1, h2, List.append_nil, List.append_nil]

theorem after_step (hout : ∀ j, out j ≠ .exits 0) {P : List J} {es : List (Event J)} {e : Event J}
    {s s' : State J} (ha : After P es s) (hstart : isStart e = false) (hend : isEnd e = false)
    (h : step out s e = some s') : After P (es ++ [e]) s' := by
  obtain ⟨hcur, w, hw, ha⟩ := ha
  by_cases hwork : isWork e = true
  · rcases ha with ⟨rest, tail, hq, hb, hd⟩ | ⟨rfl, -⟩
    · obtain ⟨h1, h2, w', hw', h3 | ⟨hd', hq'⟩⟩ := work_step hout hw hd hwork h
      · obtain ⟨rfl, rfl, hq', hf⟩ := h3
        refine ⟨h2.trans hcur, _, hw', .inr ⟨rfl, ?_, ?_⟩⟩ <;>
          rw [hq] at hq' <;> cases rest <;> simp at hq' <;> simp at hb
        · rw [begun_append]; simpa [begun] using hb
        · rw [finished_append, hf]; simpa [finished] using hb
      · refine ⟨h2.trans hcur, w', hw', .inl ?_⟩
        rw [begun_append, finished_append]
        rcases hq' with ⟨hq', hbe⟩ | ⟨j, hq', hbe⟩
        · exact ⟨rest, tail, hq'.trans hq, by rw [hbe, List.append_nil]; exact hb, hd'⟩
        · rw [hq] at hq'
          cases rest with
          | nil => simp at hq'
          | cons x rest =>
            simp at hq'
            obtain ⟨rfl, hq'⟩ := hq'
            exact ⟨rest, tail, hq'.symm, by rw [hbe]; simpa using hb, hd'⟩
    · exact (ended_no_work hw hwork h).elim
  · have key : begun [e] = [] ∧ finished [e] = [] ∧ s'.workers = s.workers ∧
        s'.current = s.current ∧ ∃ t, s'.queue = s.queue ++ t := by
      cases e with
      | start => cases hstart
      | submit j =>
        simp only [step] at h; split_ifs at h; cases h; exact ⟨rfl, rfl, rfl, rfl, _, rfl⟩
      | stop b =>
        simp only [step, stopCall, hcur] at h; split_ifs at h; cases h
        exact ⟨rfl, rfl, rfl, hcur.symm ▸ rfl, _, rfl⟩
      | cancel b =>
        simp only [step, stopCall, hcur] at h; split_ifs at h; cases h
        exact ⟨rfl, rfl, rfl, hcur.symm ▸ rfl, _, rfl⟩
      | timeout =>
        simp only [step] at h; split_ifs at h; cases h
        exact ⟨rfl, rfl, rfl, rfl, [], (List.append_nil _).symm⟩
      | reply r =>
        cases r with
        | returned => cases hend
        | systemError => cases hend
        | valueError =>
          simp only [step, replyStep] at h
          split at h
          · split_ifs at h; cases h
            exact ⟨rfl, rfl, rfl, rfl, [], (List.append_nil _).symm⟩
          · cases h
      | take k j => exact absurd rfl hwork
      | quit k => exact absurd rfl hwork
      | finish k j => exact absurd rfl hwork
      | fail k j => exact absurd rfl hwork
      | kill k c => exact absurd rfl hwork
    obtain ⟨k1, k2, k3, k4, t, k5⟩ := key
    refine ⟨k4.trans hcur, w, k3.trans hw, ?_⟩
    rw [begun_append, finished_append, k1, k2, List.append_nil, List.append_nil]
    rcases ha with ⟨rest, tail, hq, hb, hd⟩ | ha
    · exact .inl ⟨rest, tail ++ t, by rw [k5, hq]; simp, hb, hd⟩
    · exact .inr ha

/-! ### One worker overall -/

/-- At most one worker was ever started. -/
def Single (es : List (Event J)) (s : State J) : Prop :=
  (es.any isStart = false ∧ s.workers = [] ∧ s.current = none) ∨
    ∃ w, s.workers = [w] ∧ (s.current = some 0 ∨ s.current = none ∧ w.alive = false)

theorem work_keeps {s s' : State J} {e : Event J} (he : isWork e = true) (h : step out s e = some s') :
    s'.current = s.current ∧ s'.pc = s.pc ∧ s'.workers.length = s.workers.length := by
  cases e <;> simp [isWork] at he <;> simp only [step] at h
  case fail =>
    split_ifs at h; split at h <;> cases h <;> simp [State.setWorker]
  case kill =>
    split at h
    · split_ifs at h; cases h; simp [State.setWorker]
    · cases h
  all_goals (split_ifs at h; cases h; simp [State.setWorker])

theorem call_keeps {s s' : State J} {e : Event J} (he : isWork e = false) (hs : isStart e = false)
    (h : step out s e = some s') : s'.workers = s.workers ∧
      (s'.current = s.current ∨ s'.current = none ∧ ∃ c, s.process = some (.exited c)) := by
  cases e <;> simp [isWork] at he <;> simp [isStart] at hs <;> simp only [step] at h
  case submit => split_ifs at h; cases h; exact ⟨rfl, .inl rfl⟩
  case stop =>
    simp only [stopCall] at h; split_ifs at h
    cases hc : s.current <;> rw [hc] at h <;> cases h <;> exact ⟨rfl, .inl rfl⟩
  case cancel =>
    simp only [stopCall] at h; split_ifs at h
    cases hc : s.current <;> rw [hc] at h <;> cases h <;> exact ⟨rfl, .inl rfl⟩
  case timeout => split_ifs at h; cases h; exact ⟨rfl, .inl rfl⟩
  case reply r =>
    cases r <;> simp only [replyStep] at h <;> split at h
    all_goals first
      | (cases h; done)
      | (cases h; exact ⟨rfl, .inl rfl⟩)
      | (split_ifs at h; cases h; exact ⟨rfl, .inl rfl⟩)
      | (rename_i hp; split_ifs at h; cases h; exact ⟨rfl, .inr ⟨rfl, _, hp⟩⟩)
      | (rename_i hp; cases h; exact ⟨rfl, .inr ⟨rfl, _, hp⟩⟩)

theorem single_step {es : List (Event J)} {e : Event J} {s s' : State J} (hI : Single es s)
    (hstart : isStart e = true → es.any isStart = false) (h : step out s e = some s')
    (hone : es.any isStart = false → s.workers = []) : Single (es ++ [e]) s' := by
  by_cases hs : isStart e = true
  · have hn := hone (hstart hs)
    cases e <;> simp [isStart] at hs
    simp only [step] at h
    split_ifs at h
    cases h
    exact .inr ⟨.waiting, by simp [hn], .inl (by simp [hn])⟩
  · simp only [Bool.not_eq_true] at hs
    by_cases hw : isWork e = true
    · obtain ⟨h1, -, h3⟩ := work_keeps hw h
      rcases hI with ⟨-, hw0, -⟩ | ⟨w, hw0, hc⟩
      · exact (no_work hw0 hw h).elim
      · rw [hw0] at h3
        obtain ⟨w', hw'⟩ := List.length_eq_one_iff.mp h3
        rcases hc with hc | ⟨-, hc⟩
        · exact .inr ⟨w', hw', .inl (h1.trans hc)⟩
        · cases w <;> simp [Worker.alive] at hc
          exact (ended_no_work hw0 hw h).elim
    · simp only [Bool.not_eq_true] at hw
      obtain ⟨h1, h2⟩ := call_keeps hw hs h
      rcases hI with ⟨hn, hw0, hc⟩ | ⟨w, hw0, hc⟩
      · refine .inl ⟨by simp [hn, hs], h1.trans hw0, ?_⟩
        rcases h2 with h2 | ⟨h2, -⟩
        · exact h2.trans hc
        · exact h2
      · refine .inr ⟨w, h1.trans hw0, ?_⟩
        rcases h2 with h2 | ⟨h2, c, hp⟩
        · rcases hc with hc | ⟨hc, ha⟩
          · exact .inl (h2.trans hc)
          · exact .inr ⟨h2.trans hc, ha⟩
        · refine .inr ⟨h2, ?_⟩
          rcases hc with hc | ⟨hc, ha⟩
          · simp [State.process, hc, hw0] at hp
            subst hp; rfl
          · exact ha

theorem single_run {es : List (Event J)} {s : State J} (hs : (es.filter isStart).length ≤ 1)
    (h : run out (init J) es = some s) : Single es s := by
  have key := run_inv (out := out) (s := init J)
    (I := fun es s => (es.filter isStart).length ≤ 1 →
      Single es s ∧ (es.any isStart = false → s.workers = []))
    (fun _ => ⟨.inl ⟨rfl, rfl, rfl⟩, fun _ => rfl⟩)
    (fun es u x u' _ hI hx h2 => by
      rw [List.filter_append, List.length_append] at h2
      obtain ⟨h3, h4⟩ := hI (by omega)
      have h5 : isStart x = true → es.any isStart = false := fun hx' => by
        rw [List.filter_cons_of_pos hx'] at h2
        simp at h2
        rw [List.any_eq_false]
        exact fun y hy => by simpa using h2 y hy
      have h6 := single_step h3 h5 hx h4
      refine ⟨h6, fun hn => ?_⟩
      rcases h6 with h6 | ⟨w, hw, -⟩
      · exact h6.2.1
      · exfalso
        rw [List.any_append, Bool.or_eq_false_iff] at hn
        have h0 := h4 hn.1
        have hxs : isStart x = false := by simpa using hn.2
        by_cases hwk : isWork x = true
        · exact no_work h0 hwk hx
        · rw [(call_keeps (by simpa using hwk) hxs hx).1, h0] at hw
          cases hw) h
  exact (key hs).1

/-- A worker has ended with a code other than 0 and `stop` has not answered yet. -/
def Dead (s : State J) : Prop := s.current = some 0 ∧ ∃ c, c ≠ 0 ∧ s.workers = [.exited c]

theorem dead_step {s s' : State J} {e : Event J} (hd : Dead s) (hs : isStart e = false)
    (h : step out s e = some s') : (∃ r, e = .reply r ∧ r = .systemError ∧ s'.current = none) ∨
      Dead s' ∧ begun [e] = [] := by
  obtain ⟨hc, c, hc0, hw⟩ := hd
  by_cases hwk : isWork e = true
  · exact (ended_no_work hw hwk h).elim
  · have hp : s.process = some (.exited c) := by simp [State.process, hc, hw]
    cases e <;> simp [isWork] at hwk <;> simp [isStart] at hs
    case submit =>
      simp only [step] at h; split_ifs at h; cases h; exact .inr ⟨⟨hc, c, hc0, hw⟩, rfl⟩
    case stop =>
      simp only [step, stopCall] at h; split_ifs at h
      simp only [hc] at h; cases h; exact .inr ⟨⟨rfl, c, hc0, hw⟩, rfl⟩
    case cancel =>
      simp only [step, stopCall] at h; split_ifs at h
      simp only [hc] at h; cases h; exact .inr ⟨⟨rfl, c, hc0, hw⟩, rfl⟩
    case timeout =>
      simp only [step] at h; split_ifs at h; cases h; exact .inr ⟨⟨hc, c, hc0, hw⟩, rfl⟩
    case reply r =>
      cases r with
      | returned =>
        simp only [step, replyStep, hp] at h
        cases hpc : s.pc <;> rw [hpc] at h <;> simp [hc0] at h
      | systemError =>
        refine .inl ⟨_, rfl, rfl, ?_⟩
        simp only [step, replyStep, hp] at h
        cases hpc : s.pc <;> rw [hpc] at h <;> simp [hc0] at h <;> rw [← h]
      | valueError =>
        simp only [step, replyStep, hp] at h
        cases hpc : s.pc <;> rw [hpc] at h <;> simp [Worker.alive] at h

theorem dead_begin (hout : ∀ j, out j ≠ .exits 0) {es : List (Event J)} {s s' : State J} {e : Event J}
    (hI : Single es s) (he : isCrash e = true) (h : step out s e = some s') : Dead s' := by
  have hw : isWork e = true := by cases e <;> simp_all [isCrash, isWork]
  rcases hI with ⟨-, hw0, -⟩ | ⟨w, hw0, hc⟩
  · exact (no_work hw0 hw h).elim
  · rcases hc with hc | ⟨-, hc⟩
    · cases e <;> simp [isCrash] at he <;> simp only [step] at h
      case fail k j =>
        split_ifs at h with h1
        rw [hw0] at h1
        obtain ⟨rfl, -⟩ := worker_one h1
        have := hout j
        split at h <;> cases h
        · exact ⟨hc, 1, by simp, by simp [State.setWorker, hw0]⟩
        · rename_i c hc'
          exact ⟨hc, c, fun h0 => this (h0 ▸ hc'), by simp [State.setWorker, hw0]⟩
      case kill k c =>
        cases hk : s.workers[k]? with
        | none => rw [hk] at h; cases h
        | some x =>
          rw [hk] at h
          simp only at h
          split_ifs at h with h1
          rw [hw0] at hk
          obtain ⟨rfl, -⟩ := worker_one hk
          cases h
          exact ⟨hc, c, h1.2, by simp [State.setWorker, hw0]⟩
    · cases w <;> simp [Worker.alive] at hc
      exact (ended_no_work hw0 hw h).elim

/-! ### Progress -/

/-- How many more steps workers can take. -/
def left (s : State J) : ℕ := 2 * s.queue.length + s.workers.countP (fun w => match w with
  | .running _ => true
  | _ => false)

theorem countP_set_le {α : Type} (p : α → Bool) : ∀ (xs : List α) (k : ℕ) (x y : α), xs[k]? = some x →
    (xs.set k y).countP p + (if p x then 1 else 0) = xs.countP p + (if p y then 1 else 0)
  | [], _, _, _, h => by simp at h
  | z :: xs, 0, x, y, h => by
    simp at h
    subst h
    simp only [List.set_cons_zero, List.countP_cons]
    omega
  | z :: xs, k + 1, x, y, h => by
    simp at h
    have := countP_set_le p xs k x y h
    simp only [List.set_cons_succ, List.countP_cons]
    omega

theorem left_step {s s' : State J} {e : Event J} (he : isProgress e = true) (h : step out s e = some s') :
    left s' + 1 ≤ left s := by
  cases e <;> simp [isProgress] at he <;> simp only [step] at h
  case take k j =>
    split_ifs at h with h1
    cases h
    have h2 := countP_set_le (fun w : Worker J => match w with | .running _ => true | _ => false)
      s.workers k _ (.running j) h1.1
    have h3 := head_cons h1.2
    have h4 : s.queue.length = s.queue.tail.length + 1 := by rw [h3]; simp
    simp only [left, State.setWorker]
    simp at h2
    omega
  case quit k =>
    split_ifs at h with h1
    cases h
    have h2 := countP_set_le (fun w : Worker J => match w with | .running _ => true | _ => false)
      s.workers k _ (.exited 0) h1.1
    have h3 := head_cons h1.2
    have h4 : s.queue.length = s.queue.tail.length + 1 := by rw [h3]; simp
    simp only [left, State.setWorker]
    simp at h2
    omega
  case finish k j =>
    split_ifs at h with h1
    cases h
    have h2 := countP_set_le (fun w : Worker J => match w with | .running _ => true | _ => false)
      s.workers k _ .waiting h1.1
    simp only [left, State.setWorker]
    simp at h2
    omega
  case fail k j =>
    split_ifs at h with h1
    split at h
    · cases h
    · cases h
      have h2 := countP_set_le (fun w : Worker J => match w with | .running _ => true | _ => false)
        s.workers k _ (.exited 1) h1
      simp only [left, State.setWorker]
      simp at h2
      omega
    · rename_i c _
      cases h
      have h2 := countP_set_le (fun w : Worker J => match w with | .running _ => true | _ => false)
        s.workers k _ (.exited c) h1
      simp only [left, State.setWorker]
      simp at h2
      omega

theorem left_run : ∀ {es : List (Event J)} {s s' : State J}, (∀ e ∈ es, isProgress e = true) →
    run out s es = some s' → es.length + left s' ≤ left s
  | [], s, s', _, h => by simp only [run] at h; cases h; simp
  | e :: es, s, s', he, h => by
    simp only [run] at h
    cases hx : step out s e with
    | none => rw [hx] at h; cases h
    | some u =>
      rw [hx] at h
      have h1 := left_step (he e (by simp)) hx
      have h2 := left_run (fun x hx => he x (by simp [hx])) h
      simp only [List.length_cons]
      omega

/-! ### A session with a single `stop` -/

/-- `stop` has been called once and has not answered. -/
def Closing (s : State J) : Prop := s.pc ≠ .idle ∧ s.current = some 0 ∧ ∃ w, s.workers = [w] ∧
  ((∃ q, s.queue = q ++ [.sentinel] ∧ Item.sentinel ∉ q) ∧ w.alive = true ∨
    w = .exited 0 ∧ s.queue = [] ∨ ∃ c, c ≠ 0 ∧ w = .exited c)

theorem closing_step (hout : ∀ j, out j ≠ .exits 0) {s s' : State J} {e : Event J} (hI : Closing s)
    (hs : isStart e = false) (hr : isReply e = false) (h : step out s e = some s') : Closing s' := by
  obtain ⟨hpc, hcur, w, hw, hI⟩ := hI
  by_cases hwk : isWork e = true
  · obtain ⟨hc1, hp1, -⟩ := work_keeps hwk h
    refine ⟨hp1 ▸ hpc, hc1.trans hcur, ?_⟩
    rcases hI with ⟨⟨q, hq, hns⟩, ha⟩ | ⟨rfl, -⟩ | ⟨c, -, rfl⟩
    · cases e <;> simp [isWork] at hwk <;> simp only [step] at h
      case take k j =>
        split_ifs at h with h1
        rw [hw] at h1
        obtain ⟨rfl, -⟩ := worker_one h1.1
        cases h
        refine ⟨.running j, by simp [State.setWorker, hw], .inl ⟨?_, rfl⟩⟩
        cases q with
        | nil => simp [hq] at h1
        | cons x q => exact ⟨q, by simp [hq], fun hm => hns (by simp [hm])⟩
      case quit k =>
        split_ifs at h with h1
        rw [hw] at h1
        obtain ⟨rfl, -⟩ := worker_one h1.1
        cases h
        refine ⟨.exited 0, by simp [State.setWorker, hw], .inr (.inl ⟨rfl, ?_⟩)⟩
        cases q with
        | nil => simp [hq]
        | cons x q => simp [hq] at h1; exact absurd h1.2.symm (fun h0 => hns (by simp [h0]))
      case finish k j =>
        split_ifs at h with h1
        rw [hw] at h1
        obtain ⟨rfl, -⟩ := worker_one h1.1
        cases h
        exact ⟨.waiting, by simp [State.setWorker, hw], .inl ⟨⟨q, hq, hns⟩, rfl⟩⟩
      case fail k j =>
        split_ifs at h with h1
        rw [hw] at h1
        obtain ⟨rfl, -⟩ := worker_one h1
        have := hout j
        split at h <;> cases h
        · exact ⟨.exited 1, by simp [State.setWorker, hw], .inr (.inr ⟨1, by simp, rfl⟩)⟩
        · rename_i c hc
          exact ⟨.exited c, by simp [State.setWorker, hw], .inr (.inr ⟨c, fun h0 => this (h0 ▸ hc), rfl⟩)⟩
      case kill k c =>
        cases hk : s.workers[k]? with
        | none => rw [hk] at h; cases h
        | some x =>
          rw [hk] at h
          simp only at h
          split_ifs at h with h1
          rw [hw] at hk
          obtain ⟨rfl, -⟩ := worker_one hk
          cases h
          exact ⟨.exited c, by simp [State.setWorker, hw], .inr (.inr ⟨c, h1.2, rfl⟩)⟩
    · exact (ended_no_work hw hwk h).elim
    · exact (ended_no_work hw hwk h).elim
  · cases e <;> simp [isWork] at hwk <;> simp [isStart] at hs <;> simp [isReply] at hr <;>
      simp only [step, stopCall, hpc, if_false] at h
    all_goals first
      | (cases h)
      | (split_ifs at h; cases h; exact ⟨by simp, hcur, w, hw, hI⟩)

end OutputProcess
end Verif
