import Verif.Lemmas.OutputProcess

/-!
# Properties of the output process (C50, C51, C52)
-/

set_option autoImplicit false

namespace Verif
open Spec OutputProcess
variable {J : Type} [DecidableEq J] {out : J → Outcome}

/-! ## C50 jobs run once each, in order -/

/-- Whatever happens, in every history of calls, interleavings, failures and crashes: the jobs begun so
far, followed by the jobs still in the queue, are the jobs submitted so far. -/
theorem C50_in_order {es : List (Event J)} {s : State J} (h : run out (init J) es = some s) :
    begun es ++ queued s = submitted es := by
  refine run_inv (I := fun es s => begun es ++ queued s = submitted es) (by rfl)
    (fun es t e t' _ hI he => ?_) h
  rw [begun_append, submitted_append, List.append_assoc, step_jobs he, ← List.append_assoc, hI]

/-- So no job is begun more often than it was submitted, and jobs are begun in the order they were
submitted. -/
theorem C50_begun_prefix {es : List (Event J)} {s : State J} (h : run out (init J) es = some s) :
    begun es <+: submitted es := ⟨_, C50_in_order h⟩

/-- No job ends the worker with exit code 0 (as `sys.exit()` inside a job would). -/
def Spec.NoSilentExit (out : J → Outcome) : Prop := ∀ j, out j ≠ .exits 0

/-- What the session looks like just before the `stop` or `cancel` that ends it returns. -/
theorem session_after (hout : NoSilentExit out) {before during : List (Event J)} {e : Event J}
    (hb : ∀ x ∈ before, isStop x = false) (hs : (before.filter isStart).length = 1)
    (he : isStop e = true) (hd : ∀ x ∈ during, isStart x = false ∧ isEnd x = false) {s : State J}
    (h : run out (init J) (before ++ e :: during) = some s) :
    After (submitted before) (before ++ e :: during) s := by
  obtain ⟨t, ht, h⟩ := run_split h
  have hbef : Before before t := by
    have key := run_inv (out := out) (s := init J)
      (I := fun es s => (∀ x ∈ es, isStop x = false) → (es.filter isStart).length ≤ 1 → Before es s)
      (fun _ _ => ⟨rfl, by simp [init], .inr ⟨rfl, rfl, rfl, rfl, rfl⟩⟩)
      (fun es u x u' _ hI hx h1 h2 => by
        rw [List.filter_append, List.length_append] at h2
        refine before_step hout (hI (fun y hy => h1 y (by simp [hy])) (by omega))
          (h1 x (by simp)) (fun hx' => ?_) hx
        rw [List.filter_cons_of_pos hx'] at h2
        simp at h2
        rw [List.any_eq_false]
        exact fun y hy => by simpa using h2 y hy) ht
    exact key hb hs.le
  have hst : before.any isStart = true := by
    rw [List.any_eq_true]
    obtain ⟨x, hx⟩ := List.exists_mem_of_length_pos (by omega : 0 < (before.filter isStart).length)
    exact ⟨x, (List.mem_filter.mp hx).1, (List.mem_filter.mp hx).2⟩
  obtain ⟨t1, ht1, h⟩ := run_split (es := [e]) h
  have he1 : step out t e = some t1 := by
    simp only [run] at ht1
    cases hx : step out t e with
    | none => rw [hx] at ht1; cases ht1
    | some u => rw [hx] at ht1; exact ht1
  have ha := after_begin hbef hst (C50_in_order ht) he he1
  have key := run_inv (out := out) (s := t1)
    (I := fun es s => (∀ x ∈ es, isStart x = false ∧ isEnd x = false) →
      After (submitted before) (before ++ [e] ++ es) s)
    (fun _ => by simpa using ha)
    (fun es u x u' _ hI hx h1 => by
      rw [← List.append_assoc]
      exact after_step hout (hI fun y hy => h1 y (by simp [hy])) (h1 x (by simp)).1
        (h1 x (by simp)).2 hx) h
  simpa using key hd

/-- **Once each, in order.** Take a session with one `start`, any submissions, and then `stop` or
`cancel`, interleaved in any way with the worker, timeouts and further calls of `stop`. When it
returns normally, the jobs finished are exactly the jobs submitted before that first `stop`, in order. -/
theorem C50_all_done (hout : NoSilentExit out) {before during : List (Event J)} {e : Event J}
    (hb : ∀ x ∈ before, isStop x = false) (hs : (before.filter isStart).length = 1)
    (he : isStop e = true) (hd : ∀ x ∈ during, isStart x = false ∧ isEnd x = false) {s : State J}
    (h : run out (init J) (before ++ e :: during ++ [.reply .returned]) = some s) :
    finished (before ++ e :: during) = submitted before ∧
    begun (before ++ e :: during) = submitted before := by
  obtain ⟨t, ht, h⟩ := run_snoc h
  obtain ⟨hcur, w, hw, ha⟩ := session_after hout hb hs he hd ht
  have hp : t.process = some w := by simp [State.process, hcur, hw]
  simp only [step, replyStep, hp] at h
  rcases ha with ⟨-, -, -, -, hdo⟩ | ⟨-, h1, h2⟩
  · cases hpc : t.pc <;> rw [hpc] at h <;> cases w <;> simp at h
    exact absurd h.1 hdo
  · exact ⟨h2, h1⟩

/-- Two jobs are submitted, the first begins before the second is submitted, the second after `stop`. -/
example : (run (fun _ : ℕ => .returns) (init ℕ) [.start, .submit 1, .take 0 1, .submit 2, .stop true,
    .finish 0 1, .take 0 2, .finish 0 2, .quit 0, .reply .returned]).isSome = true := by decide

/-- A job still to come when `stop` has been called: begun is a proper prefix of submitted. -/
example : ∃ s, run (fun _ : ℕ => .returns) (init ℕ) [.start, .submit 1, .submit 2, .take 0 1] = some s ∧
    queued s = [2] := ⟨_, rfl, by decide⟩

/-! ### `stop` does return, unless it gives up first -/

/-- Once nothing more is submitted, the workers take only a limited number of further steps. -/
theorem C50_work_is_finite {s s' : State J} {es : List (Event J)} (hp : ∀ e ∈ es, isProgress e = true)
    (h : run out s es = some s') : es.length ≤ 2 * s.queue.length + s.workers.length := by
  have h1 := left_run hp h
  have h2 : left s ≤ 2 * s.queue.length + s.workers.length :=
    Nat.add_le_add_left List.countP_le_length _
  omega

/-- Four steps for two jobs and one for the sentinel; the bound is seven. -/
example : (run (fun _ : ℕ => .returns) ⟨[.job 1, .job 2, .sentinel], [.waiting], some 0, .joining true⟩
    [.take 0 1, .finish 0 1, .take 0 2, .finish 0 2, .quit 0]).isSome = true := by decide

/-- No deadlock: in a session in which `stop` is waiting, either a worker can go on or `stop` can answer. -/
theorem C50_no_deadlock (hout : NoSilentExit out) {before during : List (Event J)} {e : Event J}
    (hb : ∀ x ∈ before, isStop x = false) (hs : (before.filter isStart).length = 1)
    (he : isStop e = true) (hd : ∀ x ∈ during, isStart x = false ∧ isEnd x = false) {s : State J}
    (h : run out (init J) (before ++ e :: during) = some s) (hpc : s.pc ≠ .idle) :
    ∃ x, (isProgress x = true ∨ isReply x = true) ∧ (step out s x).isSome = true := by
  obtain ⟨hcur, w, hw, ha⟩ := session_after hout hb hs he hd h
  have hp : s.process = some w := by simp [State.process, hcur, hw]
  cases w with
  | waiting =>
    rcases ha with ⟨rest, tail, hq, -⟩ | ⟨h0, -⟩
    · cases rest with
      | nil => exact ⟨.quit 0, .inl rfl, by simp [step, hw, hq]⟩
      | cons j rest => exact ⟨.take 0 j, .inl rfl, by simp [step, hw, hq]⟩
    · cases h0
  | running j =>
    cases hj : out j with
    | returns => exact ⟨.finish 0 j, .inl rfl, by simp [step, hw, hj]⟩
    | raises => exact ⟨.fail 0 j, .inl rfl, by simp [step, hw, hj]⟩
    | exits c => exact ⟨.fail 0 j, .inl rfl, by simp [step, hw, hj]⟩
  | exited c =>
    cases hpc' : s.pc with
    | idle => exact absurd hpc' hpc
    | joining b =>
      by_cases hc : c = 0
      · exact ⟨.reply .returned, .inr rfl, by simp [step, replyStep, hpc', hp, hc]⟩
      · exact ⟨.reply .systemError, .inr rfl, by simp [step, replyStep, hpc', hp, hc]⟩
    | raising => exact ⟨.reply .systemError, .inr rfl, by simp [step, replyStep, hpc', hp]⟩

/-- A session in which `stop` is waiting for a job. -/
example : ∃ s, run (fun _ : ℕ => .returns) (init ℕ) ([.start, .submit 1] ++ .stop true :: [.take 0 1]) =
    some s ∧ s.pc ≠ .idle := ⟨_, rfl, by decide⟩

/-- **Against C50.** `stop` waits 30 seconds at most. If the jobs take longer, it raises `ValueError` (from
closing a running process) although every job succeeds, and jobs are left undone when it does. -/
theorem C50_timeout_gives_up : ∃ (s : State ℕ), run (fun _ => .returns) (init ℕ)
      [.start, .submit 1, .submit 2, .stop true, .take 0 1, .timeout, .reply .valueError] = some s ∧
    finished ([.start, .submit 1, .submit 2, .stop true, .take 0 1, .timeout] : List (Event ℕ)) = [] ∧
    s.isAlive = true := ⟨_, rfl, rfl, by decide⟩

/-- Whenever `stop` times out while the job runs on, it raises `ValueError`, not `SystemError`. -/
theorem C50_timeout_value_error {s t : State J} (h : step out s .timeout = some t) {r : Reply}
    {u : State J} (hr : step out t (.reply r) = some u) : r = .valueError ∧ u.isAlive = true := by
  simp only [step] at h
  split_ifs at h with h1
  cases h
  have hal := h1.2
  simp only [State.isAlive] at hal
  cases hp : s.process with
  | none => rw [hp] at hal; cases hal
  | some w =>
    rw [hp] at hal
    have hp' : ({ s with pc := .raising } : State J).process = some w := hp
    cases r <;> simp only [step, replyStep, hp'] at hr
    · cases hr
    · cases w <;> simp [Worker.alive] at hal <;> cases hr
    · simp only at hal
      rw [if_pos hal] at hr
      cases hr
      refine ⟨rfl, ?_⟩
      have hp'' : ({ s with pc := .idle } : State J).process = some w := hp
      simp only [State.isAlive, hp'', hal]

/-- A `stop` with `block=False` never times out: the flag works the other way round. -/
theorem C50_block_inverted {s t u : State J} (hc : s.pc = .idle) (h : step out s (.stop false) = some t) :
    step out t .timeout ≠ some u := by
  simp only [step, stopCall, if_pos hc] at h
  have : t.pc = .joining false := by
    cases hx : s.current <;> rw [hx] at h <;> simp at h <;> rw [← h]
  simp [step, this]

/-- While with `block=True` it may. -/
example : ∃ t u : State ℕ, step (fun _ => .returns) ⟨[], [.waiting], some 0, .idle⟩ (.stop true) = some t ∧
    step (fun _ => .returns) t .timeout = some u := ⟨_, _, rfl, rfl⟩

/-! ## C51 a failing job is reported -/

/-- **A failure is reported.** With one `start`, if the worker ends because a job raised, or because it
was killed, then the first answer of `stop` or `cancel` after that is `SystemError`; no job begins
after the failure; and afterwards the process is not alive. -/
theorem C51_failure_reported (hout : NoSilentExit out) {before after : List (Event J)} {e : Event J}
    {r : Reply} (hs : ((before ++ e :: after).filter isStart).length ≤ 1) (he : isCrash e = true)
    (ha : ∀ x ∈ after, isReply x = false) {s : State J}
    (h : run out (init J) (before ++ e :: after ++ [.reply r]) = some s) :
    r = .systemError ∧ begun (before ++ e :: after) = begun before ∧ s.isAlive = false := by
  obtain ⟨t, ht, h⟩ := run_snoc h
  have hes : isStart e = false := by cases e <;> simp [isCrash] at he <;> rfl
  obtain ⟨u, hu, ht⟩ := run_split ht
  have hsing : Single before u := by
    refine single_run ?_ hu
    rw [List.filter_append, List.length_append] at hs
    omega
  obtain ⟨v, hv, ht⟩ := run_split (es := [e]) (es' := after) ht
  have hv1 : step out u e = some v := by
    simp only [run] at hv
    cases hx : step out u e with
    | none => rw [hx] at hv; cases hv
    | some y => rw [hx] at hv; exact hv
  have hdead := dead_begin hout hsing he hv1
  -- the worker was there, so `start` is in the past
  have hst : ∀ x ∈ after, isStart x = false := by
    have h1 : before.any isStart = true := by
      by_contra hn
      simp only [Bool.not_eq_true] at hn
      have hw : isWork e = true := by cases e <;> simp_all [isCrash, isWork]
      have key := run_inv (out := out) (s := init J)
        (I := fun es s => es.any isStart = false → s.workers = []) (fun _ => rfl)
        (fun es u x u' _ hI hx h2 => by
          rw [List.any_append, Bool.or_eq_false_iff] at h2
          have hxs : isStart x = false := by simpa using h2.2
          have h0 := hI h2.1
          by_cases hwk : isWork x = true
          · exact (no_work h0 hwk hx).elim
          · rw [(call_keeps (by simpa using hwk) hxs hx).1, h0]) hu
      exact no_work (key hn) hw hv1
    intro x hx
    by_contra hn
    simp only [Bool.not_eq_false] at hn
    obtain ⟨y, hy, hy'⟩ := List.any_eq_true.mp h1
    have h2 : 0 < (before.filter isStart).length :=
      List.length_pos_of_mem (List.mem_filter.mpr ⟨hy, hy'⟩)
    have h3 : 0 < (after.filter isStart).length :=
      List.length_pos_of_mem (List.mem_filter.mpr ⟨hx, hn⟩)
    rw [List.filter_append, List.length_append, List.filter_cons_of_neg (by simp [hes])] at hs
    omega
  have key := run_inv (out := out) (s := v)
    (I := fun es s => (∀ x ∈ es, isStart x = false ∧ isReply x = false) → Dead s ∧ begun es = [])
    (fun _ => ⟨hdead, rfl⟩)
    (fun es u x u' _ hI hx h1 => by
      obtain ⟨h2, h3⟩ := hI fun y hy => h1 y (by simp [hy])
      rcases dead_step h2 (h1 x (by simp)).1 hx with ⟨r, rfl, -⟩ | ⟨h4, h5⟩
      · have := (h1 (.reply r) (by simp)).2
        cases this
      · exact ⟨h4, by rw [begun_append, h3, h5]; rfl⟩) ht
  obtain ⟨hd, hbe⟩ := key fun x hx => ⟨hst x hx, ha x hx⟩
  rcases dead_step hd rfl h with ⟨r', hr, hr', hc⟩ | ⟨-, -⟩
  · cases hr
    refine ⟨hr', ?_, by simp [State.isAlive, State.process, hc]⟩
    rw [show before ++ e :: after = before ++ ([e] ++ after) from rfl, begun_append, begun_append, hbe]
    have : begun [e] = [] := by cases e <;> simp [isCrash] at he <;> rfl
    rw [this]
    simp
  · -- the answer is not ignored
    obtain ⟨hc, c, hc0, hw⟩ := hd
    have hp : t.process = some (.exited c) := by simp [State.process, hc, hw]
    cases r <;> simp only [step, replyStep, hp] at h <;> cases hpc : t.pc <;>
      simp only [hpc] at h <;> simp [hc0, Worker.alive] at h
    all_goals
      refine ⟨rfl, ?_, by rw [← h]; rfl⟩
      rw [show before ++ e :: after = before ++ ([e] ++ after) from rfl, begun_append, begun_append, hbe]
      have : begun [e] = [] := by cases e <;> simp [isCrash] at he <;> rfl
      rw [this]
      simp

/-- The first of two jobs raises while `stop` is waiting. -/
example : (run (fun j : ℕ => if j = 1 then .raises else .returns) (init ℕ)
    ([.start, .submit 1, .submit 2, .take 0 1] ++ .fail 0 1 :: [.stop true] ++
      [.reply .systemError])).isSome = true := by decide

/-- **Against C51.** A job that calls `sys.exit()` ends the worker with code 0: `stop` returns normally
and the jobs after it are not run. -/
theorem C51_silent_exit : ∃ (s : State ℕ), run (fun j => if j = 1 then .exits 0 else .returns) (init ℕ)
      ([.start, .submit 1, .submit 2, .take 0 1, .fail 0 1, .stop true] ++ [.reply .returned]) = some s ∧
    begun ([.start, .submit 1, .submit 2, .take 0 1, .fail 0 1, .stop true] : List (Event ℕ)) = [1] :=
  ⟨_, rfl, rfl⟩

/-! ## C52 cancelling and restarting -/

/-- **Against C52.** `cancel` drops nothing: whenever it returns normally, every job that was pending has
been run. -/
theorem C52_cancel_runs_pending (hout : NoSilentExit out) {before during : List (Event J)} {b : Bool}
    (hb : ∀ x ∈ before, isStop x = false) (hs : (before.filter isStart).length = 1)
    (hd : ∀ x ∈ during, isStart x = false ∧ isEnd x = false) {s : State J}
    (h : run out (init J) (before ++ .cancel b :: during ++ [.reply .returned]) = some s) :
    finished (before ++ .cancel b :: during) = submitted before :=
  (C50_all_done hout hb hs rfl hd h).1

/-- Both jobs are pending when `cancel` is called, and both are run. -/
theorem C52_cancel_drops_nothing : ∃ (before during : List (Event ℕ)) (s : State ℕ),
    run (fun _ => .returns) (init ℕ) (before ++ .cancel true :: during ++ [.reply .returned]) = some s ∧
    begun before = [] ∧ begun during = [1, 2] :=
  ⟨[.start, .submit 1, .submit 2],
    [.take 0 1, .finish 0 1, .take 0 2, .finish 0 2, .quit 0], _, rfl, rfl, rfl⟩

/-- **Against C52.** After a failure, a restarted process runs a job from before the restart. -/
theorem C52_restart_runs_old_job : ∃ (first second : List (Event ℕ)) (s : State ℕ),
    run (fun j => if j = 1 then .raises else .returns) (init ℕ)
      (first ++ .reply .systemError :: .start :: second) = some s ∧
    submitted second = [3] ∧ begun second = [2] :=
  ⟨[.start, .submit 1, .submit 2, .take 0 1, .fail 0 1, .stop true], [.submit 3, .take 1 2],
    _, rfl, rfl, rfl⟩

/-- **Against C52 and C50.** After a failure, a restarted process may find the `SENTINEL` of the earlier
`stop` in its queue and end: its own `stop` returns normally although the job submitted was not run. -/
theorem C52_restart_loses_job : ∃ (first second : List (Event ℕ)) (s : State ℕ),
    run (fun j => if j = 1 then .raises else .returns) (init ℕ)
      (first ++ .reply .systemError :: .start :: (second ++ [.reply .returned])) = some s ∧
    submitted second = [3] ∧ begun second = [] :=
  ⟨[.start, .submit 1, .take 0 1, .fail 0 1, .stop true], [.submit 3, .stop true, .quit 1],
    _, rfl, rfl, rfl⟩

/-- The part of C52 that holds: if the first session ends with a single `stop` or `cancel` that
returns normally, the queue is left empty, so that whatever happens later (restarts, failures and
crashes included) only jobs submitted later are begun, in order. Missing: sessions that end in an error,
and the dropping of pending jobs. -/
theorem C52_clean_restart_partial (hout : NoSilentExit out) {before during later : List (Event J)}
    {e : Event J} (hb : ∀ x ∈ before, isStop x = false) (hs : (before.filter isStart).length = 1)
    (he : isStop e = true) (hd : ∀ x ∈ during, isStart x = false ∧ isReply x = false) {s : State J}
    (h : run out (init J) (before ++ e :: during ++ [.reply .returned] ++ later) = some s) :
    begun later <+: submitted later := by
  obtain ⟨t, ht, hl⟩ := run_split h
  have hqt : t.queue = [] := by
    obtain ⟨u, hu, hr⟩ := run_snoc ht
    obtain ⟨v, hv, hu'⟩ := run_split (es := before) hu
    obtain ⟨v1, hv1, hu'⟩ := run_split (es := [e]) (es' := during) hu'
    have he1 : step out v e = some v1 := by
      simp only [run] at hv1
      cases hx : step out v e with
      | none => rw [hx] at hv1; cases hv1
      | some y => rw [hx] at hv1; exact hv1
    have hpre : After (submitted before) (before ++ [e]) v1 := by
      refine session_after hout hb hs he (during := []) (by simp) ?_
      rw [run_append, hv]
      exact hv1
    have hbef : Before before v := by
      have key := run_inv (out := out) (s := init J)
        (I := fun es s => (∀ x ∈ es, isStop x = false) → (es.filter isStart).length ≤ 1 → Before es s)
        (fun _ _ => ⟨rfl, by simp [init], .inr ⟨rfl, rfl, rfl, rfl, rfl⟩⟩)
        (fun es u x u' _ hI hx h1 h2 => by
          rw [List.filter_append, List.length_append] at h2
          refine before_step hout (hI (fun y hy => h1 y (by simp [hy])) (by omega))
            (h1 x (by simp)) (fun hx' => ?_) hx
          rw [List.filter_cons_of_pos hx'] at h2
          simp at h2
          rw [List.any_eq_false]
          exact fun y hy => by simpa using h2 y hy) hv
      exact key hb hs.le
    have hcl : Closing v1 := by
      obtain ⟨hcur, w, hw, -⟩ := hpre
      have hcv : v.current = some 0 ∧ ∃ b, v1 = { v with queue := v.queue ++ [.sentinel], pc := .joining b } := by
        cases e <;> simp [isStop] at he <;> simp only [step, stopCall, if_pos hbef.1] at he1 <;>
          cases hx : v.current <;> rw [hx] at he1 <;> simp at he1 <;> rw [← he1] at hcur <;>
          simp at hcur <;> subst hcur <;> exact ⟨rfl, _, by rw [← he1]⟩
      obtain ⟨hcv, b, rfl⟩ := hcv
      refine ⟨by simp, hcv, w, hw, ?_⟩
      cases w with
      | waiting => exact .inl ⟨⟨_, rfl, hbef.2.1⟩, rfl⟩
      | running j => exact .inl ⟨⟨_, rfl, hbef.2.1⟩, rfl⟩
      | exited c =>
        refine .inr (.inr ⟨c, ?_, rfl⟩)
        rintro rfl
        rcases hbef.2.2 with ⟨-, -, w', hw', hdo⟩ | ⟨-, hc, -⟩
        · rw [show v.workers = [.exited 0] from hw] at hw'
          cases hw'
          exact hdo rfl
        · rw [hcv] at hc; cases hc
    have key := run_inv (out := out) (s := v1)
      (I := fun es s => (∀ x ∈ es, isStart x = false ∧ isReply x = false) → Closing s)
      (fun _ => hcl)
      (fun es u x u' _ hI hx h1 => closing_step hout (hI fun y hy => h1 y (by simp [hy]))
        (h1 x (by simp)).1 (h1 x (by simp)).2 hx) hu'
    obtain ⟨hpc, hcur, w, hw, hq⟩ := key hd
    have hp : u.process = some w := by simp [State.process, hcur, hw]
    simp only [step, replyStep, hp] at hr
    rcases hq with ⟨-, hal⟩ | ⟨rfl, hq⟩ | ⟨c, hc, rfl⟩
    · cases hpc' : u.pc <;> rw [hpc'] at hr <;> cases w <;> simp [Worker.alive] at hr hal
    · cases hpc' : u.pc <;> rw [hpc'] at hr <;> simp at hr
      rw [← hr]; exact hq
    · cases hpc' : u.pc <;> rw [hpc'] at hr <;> simp [hc] at hr
  have h1 := C50_in_order ht
  have h2 := C50_in_order h
  rw [show queued t = [] by simp [queued, hqt], List.append_nil] at h1
  rw [begun_append, submitted_append, h1, List.append_assoc] at h2
  exact ⟨_, List.append_cancel_left h2⟩

/-- Two clean sessions. -/
example : (run (fun _ : ℕ => .returns) (init ℕ) ([.start, .submit 1] ++ .stop true ::
    [.take 0 1, .finish 0 1, .quit 0] ++ [.reply .returned] ++
    [.start, .submit 2, .take 1 2])).isSome = true := by decide

/-- Cancelling with a job begun and a job pending: both are done before the call returns. -/
example : (run (fun _ : ℕ => .returns) (init ℕ) ([.start, .submit 1, .submit 2, .take 0 1] ++ .cancel true ::
    [.finish 0 1, .take 0 2, .finish 0 2, .quit 0] ++ [.reply .returned])).isSome = true ∧
    finished ([.start, .submit 1, .submit 2, .take 0 1] ++ .cancel true ::
      [.finish 0 1, .take 0 2, .finish 0 2, .quit 0]) = [1, 2] := by decide

end Verif
