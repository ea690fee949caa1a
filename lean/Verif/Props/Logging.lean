import Verif.Lemmas.Logging

/-!
# C117: the log holds every message of both processes

Whatever the interleaving of the parent, the output process, its feeder and the listener: once `stop` has returned,
`pylesa.log` holds every message of at least INFO of both processes, each once and each side's in its order, and the
console every message of at least its level. The exceptions are proved at the end: a `stop` that times out, a worker
that is killed, and DEBUG messages of a worker that was spawned.
-/

set_option autoImplicit false

namespace Verif
open Logging Spec
variable {T : Type}

theorem atLeast_atLeast (a b : ℕ) (h : a ≤ b) (l : List (Msg T)) : atLeast b (atLeast a l) = atLeast b l := by
  simp only [atLeast, List.filter_filter]
  congr 1
  funext m
  by_cases k : b ≤ m.level
  · simp [k, le_trans h k]
  · simp [k]

theorem workerLevel_eq (meth : StartMethod) (level : ℕ) (h : meth = .fork ∨ 20 ≤ level) :
    workerLevel meth level = min 20 level := by
  rcases h with h | h
  · subst h; simp [workerLevel, foundLevel, rootLevel, info]
  · cases meth
    · simp [workerLevel, foundLevel, rootLevel, info]
    · simp [workerLevel, foundLevel, info, warning, h]

/-- **C117, at every moment.** The file holds exactly the parent's messages of at least INFO (or the level asked for,
if lower), in order, and of the worker's messages the first few, in order; the console likewise with its own level.
No line is written twice and none is made up. -/
theorem C117_log_is_honest (meth : StartMethod) (level : ℕ) (hl : meth = .fork ∨ 20 ≤ level)
    (es : List (Event T)) (s : State T) (h : run meth level (init T) es = some s) :
    linesOf .parent s.file = atLeast (min 20 level) (said .parent es)
      ∧ linesOf .worker s.file <+: atLeast (min 20 level) (said .worker es)
      ∧ linesOf .parent s.console <+: atLeast level (said .parent es)
      ∧ linesOf .worker s.console <+: atLeast level (said .worker es) := by
  have v := inv_run meth level [] es (init T) s (inv_init meth level) h
  rw [List.nil_append] at v
  obtain ⟨lost, w, -⟩ := v.workerFile
  rw [workerLevel_eq meth level hl] at w
  have wf : linesOf .worker s.file <+: atLeast (min 20 level) (said .worker es) := ⟨_, w⟩
  refine ⟨v.parentFile, wf, ?_, ?_⟩
  · have p := v.parentConsole
    rw [v.parentFile, atLeast_atLeast _ _ (rootLevel_le level)] at p
    exact ⟨_, p⟩
  · have p := v.workerConsole
    have q : atLeast level (linesOf .worker s.file) <+: atLeast level (said .worker es) := by
      rw [← atLeast_atLeast (min 20 level) level (min_le_right _ _) (said .worker es)]
      exact wf.filter _
    exact List.IsPrefix.trans ⟨_, p⟩ q

/-- **C117, once `stop` has returned** and if the worker was not killed: every message of the worker is in the file,
and every one of at least the console's level on the console, in order. -/
theorem C117_nothing_is_lost (meth : StartMethod) (level : ℕ) (hl : meth = .fork ∨ 20 ≤ level)
    (es : List (Event T)) (s : State T) (h : run meth level (init T) es = some s)
    (hs : Event.stopped ∈ es) (hk : Event.workerKilled ∉ es) :
    linesOf .worker s.file = atLeast (min 20 level) (said .worker es)
      ∧ linesOf .worker s.console = atLeast level (said .worker es) := by
  have v := inv_run meth level [] es (init T) s (inv_init meth level) h
  rw [List.nil_append] at v
  obtain ⟨lost, w, wl⟩ := v.workerFile
  obtain ⟨d1, d2, d3, -⟩ := v.done hs
  rw [workerLevel_eq meth level hl, wl hk, d3, v.quiet d1] at w
  have w' : linesOf .worker s.file = atLeast (min 20 level) (said .worker es) := by simpa using w
  refine ⟨w', ?_⟩
  have p := v.workerConsole
  rw [d2, w', atLeast_atLeast _ _ (min_le_right _ _)] at p
  simpa [held] using p

/-- The parent's own messages of at least the console's level are all on the console as soon as the parent goes on. -/
theorem C117_parent_on_console (meth : StartMethod) (level : ℕ) (es : List (Event T)) (s : State T)
    (h : run meth level (init T) es = some s) (hh : s.hand = none) :
    linesOf .parent s.console = atLeast level (said .parent es) := by
  have v := inv_run meth level [] es (init T) s (inv_init meth level) h
  rw [List.nil_append] at v
  have p := v.parentConsole
  rw [v.parentFile, atLeast_atLeast _ _ (rootLevel_le level), hh] at p
  simpa using p

/-- Entries the listener has still to handle. -/
def Logging.State.left (s : State T) : ℕ := 2 * s.pipe.length + (held s.listener).length

theorem joining_step (meth : StartMethod) (level : ℕ) (es : List (Event T)) (s s' : State T) (e : Event T)
    (v : Inv meth level es s) (hj : s.pc = .joining) (he : e ≠ .stopped)
    (h : step meth level s e = some s') : s'.pc = .joining ∧ s'.left < s.left := by
  obtain ⟨j1, j2, -⟩ := v.joining hj
  have j3 := v.quiet j1
  cases e with
  | listen =>
    simp only [step, hj] at h
    split at h
    · contradiction
    · rename_i m rest k1 k2 k3
      cases h
      simp [Logging.State.left, k1, k2, held]; omega
    · rename_i rest k1 k2 k3
      cases h
      simp [Logging.State.left, k1, k2, held]
    · cases h
  | listenerConsole =>
    simp only [step, hj] at h
    split at h
    · contradiction
    · rename_i m k1 k2
      cases h
      simp [Logging.State.left, k1, held]
    · cases h
  | logs sd m => cases sd <;> simp [step, hj, j1] at h
  | stopped => exact absurd rfl he
  | _ => simp [step, hj, j1, j2, j3] at h

/-- **C117, `stop` returns.** While the parent waits for the listener something can always happen, and only finitely
much: twice the number of messages in the queue and one more, whatever the order. -/
theorem C117_stop_returns (meth : StartMethod) (level : ℕ) (es : List (Event T)) (s : State T)
    (h : run meth level (init T) es = some s) (hj : s.pc = .joining) :
    (∃ e s', step meth level s e = some s')
      ∧ ∀ es' s', run meth level s es' = some s' → Event.stopped ∉ es' →
        es'.length ≤ 2 * s.pipe.length + 1 := by
  have v := inv_run meth level [] es (init T) s (inv_init meth level) h
  rw [List.nil_append] at v
  constructor
  · obtain ⟨-, -, ⟨k1, k2, ms, k3⟩ | ⟨k1, k2⟩⟩ := v.joining hj
    · cases hl : s.listener with
      | none => exact absurd hl k2
      | stopped => exact absurd hl k1
      | holding m => exact ⟨.listenerConsole, _, by simp only [step, hj, hl]; rfl⟩
      | waiting =>
        cases ms with
        | nil => exact ⟨.listen, _, by simp only [step, hj, hl, k3]; rfl⟩
        | cons m rest => exact ⟨.listen, _, by simp only [step, hj, hl, k3]; rfl⟩
    · exact ⟨.stopped, _, by simp only [step, hj, k1]; rfl⟩
  · have key : ∀ (es' : List (Event T)) (es : List (Event T)) (s s' : State T), Inv meth level es s →
        s.pc = .joining → run meth level s es' = some s' → Event.stopped ∉ es' → es'.length ≤ s.left := by
      intro es'
      induction es' with
      | nil => intros; simp
      | cons e rest ih =>
        intro es s s' v hj hr hn
        simp only [run] at hr
        split at hr
        · cases hr
        · rename_i s1 h1
          obtain ⟨a, b⟩ := joining_step meth level es s s1 e v hj (by rintro rfl; simp at hn) h1
          have := ih (es ++ [e]) s1 s' (inv_step meth level es s s1 e v h1) a hr
            (fun c => hn (List.mem_cons_of_mem _ c))
          simp only [List.length_cons]; omega
    intro es' s' hr hn
    have := key es' es s s' v hj hr hn
    have hb : (held s.listener).length ≤ 1 := by cases s.listener <;> simp [held]
    unfold Logging.State.left at this
    omega

/-- A run as `main` makes it, with the level WARNING: messages of both sides at three levels, interleaved. -/
def sampleLog : List (Event ℕ) :=
  [.logs .parent ⟨20, 1⟩, .parentConsole, .start, .logs .worker ⟨20, 2⟩, .logs .worker ⟨40, 3⟩, .feed,
    .logs .parent ⟨30, 4⟩, .listen, .parentConsole, .logs .worker ⟨10, 5⟩, .feed, .listenerConsole, .stop,
    .logs .worker ⟨30, 6⟩, .feed, .workerEnds, .closes, .listen, .listenerConsole, .listen, .listenerConsole,
    .listen, .stopped, .logs .parent ⟨20, 7⟩, .parentConsole, .exit]

/-- The hypotheses of `C117_nothing_is_lost` are met, and what is written is what one expects. -/
example : ∃ s, run .spawn defaultLevel (init ℕ) sampleLog = some s ∧ Event.stopped ∈ sampleLog
    ∧ Event.workerKilled ∉ sampleLog ∧ linesOf .worker s.file = [⟨20, 2⟩, ⟨40, 3⟩, ⟨30, 6⟩]
    ∧ linesOf .parent s.file = [⟨20, 1⟩, ⟨30, 4⟩, ⟨20, 7⟩]
    ∧ s.console = [(.parent, ⟨30, 4⟩), (.worker, ⟨40, 3⟩), (.worker, ⟨30, 6⟩)] := by
  refine ⟨(run .spawn defaultLevel (init ℕ) sampleLog).get (by decide +kernel), by simp, ?_⟩
  decide +kernel

/-- The hypotheses of `C117_stop_returns` are met with messages in the queue. -/
example : ∃ s, run .fork defaultLevel (init ℕ) (sampleLog.take 17) = some s ∧ s.pc = .joining
    ∧ s.pipe.length = 3 := by
  refine ⟨(run .fork defaultLevel (init ℕ) (sampleLog.take 17)).get (by decide +kernel), by simp, ?_⟩
  decide +kernel

/-- **Counterexample.** If `stop` times out, `close()` raises before the listener is stopped, and a message of the
worker, even an error, can be missing when the program has ended, although nothing was killed. -/
theorem C117_timeout_can_lose : ∃ (es : List (Event ℕ)) (s : State ℕ),
    run .fork defaultLevel (init ℕ) es = some s ∧ s.pc = .gone ∧ Event.closeFails ∈ es
      ∧ Event.workerKilled ∉ es ∧ said .worker es = [⟨40, 1⟩] ∧ s.file = [] ∧ s.console = [] :=
  ⟨[.start, .stop, .closeFails, .logs .worker ⟨40, 1⟩, .feed, .workerEnds, .exit],
    ⟨[some ⟨40, 1⟩], [], .ended, .waiting, .gone, none, [], []⟩, by decide +kernel⟩

/-- **Counterexample.** A worker that is killed takes its latest messages with it, though `stop` then returns. -/
theorem C117_kill_can_lose : ∃ (es : List (Event ℕ)) (s : State ℕ),
    run .fork defaultLevel (init ℕ) es = some s ∧ Event.stopped ∈ es ∧ said .worker es = [⟨40, 1⟩]
      ∧ s.file = [] :=
  ⟨[.start, .logs .worker ⟨40, 1⟩, .workerKilled, .stop, .closes, .listen, .stopped],
    ⟨[], [], .killed, .stopped, .after, none, [], []⟩, by decide +kernel⟩

/-- **Counterexample.** With the level DEBUG a spawned worker drops the DEBUG messages the parent keeps: it takes
its level from its own root logger, not from the parent's (process.py L28-29). -/
theorem C117_spawned_drops_debug : ∃ (es : List (Event ℕ)) (s : State ℕ),
    run .spawn 10 (init ℕ) es = some s ∧ Event.stopped ∈ es ∧ Event.workerKilled ∉ es
      ∧ said .worker es = [⟨10, 1⟩] ∧ said .parent es = [⟨10, 2⟩] ∧ s.file = [(.parent, ⟨10, 2⟩)] :=
  ⟨[.logs .parent ⟨10, 2⟩, .parentConsole, .start, .logs .worker ⟨10, 1⟩, .workerEnds, .stop, .closes, .listen,
      .stopped],
    ⟨[], [], .ended, .stopped, .after, none, [(.parent, ⟨10, 2⟩)], [(.parent, ⟨10, 2⟩)]⟩, by decide +kernel⟩

end Verif
