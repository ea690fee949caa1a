import Verif.Props.Logging

/-!
# C117 as `main` is called without a level

When no level is asked for, the console shows the warnings and the errors of the parent and of the worker, and
nothing below; the file has the information too. The numbers are those of Python's `logging`: 20 for INFO, 30 for
WARNING.
-/

set_option autoImplicit false

namespace Verif
open Logging Spec
variable {T : Type}

/-- **C117, with the level that is used when none is given.** However the worker was made and whatever the
interleaving, once `stop` has returned and if the worker was not killed, the file has every message of the two sides of
at least INFO (20), and the console every message of at least WARNING (30), each side's in its order. -/
theorem C117_default_level (meth : StartMethod) (es : List (Event T)) (s : State T)
    (h : run meth defaultLevel (init T) es = some s) (hs : Event.stopped ∈ es) (hk : Event.workerKilled ∉ es)
    (hh : s.hand = none) :
    (∀ side, linesOf side s.file = atLeast 20 (said side es)) ∧
    (∀ side, linesOf side s.console = atLeast 30 (said side es)) := by
  have hd : defaultLevel = 30 := rfl
  rw [hd] at h
  obtain ⟨w1, w2⟩ := C117_nothing_is_lost meth 30 (.inr (by norm_num)) es s h hs hk
  obtain ⟨p1, -⟩ := C117_log_is_honest meth 30 (.inr (by norm_num)) es s h
  have p2 := C117_parent_on_console meth 30 es s h hh
  exact ⟨fun side => by cases side <;> assumption, fun side => by cases side <;> assumption⟩

/-- The hypotheses are met by a run with messages of both sides at three levels. -/
example : ∃ s, run .spawn defaultLevel (init ℕ) sampleLog = some s ∧ Event.stopped ∈ sampleLog ∧
    Event.workerKilled ∉ sampleLog ∧ s.hand = none ∧ linesOf .parent s.console = [⟨30, 4⟩] := by
  refine ⟨(run .spawn defaultLevel (init ℕ) sampleLog).get (by decide +kernel), by simp, ?_⟩
  decide +kernel

end Verif
