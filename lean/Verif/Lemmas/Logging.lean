import Verif.Spec.Logging
import Mathlib.Tactic.SplitIfs

/-!
# Helper lemmas for the log
-/

set_option autoImplicit false

namespace Verif
namespace Logging
open Spec
variable {T : Type}

theorem linesOf_append (s : Side) (a b : List (Side × Msg T)) :
    linesOf s (a ++ b) = linesOf s a ++ linesOf s b := by
  simp [linesOf, List.filterMap_append]

theorem said_append (s : Side) (a b : List (Event T)) : said s (a ++ b) = said s a ++ said s b := by
  simp [said, List.filterMap_append]

theorem atLeast_append (n : ℕ) (a b : List (Msg T)) : atLeast n (a ++ b) = atLeast n a ++ atLeast n b := by
  simp [atLeast]

theorem rootLevel_le (level : ℕ) : rootLevel level ≤ level := min_le_right _ _

/-- The message in the listener's hand. -/
def held : Listener T → List (Msg T)
  | .holding m => [m]
  | _ => []

/-- What holds after every execution `es`. -/
structure Inv (meth : StartMethod) (level : ℕ) (es : List (Event T)) (s : State T) : Prop where
  parentFile : linesOf .parent s.file = atLeast (rootLevel level) (said .parent es)
  parentConsole : linesOf .parent s.console ++ atLeast level s.hand.toList
    = atLeast level (linesOf .parent s.file)
  workerFile : ∃ lost, linesOf .worker s.file ++ (s.pipe.filterMap id ++ (s.buffer ++ lost))
    = atLeast (workerLevel meth level) (said .worker es) ∧ (Event.workerKilled ∉ es → lost = [])
  workerConsole : linesOf .worker s.console ++ atLeast level (held s.listener)
    = atLeast level (linesOf .worker s.file)
  quiet : s.worker ≠ .running → s.buffer = []
  killed : s.worker = .running → Event.workerKilled ∉ es
  open_ : s.pc = .before ∨ s.pc = .running ∨ s.pc = .stopping →
    none ∉ s.pipe ∧ s.listener ≠ .stopped
  fresh : s.pc = .before → s.worker = .none ∧ s.listener = .none ∧ s.pipe = []
  live : s.pc = .running ∨ s.pc = .stopping → s.listener ≠ .none
  joining : s.pc = .joining → s.worker ≠ .running ∧ s.hand = none ∧
    ((s.listener ≠ .stopped ∧ s.listener ≠ .none ∧ ∃ ms : List (Msg T), s.pipe = ms.map some ++ [none])
      ∨ (s.listener = .stopped ∧ s.pipe = []))
  done : Event.stopped ∈ es → s.worker ≠ .running ∧ s.listener = .stopped ∧ s.pipe = [] ∧
    (s.pc = .after ∨ s.pc = .gone)
  before : s.worker = .none → Event.workerKilled ∉ es
  after : s.pc = .after → Event.stopped ∈ es

theorem inv_init (meth : StartMethod) (level : ℕ) : Inv meth level ([] : List (Event T)) (init T) := by
  constructor <;> simp [init, linesOf, said, atLeast, held]

theorem linesOf_single (s s' : Side) (m : Msg T) : linesOf s [(s', m)] = if s' = s then [m] else [] := by
  by_cases h : s' = s <;> simp [linesOf, h]

theorem linesOf_onConsole (level : ℕ) (s s' : Side) (m : Msg T) (l : List (Side × Msg T)) :
    linesOf s (onConsole level (s', m) l) = linesOf s l ++ if s' = s then atLeast level [m] else [] := by
  unfold onConsole
  by_cases h : level ≤ m.level <;> by_cases h' : s' = s <;>
    simp [linesOf_append, linesOf_single, atLeast, h, h']

theorem said_logs (s s' : Side) (m : Msg T) (es : List (Event T)) :
    said s (es ++ [.logs s' m]) = said s es ++ if s' = s then [m] else [] := by
  by_cases h : s' = s <;> simp [said, h]

theorem atLeast_pos {n : ℕ} {m : Msg T} (h : n ≤ m.level) : atLeast n [m] = [m] := by simp [atLeast, h]

theorem atLeast_neg {n : ℕ} {m : Msg T} (h : ¬ n ≤ m.level) : atLeast n [m] = [] := by
  simp [atLeast]; omega

/-- An event that is no message adds nothing to what was said. -/
theorem said_other (s : Side) (es : List (Event T)) (e : Event T) (h : ∀ s' m, e ≠ .logs s' m) :
    said s (es ++ [e]) = said s es := by
  rw [said_append]
  cases e <;> simp [said] at h ⊢

@[simp] theorem atLeast_nil (n : ℕ) : atLeast n ([] : List (Msg T)) = [] := rfl

theorem all_some (l : List (Option (Msg T))) (h : none ∉ l) : ∃ ms : List (Msg T), l = ms.map some := by
  induction l with
  | nil => exact ⟨[], rfl⟩
  | cons x xs ih =>
    cases x with
    | none => simp at h
    | some m =>
      obtain ⟨ms, w⟩ := ih (fun c => h (List.mem_cons_of_mem _ c))
      exact ⟨m :: ms, by simp [w]⟩

theorem inv_start (meth : StartMethod) (level : ℕ) (es : List (Event T)) (s s' : State T)
    (v : Inv meth level es s) (h : step meth level s .start = some s') :
    Inv meth level (es ++ [.start]) s' := by
  obtain ⟨v1, v2, ⟨lost, v3, v3'⟩, v4, v5, v6, v7, v8, v9, v10, v11, v12, v13⟩ := v
  simp only [step] at h
  split_ifs at h with k
  cases h
  obtain ⟨k1, k2⟩ := k
  obtain ⟨w1, w2, w3⟩ := v8 k1
  have nk := v12 w1
  have ns : Event.stopped ∉ es := fun c => by have := (v11 c).2.1; rw [w2] at this; cases this
  have nb := v5 (by rw [w1]; simp)
  refine ⟨?_, ?_, ⟨lost, ?_, ?_⟩, ?_, ?_, ?_, ?_, ?_, ?_, ?_, ?_, ?_, ?_⟩ <;>
    simp_all [said_other, held]

theorem inv_logs (meth : StartMethod) (level : ℕ) (es : List (Event T)) (s s' : State T) (sd : Side) (m : Msg T)
    (v : Inv meth level es s) (h : step meth level s (.logs sd m) = some s') :
    Inv meth level (es ++ [.logs sd m]) s' := by
  obtain ⟨v1, v2, ⟨lost, v3, v3'⟩, v4, v5, v6, v7, v8, v9, v10, v11, v12, v13⟩ := v
  cases sd with
  | parent =>
    simp only [step] at h
    split_ifs at h with k k'
    · cases h
      obtain ⟨k1, k2, k3⟩ := k
      refine ⟨?_, ?_, ⟨lost, ?_, ?_⟩, ?_, ?_, ?_, ?_, ?_, ?_, ?_, ?_, ?_, ?_⟩ <;>
        simp_all [said_logs, linesOf_append, linesOf_single, atLeast_append, atLeast_pos]
    · cases h
      refine ⟨?_, ?_, ⟨lost, ?_, ?_⟩, ?_, ?_, ?_, ?_, ?_, ?_, ?_, ?_, ?_, ?_⟩ <;>
        simp_all [said_logs, atLeast_append, atLeast_neg]
  | worker =>
    simp only [step] at h
    split_ifs at h with k k'
    · cases h
      have nl := v3' (v6 k)
      refine ⟨?_, ?_, ⟨lost, ?_, ?_⟩, ?_, ?_, ?_, ?_, ?_, ?_, ?_, ?_, ?_, ?_⟩ <;>
        simp_all [said_logs, atLeast_append, atLeast_pos]
      all_goals simp only [← v3, List.append_assoc]
    · cases h
      refine ⟨?_, ?_, ⟨lost, ?_, ?_⟩, ?_, ?_, ?_, ?_, ?_, ?_, ?_, ?_, ?_, ?_⟩ <;>
        simp_all [said_logs, atLeast_append, atLeast_neg]

theorem inv_parentConsole (meth : StartMethod) (level : ℕ) (es : List (Event T)) (s s' : State T)
    (v : Inv meth level es s) (h : step meth level s .parentConsole = some s') :
    Inv meth level (es ++ [.parentConsole]) s' := by
  obtain ⟨v1, v2, ⟨lost, v3, v3'⟩, v4, v5, v6, v7, v8, v9, v10, v11, v12, v13⟩ := v
  simp only [step] at h
  split at h
  · rename_i m k
    cases h
    rw [k] at v2
    refine ⟨?_, ?_, ⟨lost, ?_, ?_⟩, ?_, ?_, ?_, ?_, ?_, ?_, ?_, ?_, ?_, ?_⟩ <;>
      simp_all [said_other, linesOf_onConsole]
  · cases h

theorem inv_feed (meth : StartMethod) (level : ℕ) (es : List (Event T)) (s s' : State T)
    (v : Inv meth level es s) (h : step meth level s .feed = some s') :
    Inv meth level (es ++ [.feed]) s' := by
  obtain ⟨v1, v2, ⟨lost, v3, v3'⟩, v4, v5, v6, v7, v8, v9, v10, v11, v12, v13⟩ := v
  simp only [step] at h
  split at h
  · rename_i m rest k
    cases h
    have wr : s.worker = .running := by
      by_contra c
      rw [v5 c] at k; cases k
    refine ⟨?_, ?_, ⟨lost, ?_, ?_⟩, ?_, ?_, ?_, ?_, ?_, ?_, ?_, ?_, ?_, ?_⟩ <;>
      simp_all [said_other]
  · cases h

theorem inv_listen (meth : StartMethod) (level : ℕ) (es : List (Event T)) (s s' : State T)
    (v : Inv meth level es s) (h : step meth level s .listen = some s') :
    Inv meth level (es ++ [.listen]) s' := by
  obtain ⟨v1, v2, ⟨lost, v3, v3'⟩, v4, v5, v6, v7, v8, v9, v10, v11, v12, v13⟩ := v
  simp only [step] at h
  split at h
  · cases h
  · rename_i m rest k1 k2 k3
    cases h
    refine ⟨?_, ?_, ⟨lost, ?_, ?_⟩, ?_, ?_, ?_, ?_, ?_, ?_, ?_, ?_, ?_, ?_⟩ <;>
      simp_all [said_other, linesOf_append, linesOf_single, atLeast_append, held]
    intro c
    obtain ⟨-, -, ms, w⟩ := v10 c
    cases ms with
    | nil => simp at w
    | cons x xs => exact ⟨xs, by simpa using (List.cons.inj w).2⟩
  · rename_i rest k1 k2 k3
    cases h
    refine ⟨?_, ?_, ⟨lost, ?_, ?_⟩, ?_, ?_, ?_, ?_, ?_, ?_, ?_, ?_, ?_, ?_⟩ <;>
      simp_all [said_other, held]
    intro c
    obtain ⟨-, -, ms, w⟩ := v10 c
    cases ms with
    | nil => simpa using w
    | cons x xs => simp at w
  · cases h

theorem inv_listenerConsole (meth : StartMethod) (level : ℕ) (es : List (Event T)) (s s' : State T)
    (v : Inv meth level es s) (h : step meth level s .listenerConsole = some s') :
    Inv meth level (es ++ [.listenerConsole]) s' := by
  obtain ⟨v1, v2, ⟨lost, v3, v3'⟩, v4, v5, v6, v7, v8, v9, v10, v11, v12, v13⟩ := v
  simp only [step] at h
  split at h
  · cases h
  · rename_i m k1 k2
    cases h
    refine ⟨?_, ?_, ⟨lost, ?_, ?_⟩, ?_, ?_, ?_, ?_, ?_, ?_, ?_, ?_, ?_, ?_⟩ <;>
      simp_all [said_other, linesOf_onConsole, held]
  · cases h

theorem inv_workerEnds (meth : StartMethod) (level : ℕ) (es : List (Event T)) (s s' : State T)
    (v : Inv meth level es s) (h : step meth level s .workerEnds = some s') :
    Inv meth level (es ++ [.workerEnds]) s' := by
  obtain ⟨v1, v2, ⟨lost, v3, v3'⟩, v4, v5, v6, v7, v8, v9, v10, v11, v12, v13⟩ := v
  simp only [step] at h
  split_ifs at h with k
  cases h
  obtain ⟨k1, k2⟩ := k
  refine ⟨?_, ?_, ⟨lost, ?_, ?_⟩, ?_, ?_, ?_, ?_, ?_, ?_, ?_, ?_, ?_, ?_⟩ <;> simp_all [said_other]

theorem inv_workerKilled (meth : StartMethod) (level : ℕ) (es : List (Event T)) (s s' : State T)
    (v : Inv meth level es s) (h : step meth level s .workerKilled = some s') :
    Inv meth level (es ++ [.workerKilled]) s' := by
  obtain ⟨v1, v2, ⟨lost, v3, v3'⟩, v4, v5, v6, v7, v8, v9, v10, v11, v12, v13⟩ := v
  simp only [step] at h
  split_ifs at h with k
  cases h
  refine ⟨?_, ?_, ⟨s.buffer ++ lost, ?_, ?_⟩, ?_, ?_, ?_, ?_, ?_, ?_, ?_, ?_, ?_, ?_⟩ <;>
    simp_all [said_other]

theorem inv_stop (meth : StartMethod) (level : ℕ) (es : List (Event T)) (s s' : State T)
    (v : Inv meth level es s) (h : step meth level s .stop = some s') :
    Inv meth level (es ++ [.stop]) s' := by
  obtain ⟨v1, v2, ⟨lost, v3, v3'⟩, v4, v5, v6, v7, v8, v9, v10, v11, v12, v13⟩ := v
  simp only [step] at h
  split_ifs at h with k
  cases h
  obtain ⟨k1, k2⟩ := k
  refine ⟨?_, ?_, ⟨lost, ?_, ?_⟩, ?_, ?_, ?_, ?_, ?_, ?_, ?_, ?_, ?_, ?_⟩ <;> simp_all [said_other]

theorem inv_closeFails (meth : StartMethod) (level : ℕ) (es : List (Event T)) (s s' : State T)
    (v : Inv meth level es s) (h : step meth level s .closeFails = some s') :
    Inv meth level (es ++ [.closeFails]) s' := by
  obtain ⟨v1, v2, ⟨lost, v3, v3'⟩, v4, v5, v6, v7, v8, v9, v10, v11, v12, v13⟩ := v
  simp only [step] at h
  split_ifs at h with k
  cases h
  obtain ⟨k1, k2, k3⟩ := k
  refine ⟨?_, ?_, ⟨lost, ?_, ?_⟩, ?_, ?_, ?_, ?_, ?_, ?_, ?_, ?_, ?_, ?_⟩ <;> simp_all [said_other]

theorem inv_closes (meth : StartMethod) (level : ℕ) (es : List (Event T)) (s s' : State T)
    (v : Inv meth level es s) (h : step meth level s .closes = some s') :
    Inv meth level (es ++ [.closes]) s' := by
  obtain ⟨v1, v2, ⟨lost, v3, v3'⟩, v4, v5, v6, v7, v8, v9, v10, v11, v12, v13⟩ := v
  simp only [step] at h
  split_ifs at h with k
  cases h
  obtain ⟨k1, k2, k3⟩ := k
  refine ⟨?_, ?_, ⟨lost, ?_, ?_⟩, ?_, ?_, ?_, ?_, ?_, ?_, ?_, ?_, ?_, ?_⟩ <;> simp_all [said_other]
  exact all_some s.pipe v7.1

theorem inv_stopped (meth : StartMethod) (level : ℕ) (es : List (Event T)) (s s' : State T)
    (v : Inv meth level es s) (h : step meth level s .stopped = some s') :
    Inv meth level (es ++ [.stopped]) s' := by
  obtain ⟨v1, v2, ⟨lost, v3, v3'⟩, v4, v5, v6, v7, v8, v9, v10, v11, v12, v13⟩ := v
  simp only [step] at h
  split at h
  · rename_i k1 k2
    cases h
    refine ⟨?_, ?_, ⟨lost, ?_, ?_⟩, ?_, ?_, ?_, ?_, ?_, ?_, ?_, ?_, ?_, ?_⟩ <;> simp_all [said_other]
  · cases h

theorem inv_exit (meth : StartMethod) (level : ℕ) (es : List (Event T)) (s s' : State T)
    (v : Inv meth level es s) (h : step meth level s .exit = some s') :
    Inv meth level (es ++ [.exit]) s' := by
  obtain ⟨v1, v2, ⟨lost, v3, v3'⟩, v4, v5, v6, v7, v8, v9, v10, v11, v12, v13⟩ := v
  simp only [step] at h
  split_ifs at h with k
  cases h
  obtain ⟨k1, k2, k3, k4⟩ := k
  refine ⟨?_, ?_, ⟨lost, ?_, ?_⟩, ?_, ?_, ?_, ?_, ?_, ?_, ?_, ?_, ?_, ?_⟩ <;> simp_all [said_other]

theorem inv_step (meth : StartMethod) (level : ℕ) (es : List (Event T)) (s s' : State T) (e : Event T)
    (v : Inv meth level es s) (h : step meth level s e = some s') : Inv meth level (es ++ [e]) s' := by
  cases e with
  | start => exact inv_start meth level es s s' v h
  | logs sd m => exact inv_logs meth level es s s' sd m v h
  | parentConsole => exact inv_parentConsole meth level es s s' v h
  | feed => exact inv_feed meth level es s s' v h
  | listen => exact inv_listen meth level es s s' v h
  | listenerConsole => exact inv_listenerConsole meth level es s s' v h
  | workerEnds => exact inv_workerEnds meth level es s s' v h
  | workerKilled => exact inv_workerKilled meth level es s s' v h
  | stop => exact inv_stop meth level es s s' v h
  | closeFails => exact inv_closeFails meth level es s s' v h
  | closes => exact inv_closes meth level es s s' v h
  | stopped => exact inv_stopped meth level es s s' v h
  | exit => exact inv_exit meth level es s s' v h

theorem inv_run (meth : StartMethod) (level : ℕ) (es es' : List (Event T)) (s s' : State T)
    (v : Inv meth level es s) (h : run meth level s es' = some s') : Inv meth level (es ++ es') s' := by
  induction es' generalizing es s with
  | nil => simp only [run, Option.some.injEq] at h; subst h; simpa using v
  | cons e rest ih =>
    simp only [run] at h
    split at h
    · cases h
    · rename_i s1 h1
      have := ih (es ++ [e]) s1 (inv_step meth level es s s1 e v h1) h
      simpa using this

end Logging
end Verif
