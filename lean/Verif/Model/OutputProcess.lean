import Verif.Base

/-!
# The output process: `/repo/pylesa/mp/process.py`

`OutputProcess` as a labelled transition system. The parent and the workers interleave freely; an
execution is a list of events. Line numbers refer to `/repo/pylesa/mp/process.py`.

Assumed of `multiprocessing` (trusted base): `Queue` is a first-in first-out buffer from which each item
is taken once; a worker whose function raises ends with exit code 1, one that calls `sys.exit(c)` with
code `c`, one that is killed with a code other than 0; `join(timeout)` returns when the worker has ended
or, with a timeout, possibly before; `close()` of a running process raises `ValueError`. Jobs are lists
and so never equal to the text `SENTINEL` (L34). Logging is in `Model/Logging.lean`, and `Queue.empty()` (L43, L77,
L85) is a test without effect whose answer is thrown away. `stop` is modelled with the default timeout.
-/

set_option autoImplicit false

namespace Verif
namespace OutputProcess

/-- An entry of the job queue: a job (L57) or `SENTINEL` (L62). -/
inductive Item (J : Type) where
  | job (j : J)
  | sentinel
  deriving DecidableEq

/-- How the function given to `start` ends on a job. -/
inductive Outcome where
  | returns
  | raises
  | exits (code : ℤ)
  deriving DecidableEq

/-- A worker process: waiting at L33, inside `func(*job)` at L36, or ended. -/
inductive Worker (J : Type) where
  | waiting
  | running (j : J)
  | exited (code : ℤ)
  deriving DecidableEq

/-- Where the parent is: outside `stop`, inside `join` at L68 (`bounded` if it may time out), or past
L70 with `SystemError` on its way to the `finally` block. -/
inductive Pc where
  | idle
  | joining (bounded : Bool)
  | raising
  deriving DecidableEq

/-- How `stop` or `cancel` ends. -/
inductive Reply where
  | returned
  | systemError
  | valueError
  deriving DecidableEq

/-- What can happen. Events with a number are those of that worker (workers are numbered in the order
they were started). -/
inductive Event (J : Type) where
  | start
  | submit (j : J)
  | stop (block : Bool)
  | cancel (block : Bool)
  | timeout
  | reply (r : Reply)
  | take (w : ℕ) (j : J)
  | quit (w : ℕ)
  | finish (w : ℕ) (j : J)
  | fail (w : ℕ) (j : J)
  | kill (w : ℕ) (code : ℤ)
  deriving DecidableEq

/-- The object: its queue, the workers ever started, which of them is `_process`, and the parent. -/
structure State (J : Type) where
  queue : List (Item J)
  workers : List (Worker J)
  current : Option ℕ
  pc : Pc
  deriving DecidableEq

/-- `__init__`, L19-23. -/
def init (J : Type) : State J := ⟨[], [], none, .idle⟩

variable {J : Type}

/-- `is_alive` of a worker that was started. -/
def Worker.alive : Worker J → Bool
  | .exited _ => false
  | _ => true

/-- The process `_process` refers to. -/
def State.process (s : State J) : Option (Worker J) := s.current.bind (s.workers[·]?)

/-- `is_alive`, L88-95. -/
def State.isAlive (s : State J) : Bool := match s.process with
  | some w => w.alive
  | none => false

/-- Worker `w` moves on. -/
def State.setWorker (s : State J) (w : ℕ) (x : Worker J) : State J :=
  { s with workers := s.workers.set w x }

/-- `stop` up to the `join`, L59-68: with a process, a sentinel is put in the queue. `not block` sets
the timeout to `None`, that is, waits for ever (L63-64). `cancel`, L84-86, does the same, because
`empty()` removes nothing. -/
def stopCall (s : State J) (block : Bool) : Option (State J) :=
  if s.pc = .idle then
    match s.current with
    | none => some { s with pc := .joining block }
    | some _ => some { s with queue := s.queue ++ [.sentinel], pc := .joining block }
  else none

/-- The end of `stop`, L66-82. Without a process it returns. If the process has ended, its exit code
decides (L70) and it is closed and forgotten (L75-78). After a timeout the exit code is `None`, so
`SystemError` is raised (L70-73); in the `finally` block `close()` succeeds if the process has ended in
the meantime, else it raises `ValueError` and the process is not forgotten. -/
def replyStep (s : State J) : Reply → Option (State J)
  | .returned => match s.pc, s.process with
    | .joining _, none => some { s with pc := .idle }
    | .joining _, some (.exited c) =>
      if c = 0 then some { s with current := none, pc := .idle } else none
    | _, _ => none
  | .systemError => match s.pc, s.process with
    | .joining _, some (.exited c) =>
      if c ≠ 0 then some { s with current := none, pc := .idle } else none
    | .raising, some (.exited _) => some { s with current := none, pc := .idle }
    | _, _ => none
  | .valueError => match s.pc, s.process with
    | .raising, some w => if w.alive then some { s with pc := .idle } else none
    | _, _ => none

variable [DecidableEq J]

/-- One event; `none` if it cannot happen. -/
def step (out : J → Outcome) (s : State J) : Event J → Option (State J)
  -- `start`, L41-54: a new worker; what is in the queue stays there
  | .start => if s.pc = .idle then
      some { s with workers := s.workers ++ [.waiting], current := some s.workers.length }
    else none
  -- `submit`, L56-57
  | .submit j => if s.pc = .idle then some { s with queue := s.queue ++ [.job j] } else none
  | .stop b => stopCall s b
  | .cancel b => stopCall s b
  -- L68 returns although the process has not ended
  | .timeout => if s.pc = .joining true ∧ s.isAlive = true then some { s with pc := .raising } else none
  | .reply r => replyStep s r
  -- L33 yields a job
  | .take w j => if s.workers[w]? = some .waiting ∧ s.queue.head? = some (.job j) then
      some { s.setWorker w (.running j) with queue := s.queue.tail }
    else none
  -- L33 yields the sentinel, L34-35
  | .quit w => if s.workers[w]? = some .waiting ∧ s.queue.head? = some .sentinel then
      some { s.setWorker w (.exited 0) with queue := s.queue.tail }
    else none
  -- L36 returns
  | .finish w j => if s.workers[w]? = some (.running j) ∧ out j = .returns then
      some (s.setWorker w .waiting)
    else none
  -- L36 raises, L37-39
  | .fail w j => if s.workers[w]? = some (.running j) then
      match out j with
      | .returns => none
      | .raises => some (s.setWorker w (.exited 1))
      | .exits c => some (s.setWorker w (.exited c))
    else none
  -- the operating system ends the worker
  | .kill w c => match s.workers[w]? with
    | some x => if x.alive = true ∧ c ≠ 0 then some (s.setWorker w (.exited c)) else none
    | none => none

/-- An execution. -/
def run (out : J → Outcome) : State J → List (Event J) → Option (State J)
  | s, [] => some s
  | s, e :: es => match step out s e with
    | none => none
    | some s' => run out s' es

end OutputProcess
end Verif
