import Verif.Base

/-!
# The log: `/repo/pylesa/logging.py`, `/repo/pylesa/mp/logging.py` and the logging in `/repo/pylesa/mp/process.py`

The messages of a run on two cores as a labelled transition system. The parent writes to its two handlers (file,
console) itself; the worker puts its messages in a queue, from which a thread of the parent, the listener, takes them
and gives them to the same handlers. Parent, worker, the worker's feeder thread and the listener interleave freely; an
execution is a list of events. One `start` is modelled, as in `main`.

Assumed of the standard library (trusted base): a logger asks the level of the root logger and then each handler's
level, in the order the handlers were added; a handler writes one message at a time; `multiprocessing.Queue` first
collects what a process puts and a feeder thread then writes it to a pipe, in order; a process that ends, also by an
exception, waits for its feeder first; a process that is killed does not, but is never killed in the middle of a write;
`QueueListener.stop` puts a sentinel in the queue and waits for the listener, which stops when it takes the sentinel;
a daemon thread such as the listener dies with its process.
-/

set_option autoImplicit false

namespace Verif
namespace Logging

/-- A message with its level (`levelno`). -/
structure Msg (T : Type) where
  level : ℕ
  text : T
  deriving DecidableEq

/-- `logging.INFO` and `logging.WARNING`. -/
def info : ℕ := 20

/-- See `info`. -/
def warning : ℕ := 30

/-- `DEFAULT_LOGLEVEL`, constants.py L3. -/
def defaultLevel : ℕ := warning

/-- How `multiprocessing` makes a process: a copy of the parent, with the parent's root logger, or a new interpreter,
whose root logger has the level WARNING. -/
inductive StartMethod where
  | fork
  | spawn
  deriving DecidableEq

/-- `setup_logging`, logging.py L40: the level of the parent's root logger. The file handler has no level of its own
(L46-48), the console handler has `level` (L53). -/
def rootLevel (level : ℕ) : ℕ := min info level

/-- `root_logger.level` in the worker, process.py L28-29. -/
def foundLevel (m : StartMethod) (level : ℕ) : ℕ := match m with
  | .fork => rootLevel level
  | .spawn => warning

/-- `setup_mp_logging`, mp/logging.py L11: the level of the worker's root logger. -/
def workerLevel (m : StartMethod) (level : ℕ) : ℕ := min info (foundLevel m level)

/-- Who a line in the log is from. -/
inductive Side where
  | parent
  | worker
  deriving DecidableEq

/-- The worker process: not yet started, running, ended by itself, or killed. -/
inductive Worker where
  | none
  | running
  | ended
  | killed
  deriving DecidableEq

/-- The listener thread: not yet started, waiting for the queue, between the two handlers with a message in hand, or
stopped. -/
inductive Listener (T : Type) where
  | none
  | waiting
  | holding (m : Msg T)
  | stopped
  deriving DecidableEq

/-- Where the parent is: before `start`, between `start` and `stop`, in `stop` before L76, in `_logger.stop()` (L81),
after `stop`, or gone. -/
inductive Pc where
  | before
  | running
  | stopping
  | joining
  | after
  | gone
  deriving DecidableEq

/-- What can happen. -/
inductive Event (T : Type) where
  | start
  | logs (s : Side) (m : Msg T)
  | parentConsole
  | feed
  | listen
  | listenerConsole
  | workerEnds
  | workerKilled
  | stop
  | closeFails
  | closes
  | stopped
  | exit
  deriving DecidableEq

/-- The state: the pipe (`none` is the listener's sentinel), what the worker's feeder has not written yet, worker,
listener, parent, the message the parent has given to the file handler only, and the lines written. -/
structure State (T : Type) where
  pipe : List (Option (Msg T))
  buffer : List (Msg T)
  worker : Worker
  listener : Listener T
  pc : Pc
  hand : Option (Msg T)
  file : List (Side × Msg T)
  console : List (Side × Msg T)
  deriving DecidableEq

/-- After `setup_logging`, which opens the file empty (`"w+"`, logging.py L46). -/
def init (T : Type) : State T := ⟨[], [], .none, .none, .before, none, [], []⟩

variable {T : Type}

/-- The console handler, logging.py L51-54: `setLevel(level)` is respected by the root logger and, because of
`respect_handler_level=True` (process.py L47), by the listener. -/
def onConsole (level : ℕ) (x : Side × Msg T) (lines : List (Side × Msg T)) : List (Side × Msg T) :=
  if level ≤ x.2.level then lines ++ [x] else lines

/-- One event; `none` if it cannot happen. -/
def step (meth : StartMethod) (level : ℕ) (s : State T) : Event T → Option (State T)
  -- `start`, process.py L41-54
  | .start => if s.pc = .before ∧ s.hand = none then
      some { s with pc := .running, listener := .waiting, worker := .running }
    else none
  -- the parent logs: the file handler comes first (logging.py L46-58)
  | .logs .parent m => if s.pc ≠ .joining ∧ s.pc ≠ .gone ∧ s.hand = none then
      (if rootLevel level ≤ m.level then some { s with file := s.file ++ [(.parent, m)], hand := some m }
       else some s)
    else none
  | .parentConsole => match s.hand with
    | some m => some { s with console := onConsole level (.parent, m) s.console, hand := none }
    | none => none
  -- the worker logs: `QueueHandler` (mp/logging.py L14-15)
  | .logs .worker m => if s.worker = .running then
      (if workerLevel meth level ≤ m.level then some { s with buffer := s.buffer ++ [m] } else some s)
    else none
  | .feed => match s.buffer with
    | m :: rest => some { s with buffer := rest, pipe := s.pipe ++ [some m] }
    | [] => none
  -- the listener takes an entry of the queue and gives a message to the file handler
  | .listen => match s.pc, s.listener, s.pipe with
    | .gone, _, _ => none
    | _, .waiting, some m :: rest =>
      some { s with pipe := rest, listener := .holding m, file := s.file ++ [(.worker, m)] }
    | _, .waiting, none :: rest => some { s with pipe := rest, listener := .stopped }
    | _, _, _ => none
  | .listenerConsole => match s.pc, s.listener with
    | .gone, _ => none
    | _, .holding m =>
      some { s with listener := .waiting, console := onConsole level (.worker, m) s.console }
    | _, _ => none
  | .workerEnds => if s.worker = .running ∧ s.buffer = [] then some { s with worker := .ended } else none
  | .workerKilled => if s.worker = .running then some { s with worker := .killed, buffer := [] } else none
  -- `stop`, process.py L59-73
  | .stop => if s.pc = .running ∧ s.hand = none then some { s with pc := .stopping } else none
  -- after a timeout: `close()` raises `ValueError` on L76, so that L80-82 are not reached
  | .closeFails => if s.pc = .stopping ∧ s.hand = none ∧ s.worker = .running then
      some { s with pc := .running }
    else none
  -- `close()` succeeds, then `_logger.stop()`, L80-82
  | .closes => if s.pc = .stopping ∧ s.hand = none ∧ s.worker ≠ .running then
      some { s with pc := .joining, pipe := s.pipe ++ [none] }
    else none
  | .stopped => match s.pc, s.listener with
    | .joining, .stopped => some { s with pc := .after }
    | _, _ => none
  -- the parent ends; `multiprocessing` waits for the worker first
  | .exit => if s.hand = none ∧ s.pc ≠ .stopping ∧ s.pc ≠ .joining ∧ s.worker ≠ .running then
      some { s with pc := .gone }
    else none

/-- An execution. -/
def run (meth : StartMethod) (level : ℕ) : State T → List (Event T) → Option (State T)
  | s, [] => some s
  | s, e :: es => match step meth level s e with
    | none => none
    | some s' => run meth level s' es

end Logging
end Verif
