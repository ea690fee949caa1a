import Verif.Model.OutputProcess

/-!
# Specification vocabulary for the output process: what an observer sees in a history
-/

set_option autoImplicit false

namespace Verif.Spec
open OutputProcess
variable {J : Type}

/-- The jobs submitted, in order. -/
def submitted (es : List (Event J)) : List J := es.filterMap fun
  | .submit j => some j
  | _ => none

/-- The jobs some worker began, in order. -/
def begun (es : List (Event J)) : List J := es.filterMap fun
  | .take _ j => some j
  | _ => none

/-- The jobs some worker finished, in order. -/
def finished (es : List (Event J)) : List J := es.filterMap fun
  | .finish _ j => some j
  | _ => none

/-- A call of `stop` or `cancel`. -/
def isStop : Event J → Bool
  | .stop _ => true
  | .cancel _ => true
  | _ => false

/-- A call of `start`. -/
def isStart : Event J → Bool
  | .start => true
  | _ => false

/-- `stop` and `cancel` ended in a way after which the process is forgotten. -/
def isEnd : Event J → Bool
  | .reply .returned => true
  | .reply .systemError => true
  | _ => false

/-- An answer of `stop` or `cancel`. -/
def isReply : Event J → Bool
  | .reply _ => true
  | _ => false

/-- An event of a worker. -/
def isWork : Event J → Bool
  | .take _ _ | .quit _ | .finish _ _ | .fail _ _ | .kill _ _ => true
  | _ => false

/-- A worker ends in the middle: its job raised or called `sys.exit`, or the worker was killed. -/
def isCrash : Event J → Bool
  | .fail _ _ | .kill _ _ => true
  | _ => false

/-- The jobs still in the queue. -/
def queued (s : State J) : List J := s.queue.filterMap fun
  | .job j => some j
  | .sentinel => none

/-- An event by which a worker gets on with its work. -/
def isProgress : Event J → Bool
  | .take _ _ | .quit _ | .finish _ _ | .fail _ _ => true
  | _ => false

end Verif.Spec
