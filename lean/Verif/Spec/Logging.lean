import Verif.Model.Logging

/-!
# Specification vocabulary for the log
-/

set_option autoImplicit false

namespace Verif.Spec
open Logging
variable {T : Type}

/-- What one side said, in order. -/
def said (s : Side) (es : List (Event T)) : List (Msg T) := es.filterMap fun
  | .logs s' m => if s' = s then some m else none
  | _ => none

/-- The lines of a log that are from one side, in order. -/
def linesOf (s : Side) (lines : List (Side × Msg T)) : List (Msg T) :=
  lines.filterMap fun (s', m) => if s' = s then some m else none

/-- The messages of at least a level. -/
def atLeast (level : ℕ) (ms : List (Msg T)) : List (Msg T) := ms.filter (fun m => decide (level ≤ m.level))

end Verif.Spec
