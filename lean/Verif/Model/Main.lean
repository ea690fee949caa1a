import Verif.Model.OutputProcess
import Verif.Model.Para

/-!
# `main` after the inputs are read: `/repo/pylesa/main.py` L18-38 and L92-140

The solver, the plotting and the KPIs are parameters (`Parts`); what is modelled is the order in which
they are called, on one core or on two, what each reads and writes, and how errors travel. The
combinations are named by their folders. Logging and progress bars are not modelled. Plotting one
combination takes effect in one step, when it ends; see `Verif.Model.DiskTwo` for the two processes at single file
operations.
-/

set_option autoImplicit false

namespace Verif
namespace Main
open OutputProcess

/-- The parts of a run. `solve` computes the results of a combination from its input file, `plot` the
figures of a combination from its results (with the error that ended it, if any), `kpis` the tables
from the results of all combinations. -/
structure Parts (N R F K : Type) where
  solve : N → Except PyErr R
  plot : N → R → List F × Option PyErr
  kpis : (N → Option R) → Except PyErr K

/-- The choice of the solver, main.py L18-38. -/
inductive Controller where
  | fixedOrder
  | predictive
  | other
  deriving DecidableEq

/-- `run_solver`, main.py L18-38. -/
def runSolver {N R : Type} (fixed mpc : N → Except PyErr R) : Controller → N → Except PyErr R
  | .fixedOrder, n => fixed n
  | .predictive, n => mpc n
  | .other, _ => .error .valueError

/-- The output directory: `outputs.pkl` and the figures of each combination. -/
structure Store (N R F : Type) where
  results : N → Option R
  figures : N → List F

variable {N R F K : Type} [DecidableEq N]

/-- An output directory as `Para` leaves it: empty folders. -/
def Store.empty : Store N R F := ⟨fun _ => none, fun _ => []⟩

/-- `run_solver` for one combination writes `outputs.pkl` (fixed_order.py L161-164). -/
def solveStep (P : Parts N R F K) (s : Store N R F) (n : N) : Option PyErr × Store N R F :=
  match P.solve n with
  | .error e => (some e, s)
  | .ok r => (none, { s with results := fun m => if m = n then some r else s.results m })

/-- `run_plots` for one combination, io/outputs.py L58-88: reads `outputs.pkl`, replaces the figures. -/
def plotStep (P : Parts N R F K) (s : Store N R F) (n : N) : Option PyErr × Store N R F :=
  match s.results n with
  | none => (some .fileNotFoundError, s)
  | some r => ((P.plot n r).2, { s with figures := fun m => if m = n then (P.plot n r).1 else s.figures m })

/-- The loop on one core, main.py L105-110. -/
def singleLoop (P : Parts N R F K) : List N → Store N R F → Option PyErr × Store N R F
  | [], s => (none, s)
  | n :: ns, s => match solveStep P s n with
    | (some e, s) => (some e, s)
    | (none, s) => match plotStep P s n with
      | (some e, s) => (some e, s)
      | (none, s) => singleLoop P ns s

/-- L139-140, after the loop. -/
def finish (P : Parts N R F K) : Option PyErr × Store N R F → Except PyErr K × Store N R F
  | (some e, s) => (.error e, s)
  | (none, s) => (P.kpis s.results, s)

/-- `main` L92-140 on one core. Without combinations `folder_name[0]` fails (L93). -/
def single (P : Parts N R F K) (names : List N) : Except PyErr K × Store N R F :=
  match names with
  | [] => (.error .indexError, .empty)
  | _ :: _ => finish P (singleLoop P names .empty)

/-! ## Two cores -/

/-- What happens: the parent solves a combination, or something happens to the output process. -/
inductive Event2 (N : Type) where
  | solve (n : N)
  | proc (e : Event N)
  deriving DecidableEq

/-- The parent's own events: all but those of the worker and the running out of the 30 seconds. -/
def Event2.isParent : Event2 N → Bool
  | .solve _ => true
  | .proc (.start) | .proc (.submit _) | .proc (.stop _) | .proc (.cancel _) | .proc (.reply _) => true
  | .proc _ => false

/-- What happens to the output process. -/
def procView (es : List (Event2 N)) : List (Event N) := es.filterMap fun
  | .solve _ => none
  | .proc e => some e

/-- The loop of the parent, L124-129, and the error that ends it. -/
def parentLoop (P : Parts N R F K) : List N → List (Event2 N) × Option PyErr
  | [] => ([], none)
  | n :: ns => match P.solve n with
    | .error e => ([.solve n], some e)
    | .ok _ => (.solve n :: .proc (.submit n) :: (parentLoop P ns).1, (parentLoop P ns).2)

/-- How `stop` ends, as an exception. -/
def replyErr : Reply → Option PyErr
  | .returned => none
  | .systemError => some .systemError
  | .valueError => some .valueError

/-- What the parent does from L118 to L137 and the error it raises. Without an error in the loop: `stop`
in the `finally` block. With one: `cancel`, whose own error would replace it, and `stop` in the `finally`
block, whose own error would replace that. -/
def parentScript (P : Parts N R F K) (names : List N) (es : List (Event2 N)) (err : Option PyErr) : Prop :=
  match parentLoop P names with
  | (body, none) => ∃ r, err = replyErr r ∧
      es = .proc .start :: body ++ [.proc (.stop true), .proc (.reply r)]
  | (body, some e) => ∃ r r', err = ((replyErr r').or ((replyErr r).or (some e))) ∧
      es = .proc .start :: body ++
        [.proc (.cancel true), .proc (.reply r), .proc (.stop true), .proc (.reply r')]

/-- How plotting a combination ends in the worker. -/
def plotOutcome (P : Parts N R F K) (n : N) : Outcome :=
  match P.solve n with
  | .error _ => .raises
  | .ok r => match (P.plot n r).2 with
    | none => .returns
    | some _ => .raises

/-- What an event does to the output directory. A killed worker leaves what it had plotted before. -/
def Event2.effect (P : Parts N R F K) (s : Store N R F) : Event2 N → Store N R F
  | .solve n => (solveStep P s n).2
  | .proc (.finish _ n) | .proc (.fail _ n) => (plotStep P s n).2
  | .proc _ => s

/-- The output directory after a history. -/
def effects (P : Parts N R F K) (es : List (Event2 N)) : Store N R F :=
  es.foldl (Event2.effect P) .empty

/-- `main` L92-140 on two cores: the history `es` is possible and ends with this answer and output
directory. -/
def TwoCore (P : Parts N R F K) (names : List N) (es : List (Event2 N))
    (answer : Except PyErr K × Store N R F) : Prop :=
  names ≠ [] ∧ ∃ err, parentScript P names (es.filter Event2.isParent) err ∧
    (∃ s, run (plotOutcome P) (init N) (procView es) = some s) ∧
    (∃ e, es.getLast? = some e ∧ e.isParent = true) ∧
    answer = finish P (err, effects P es)

end Main
end Verif
