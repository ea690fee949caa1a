import Verif.Model.Disk
import Verif.Model.Main

/-!
# `main` on two cores as it works on the disk: `/repo/pylesa/main.py` L40-140 with `/repo/pylesa/mp/process.py`

The process that solves and the process that plots share the disk. Here each is a sequence of single looks at the disk
and single changes of it, and the two are interleaved in any way the queue between them allows. `Verif.Model.Main`
also has the two processes, but there a combination is plotted in one step.

The parts of the program are those of `Verif.Model.Disk`, with the same simplifications; that they are the same is
proved in `Verif.Lemmas.DiskTwo` (`solve_steps`, `plot_steps`). The queue and the process object are those of
`Verif.Model.OutputProcess`.
-/

set_option autoImplicit false

namespace Verif
namespace Disk
open Files Para Pandas Programme Report InputReader Simulation Workbook OutputProcess

/-- What a process has still to do: it has ended, or it looks at the disk and goes on depending on what it sees, or
it changes the disk and goes on (a model of execution, not of code). -/
inductive Prog (α : Type) where
  | ret (a : α)
  | raise (e : PyErr)
  | look (k : FS Data → Prog α)
  | change (g : FS Data → FS Data) (k : Prog α)

variable {α β : Type}

/-- One part after another; an exception ends it. -/
def Prog.bind : Prog α → (α → Prog β) → Prog β
  | .ret a, f => f a
  | .raise e, _ => .raise e
  | .look k, f => .look fun fs => (k fs).bind f
  | .change g k, f => .change g (k.bind f)

instance : Monad Prog where
  pure := .ret
  bind := Prog.bind

/-- A computation that does not touch the disk. -/
def Prog.lift : Except PyErr α → Prog α
  | .ok a => .ret a
  | .error e => .raise e

/-- A `for` loop. -/
def Prog.each (f : β → Prog Unit) : List β → Prog Unit
  | [] => .ret ()
  | b :: bs => do f b; Prog.each f bs

/-- `Path.mkdir()`: it looks, then makes the directory. -/
def Prog.makeDir (p : FPath) : Prog Unit := .look fun fs =>
  match mkdir fs p with
  | .error e => .raise e
  | .ok _ => .change (fun fs q => if q = p then some .dir else fs q) (.ret ())

/-- `shutil.rmtree(p)` of a directory, stage by stage. What is below `p` was listed when it began. -/
def Prog.removeTree (E : FPath → Removal) (p : FPath) : Prog Unit := .look fun listed =>
  (E p).stages.foldr (fun gone k => .change (fun fs q => if p <+: q then without listed p gone q else fs q) k)
    (match (E p).err with
      | none => .change (fun fs => without fs p fun _ => true) (.ret ())
      | some e => .raise e)

/-- Making a directory afresh, `Plot.__init__`, io/outputs.py L131-136. -/
def Prog.freshDir (E : FPath → Removal) (p : FPath) : Prog Unit := .look fun fs =>
  match fs p with
  | some .dir => do Prog.removeTree E p; Prog.makeDir p
  | _ => Prog.makeDir p

/-- One change of the disk. -/
def Prog.put (p : FPath) (d : Data) : Prog Unit :=
  .change (fun fs q => if q = p then some (.file d) else fs q) (.ret ())

/-- `open(p, 'wb')`, writing and closing; also `savefig`. -/
def Prog.write (p : FPath) (d : Data) : Prog Unit := .look fun fs =>
  match fs p.dropLast with
  | none => .raise .fileNotFoundError
  | some (.file _) => .raise .other
  | some .dir => match fs p with
    | some .dir => .raise .other
    | _ => do Prog.put p .torn; Prog.put p d

/-- Reading a file. -/
def Prog.read (p : FPath) : Prog Data := .look fun fs =>
  match fs p with
  | none => .raise .fileNotFoundError
  | some .dir => .raise .other
  | some (.file d) => .ret d

/-- `pd.read_pickle` of an input file. -/
def Prog.readContainer (p : FPath) : Prog Container := do
  match ← Prog.read p with
  | .inputs c => pure c
  | _ => .raise .other

/-- `pd.read_pickle` of `outputs.pkl`. -/
def Prog.readOutcome (p : FPath) : Prog Programme.Outcome := do
  match ← Prog.read p with
  | .results o => pure o
  | _ => .raise .other

/-- `run_solver` for one combination, main.py L18-38 (see `Disk.solve`). -/
def Prog.solve (L : Libs) (gekko : Gekko) (root : FPath) (controller : Value) (first n : ℕ) (name : Name) :
    Prog Unit := do
  let c ← Prog.readContainer (root ++ [inDir, name ++ ".pkl".toList])
  let o ← Prog.lift (solvePickle L gekko (controllerOf controller) first n c)
  Prog.write (root ++ [outDir, name, resultsName]) (.results o)

/-- One period of `run_plots`, io/outputs.py L68-76 and L79-86 (see `Disk.plotPeriod`). -/
def Prog.plotPeriod (E : FPath → Removal) (root : FPath) (name : Name) (pb : Figures.Period × Bool) : Prog Unit := do
  let o ← Prog.readOutcome (root ++ [outDir, name, resultsName])
  let c ← Prog.readContainer (root ++ [inDir, name ++ ".pkl".toList])
  let n ← Prog.lift (do natOf (← Dict.get c.controller.info "total_timesteps"))
  let first ← Prog.lift (do natOf (← Dict.get c.controller.info "first_hour"))
  Prog.freshDir E (root ++ [outDir, name, periodName pb.1])
  let d ← Prog.lift (Figures.drawPeriod (rows o) n first pb)
  Prog.each (fun f => Prog.write (root ++ [outDir, name, periodName pb.1, f]) (.figure d)) (figureNames pb.2)

/-- `run_plots`, io/outputs.py L58-88 (see `Disk.plot`). -/
def Prog.plot (E : FPath → Removal) (root : FPath) (name : Name) : Prog Unit := do
  let c ← Prog.readContainer (root ++ [inDir, name ++ ".pkl".toList])
  let n ← Prog.lift (do natOf (← Dict.get c.controller.info "total_timesteps"))
  Prog.each (Prog.plotPeriod E root name) (Figures.periods n)

/-- A single look or change. -/
def Prog.next : Prog α → FS Data → Option (Prog α × FS Data)
  | .look k, fs => some (k fs, fs)
  | .change g k, fs => some (k, g fs)
  | _, _ => none

/-! ## The two processes -/

/-- Where the parent is in main.py L116-137: before L121, at the head of the loop L124 with these combinations left,
inside `run_solver` L127, inside `cancel` L132 after an error, at the `finally` block with an error, inside `stop`
L137, or past it with an error or none. -/
inductive Parent where
  | starting (names : List Name)
  | loop (todo : List Name)
  | solving (n : Name) (rest : Prog Unit) (todo : List Name)
  | cancelling (e : PyErr)
  | leaving (e : PyErr)
  | stopping (err : Option PyErr)
  | ended (err : Option PyErr)

/-- The disk, the `OutputProcess`, what the worker has still to do of its job, and the parent. -/
structure Machine where
  disk : FS Data
  proc : State Name
  job : Prog Unit
  parent : Parent

/-- What can happen next. `work` is a look or change of the parent, `draw` one of the worker. -/
inductive Move where
  | start | begin | work | submit | call | reply (r : Reply) | timeout
  | take | draw | finish | fail | quit | kill (code : ℤ)
  deriving DecidableEq

/-- One move; `none` if it cannot happen. -/
def Machine.move (solve plot : Name → Prog Unit) (m : Machine) : Move → Option Machine
  -- `p.start(outputs.run_plots)`, L121
  | .start => match m.parent with
    | .starting names => (step (fun _ => .returns) m.proc .start).map fun s =>
      { m with proc := s, parent := .loop names }
    | _ => none
  -- L124-127
  | .begin => match m.parent with
    | .loop (n :: todo) => some { m with parent := .solving n (solve n) todo }
    | _ => none
  | .work => match m.parent with
    | .solving n p todo => (p.next m.disk).map fun r => { m with disk := r.2, parent := .solving n r.1 todo }
    | _ => none
  -- `p.submit([outdir, subname])`, L129
  | .submit => match m.parent with
    | .solving n (.ret _) todo => (step (fun _ => .returns) m.proc (.submit n)).map fun s =>
      { m with proc := s, parent := .loop todo }
    | _ => none
  -- `p.stop()`, L137, after the loop; `p.cancel()`, L132, after an error; `p.stop()` after that
  | .call => match m.parent with
    | .loop [] => (step (fun _ => .returns) m.proc (.stop true)).map fun s =>
      { m with proc := s, parent := .stopping none }
    | .solving _ (.raise e) _ => (step (fun _ => .returns) m.proc (.cancel true)).map fun s =>
      { m with proc := s, parent := .cancelling e }
    | .leaving e => (step (fun _ => .returns) m.proc (.stop true)).map fun s =>
      { m with proc := s, parent := .stopping (some e) }
    | _ => none
  -- these return; an error of theirs replaces the one before
  | .reply r => match m.parent with
    | .cancelling e => (step (fun _ => .returns) m.proc (.reply r)).map fun s =>
      { m with proc := s, parent := .leaving ((Main.replyErr r).getD e) }
    | .stopping err => (step (fun _ => .returns) m.proc (.reply r)).map fun s =>
      { m with proc := s, parent := .ended ((Main.replyErr r).or err) }
    | _ => none
  | .timeout => (step (fun _ => .returns) m.proc .timeout).map fun s => { m with proc := s }
  -- the worker, process.py L32-39
  | .take => match m.proc.queue with
    | .job n :: _ => (step (fun _ => .returns) m.proc (.take 0 n)).map fun s => { m with proc := s, job := plot n }
    | _ => none
  | .draw => match m.proc.workers with
    | [.running _] => (m.job.next m.disk).map fun r => { m with disk := r.2, job := r.1 }
    | _ => none
  | .finish => match m.proc.workers, m.job with
    | [.running n], .ret _ => (step (fun _ => .returns) m.proc (.finish 0 n)).map fun s => { m with proc := s }
    | _, _ => none
  | .fail => match m.proc.workers, m.job with
    | [.running n], .raise _ => (step (fun _ => .raises) m.proc (.fail 0 n)).map fun s => { m with proc := s }
    | _, _ => none
  | .quit => (step (fun _ => .returns) m.proc (.quit 0)).map fun s => { m with proc := s }
  | .kill c => (step (fun _ => .returns) m.proc (.kill 0 c)).map fun s => { m with proc := s }

/-- A schedule. -/
def Machine.moves (solve plot : Name → Prog Unit) : Machine → List Move → Option Machine
  | m, [] => some m
  | m, a :: as => match m.move solve plot a with
    | none => none
    | some m' => m'.moves solve plot as

/-! ## `main` on two cores -/

/-- What is known at L103: the directory, the combinations and what the controller is asked. -/
structure Opened where
  root : FPath
  sizes : List (ℤ × ℤ)
  controller : Value
  first : ℕ
  n : ℕ

/-- `main` L56-101, the same on one core and on two. -/
def opening (E : FPath → Removal) (xlsx outdir : Arg) (overwrite : Bool) : Op Opened := do
  let x ← valid xlsx
  let d ← valid outdir
  let root := join d (stem (lastName x))
  makeRoot E overwrite root
  write (root ++ [logName]) .log
  readExcel (do let _ ← valid (.path x)) (readWorkbook x) E root
  let sizes ← para E root
  makePickles root sizes
  match sizes with
  | [] => fail .indexError
  | s :: _ => do
    let c ← readContainer (root ++ [inDir, folderName s ++ ".pkl".toList])
    let controller ← lift (Dict.get c.controller.info "controller")
    let n ← lift (do natOf (← Dict.get c.controller.info "total_timesteps"))
    let first ← lift (do natOf (← Dict.get c.controller.info "first_hour"))
    return ⟨root, sizes, controller, first, n⟩

/-- `main` at L116. -/
def Opened.machine (o : Opened) (fs : FS Data) : Machine :=
  ⟨fs, init Name, .ret (), .starting (o.sizes.map folderName)⟩

/-- The schedules of L116-137. -/
def Opened.moves (L : Libs) (gekko : Gekko) (E : FPath → Removal) (o : Opened) : Machine → List Move → Option Machine :=
  Machine.moves (Prog.solve L gekko o.root o.controller o.first o.n) (Prog.plot E o.root)

/-- `main` L56-140 without `singlecore`, from the disk `fs`, can go through the moves `ms` and end like this. -/
def TwoCores (L : Libs) (gekko : Gekko) (E : FPath → Removal) (xlsx outdir : Arg) (overwrite : Bool) (fs : FS Data)
    (ms : List Move) (answer : Except PyErr Unit) (disk : FS Data) : Prop :=
  match (opening E xlsx outdir overwrite fs).result with
  | .error e => ms = [] ∧ answer = .error e ∧ disk = (opening E xlsx outdir overwrite fs).disk
  | .ok o => ∃ m, o.moves L gekko E (o.machine (opening E xlsx outdir overwrite fs).disk) ms = some m ∧
    match m.parent with
    | .ended none => answer = (kpis L E (lastName o.root) o.root m.disk).result ∧
      disk = (kpis L E (lastName o.root) o.root m.disk).disk
    | .ended (some e) => answer = .error e ∧ disk = m.disk
    | _ => False

/-- `main` without `singlecore`, from the disk `fs`, can be cut off at the disk `s`: in L56-101, anywhere in a schedule,
or while the tables are written. -/
def TwoCoresAt (L : Libs) (gekko : Gekko) (E : FPath → Removal) (xlsx outdir : Arg) (overwrite : Bool) (fs s : FS Data) :
    Prop :=
  s ∈ (opening E xlsx outdir overwrite fs).states ∨
  ∃ o ms m, (opening E xlsx outdir overwrite fs).result = .ok o ∧
    o.moves L gekko E (o.machine (opening E xlsx outdir overwrite fs).disk) ms = some m ∧
    (s = m.disk ∨ m.parent = .ended none ∧ s ∈ (kpis L E (lastName o.root) o.root m.disk).states)

end Disk
end Verif
