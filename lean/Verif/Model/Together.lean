import Verif.Model.DiskTwo

/-!
# Several runs of `main` at once on one disk: `/repo/pylesa/main.py` L40-140

`Verif.Model.Disk` and `Verif.Model.DiskTwo` have one run alone on the disk. Here any number of runs share it, each on one
core or on two, and their single looks at the disk and single changes of it are interleaved in any way.

The parts of the program are those of `Verif.Model.Disk` and `Verif.Model.DiskTwo`, with the same simplifications; that
they are the same is proved in `Verif.Lemmas.Together` (`prepare_steps`, `loop_steps'`, `kpis_steps`). `mkdir` of the
folder of the study is one step of the operating system, which looks and changes at once; the folders inside it are made
by `Prog.makeDir`, which looks first. `Prog.removeTree` lists the folder once: what another run adds to the same folder
while it is being removed is not modelled (no theorem has runs that do this).
-/

set_option autoImplicit false

namespace Verif
namespace Disk
open Files Para Pandas Programme Report InputReader Simulation Workbook OutputProcess

/-! ## The parts of `main` as single looks and changes -/

/-- `valid_fpath`, `valid_dir`, io/paths.py L7-34, of a path. -/
def Prog.valid (p : FPath) : Prog FPath := .look fun fs =>
  match fs p with
  | none => .raise .fileNotFoundError
  | some _ => .ret p

/-- `pd.read_excel(xlsxpath, sheet_name=None)`, read_excel.py L71. -/
def Prog.readWorkbook (p : FPath) : Prog Pandas.Workbook := do
  match ← Prog.read p with
  | .workbook wb => pure wb
  | _ => .raise .other

/-- `read_inputs`, read_excel.py L17-46 with `XlsxInput.__init__` L53-79 (see `Disk.readExcel`). -/
def Prog.readExcel (x : FPath) (E : FPath → Removal) (root : FPath) : Prog Unit := do
  let _ ← Prog.valid x
  Prog.freshDir E (root ++ [inDir])
  let wb ← Prog.readWorkbook x
  Prog.freshDir E (root ++ [outDir])
  let base ← Prog.lift (readInputs wb)
  Prog.write (root ++ [inDir, baseFile]) (.inputs base)

/-- `Para.__init__`, parametric_analysis.py L18-67 (see `Disk.para`). -/
def Prog.para (E : FPath → Removal) (root : FPath) : Prog (List (ℤ × ℤ)) := do
  let _ ← Prog.valid (root ++ [inDir])
  let _ ← Prog.valid (root ++ [outDir])
  let base ← Prog.readContainer (root ++ [inDir, baseFile])
  let pa ← Prog.lift (rangesOf base.parametric)
  let sizes ← Prog.lift (combos pa)
  Prog.each (fun s => Prog.freshDir E (root ++ [outDir, folderName s])) sizes
  return sizes

/-- `Para.create_pickles`, parametric_analysis.py L69-128 (see `Disk.makePickles`). -/
def Prog.makePickles (root : FPath) (sizes : List (ℤ × ℤ)) : Prog Unit :=
  Prog.each (fun s => do
    let base ← Prog.readContainer (root ++ [inDir, baseFile])
    let c ← Prog.lift (resizeContainer s base)
    Prog.write (root ++ [inDir, pickleName s]) (.inputs c)) sizes

/-- `main` L73-101: logging.py L46, the inputs, the combinations, and what the controller is asked. -/
def Prog.prepare (E : FPath → Removal) (x root : FPath) : Prog Opened := do
  Prog.write (root ++ [logName]) .log
  Prog.readExcel x E root
  let sizes ← Prog.para E root
  Prog.makePickles root sizes
  match sizes with
  | [] => .raise .indexError
  | s :: _ => do
    let c ← Prog.readContainer (root ++ [inDir, folderName s ++ ".pkl".toList])
    let controller ← Prog.lift (Dict.get c.controller.info "controller")
    let n ← Prog.lift (do natOf (← Dict.get c.controller.info "total_timesteps"))
    let first ← Prog.lift (do natOf (← Dict.get c.controller.info "first_hour"))
    return ⟨root, sizes, controller, first, n⟩

/-- The loop on one core, `main` L103-112. -/
def Prog.loop (L : Libs) (gekko : Gekko) (E : FPath → Removal) (o : Opened) : Prog Unit :=
  Prog.each (fun name => do
    Prog.solve L gekko o.root o.controller o.first o.n name
    Prog.plot E o.root name) (o.sizes.map folderName)

/-- `run_KPIs`, io/outputs.py L90-107, with `ThreeDPlots.__init__` L1589-1639 (see `Disk.kpis`). -/
noncomputable def Prog.kpis (L : Libs) (E : FPath → Removal) (title : Name) (root : FPath) : Prog Unit := do
  Prog.freshDir E (root ++ [outDir, kpiDir])
  let base ← Prog.readContainer (root ++ [inDir, baseFile])
  .look fun fs => do
    let t := tables L base (inputFiles root fs) (String.ofList title) (resultFiles root fs)
    Prog.each (fun fc => Prog.write (root ++ [outDir, kpiDir, fc.1.toList]) (.kpi fc.2)) t.1
    match t.2 with
    | none => pure ()
    | some e => .raise e

/-! ## One run -/

/-- A call of `main`, L40, with the libraries and the operating system it meets. -/
structure Call where
  libs : Libs
  gekko : Gekko
  removal : FPath → Removal
  xlsx : FPath
  outdir : FPath
  overwrite : Bool
  singlecore : Bool

/-- The folder of the study, L57. -/
def Call.root (c : Call) : FPath := join c.outdir (stem (lastName c.xlsx))

/-- Where a call is: before L56, before L57, before L58, in `rmtree` L61, before L70, in L73-101, in L116-137 on two
cores (with the process object, what the worker has still to do, and the parent), in L105-112 on one core or in L140, or
past it. -/
inductive Running where
  | started
  | checking
  | looking
  | removing (rest : Prog Unit)
  | making
  | early (rest : Prog Opened)
  | two (o : Opened) (proc : State Name) (job : Prog Unit) (parent : Parent)
  | late (rest : Prog Unit)
  | ended (answer : Except PyErr Unit)

/-- What can happen next in a call: it goes on, or one of its two processes does. -/
inductive Act where
  | go
  | move (m : Move)

/-- After L101: on one core L105-140, on two cores L116. -/
noncomputable def Call.divide (c : Call) (o : Opened) : Running :=
  if c.singlecore then
    .late (Prog.loop c.libs c.gekko c.removal o >>= fun _ => Prog.kpis c.libs c.removal (lastName o.root) o.root)
  else .two o (init Name) (.ret ()) (.starting (o.sizes.map folderName))

/-- One step of a call on the disk `fs`; `none` if it cannot happen. -/
noncomputable def Running.act (c : Call) (fs : FS Data) : Running → Act → Option (Running × FS Data)
  -- `valid_fpath(xlsxpath)`, L56
  | .started, .go => match validPath fs (.path c.xlsx) with
    | .error e => some (.ended (.error e), fs)
    | .ok _ => some (.checking, fs)
  -- `valid_dir(outdir)`, L57
  | .checking, .go => match validPath fs (.path c.outdir) with
    | .error e => some (.ended (.error e), fs)
    | .ok _ => some (.looking, fs)
  -- `outdir.exists()`, L58
  | .looking, .go => match fs c.root with
    | none => some (.making, fs)
    | some .dir => if c.overwrite then some (.removing (Prog.removeTree c.removal c.root), fs)
      else some (.ended (.error .fileExistsError), fs)
    | some (.file _) => if c.overwrite then some (.ended (.error .other), fs)
      else some (.ended (.error .fileExistsError), fs)
  -- `shutil.rmtree(outdir)`, L61
  | .removing (.ret _), .go => some (.making, fs)
  | .removing (.raise e), .go => some (.ended (.error e), fs)
  | .removing p, .go => (p.next fs).map fun r => (.removing r.1, r.2)
  -- `outdir.mkdir()`, L70
  | .making, .go => match mkdir fs c.root with
    | .error e => some (.ended (.error e), fs)
    | .ok fs' => some (.early (Prog.prepare c.removal c.xlsx c.root), fs')
  -- L73-101
  | .early (.ret o), .go => some (c.divide o, fs)
  | .early (.raise e), .go => some (.ended (.error e), fs)
  | .early p, .go => (p.next fs).map fun r => (.early r.1, r.2)
  -- L116-137 on two cores
  | .two o proc job parent, .move m =>
    (Machine.move (Prog.solve c.libs c.gekko o.root o.controller o.first o.n) (Prog.plot c.removal o.root)
      ⟨fs, proc, job, parent⟩ m).map fun k => (.two o k.proc k.job k.parent, k.disk)
  | .two o _ _ (.ended none), .go => some (.late (Prog.kpis c.libs c.removal (lastName o.root) o.root), fs)
  -- L105-112 on one core, and L140
  | .late (.ret a), .go => some (.ended (.ok a), fs)
  | .late (.raise e), .go => some (.ended (.error e), fs)
  | .late p, .go => (p.next fs).map fun r => (.late r.1, r.2)
  | _, _ => none

/-- What the call has returned or raised, if it has. On two cores the worker may go on after that. -/
def Running.answer : Running → Option (Except PyErr Unit)
  | .ended a => some a
  | .two _ _ _ (.ended (some e)) => some (.error e)
  | _ => none

/-- A call that is alone on the disk. -/
noncomputable def Running.acts (c : Call) : Running → FS Data → List Act → Option (Running × FS Data)
  | r, fs, [] => some (r, fs)
  | r, fs, a :: as => match r.act c fs a with
    | none => none
    | some r' => Running.acts c r'.1 r'.2 as

/-! ## Several runs -/

/-- The disk, and where each call is. -/
structure Pool (ι : Type) where
  disk : FS Data
  runs : ι → Running

variable {ι : Type} [DecidableEq ι]

/-- A step of one of the calls. -/
noncomputable def Pool.act (calls : ι → Call) (P : Pool ι) (s : ι × Act) : Option (Pool ι) :=
  ((P.runs s.1).act (calls s.1) P.disk s.2).map fun r => ⟨r.2, Function.update P.runs s.1 r.1⟩

/-- A schedule. -/
noncomputable def Pool.acts (calls : ι → Call) : Pool ι → List (ι × Act) → Option (Pool ι)
  | P, [] => some P
  | P, s :: ss => match P.act calls s with
    | none => none
    | some P' => P'.acts calls ss

/-- All calls are about to begin. -/
def Pool.start (fs : FS Data) : Pool ι := ⟨fs, fun _ => .started⟩

/-- The steps of one call in a schedule. -/
def own (i : ι) (ss : List (ι × Act)) : List Act := (ss.filter fun s => s.1 = i).map (·.2)

end Disk
end Verif
