import Verif.Model.Files
import Verif.Model.Report

/-!
# `main` on one core as it works on the disk: `/repo/pylesa/main.py` L40-140

`Verif.Model.Programme` and `Verif.Model.Report` hand values from one stage to the next. In the program the
stages hand each other files. Here every stage reads and writes its files, in the order of the code, and a run
records every state of the disk on the way, so that it can be cut off anywhere.

The paths are those of `Verif.Model.Files`. Simplifications: a file is written in two steps, opened (`torn`) and
complete, and writing does not fail half way; the text of the log is left out; figures of a period in
which one fails are left out; a file that `run_KPIs` reads several times is read once.
-/

set_option autoImplicit false

namespace Verif
namespace Disk
open Files Para Pandas Programme Report InputReader Simulation Workbook

/-- What is in a file. `torn` is a file that was opened for writing and not yet completed. -/
inductive Data where
  | workbook (wb : Pandas.Workbook)
  | inputs (c : Container)
  | results (o : Programme.Outcome)
  | figure (d : Figures.Drawn)
  | kpi (c : KpiTables.Content)
  | log
  | torn
  | other (bytes : List UInt8)

/-- How a part of the program ends: its result or exception, the disk, and every disk on the way (a model of
execution, not of code). -/
structure Done (α : Type) where
  result : Except PyErr α
  disk : FS Data
  seen : List (FS Data)

/-- Every disk at which it can be cut off after it has begun to change it, and the last. -/
def Done.states {α : Type} (d : Done α) : List (FS Data) := d.disk :: d.seen

/-- A part of the program. -/
def Op (α : Type) := FS Data → Done α

/-- One part after another; an exception ends it. -/
def Op.bind {α β : Type} (m : Op α) (f : α → Op β) : Op β := fun fs =>
  match (m fs).result with
  | .error e => ⟨.error e, (m fs).disk, (m fs).seen⟩
  | .ok a => ⟨(f a (m fs).disk).result, (f a (m fs).disk).disk, (m fs).seen ++ (f a (m fs).disk).seen⟩

instance : Monad Op where
  pure a := fun fs => ⟨.ok a, fs, []⟩
  bind := Op.bind

variable {α β : Type}

/-- A computation that does not touch the disk. -/
def lift (x : Except PyErr α) : Op α := fun fs => ⟨x, fs, []⟩

/-- `raise`. -/
def fail (e : PyErr) : Op α := lift (.error e)

/-- A `for` loop. -/
def each (f : β → Op Unit) : List β → Op Unit
  | [] => pure ()
  | b :: bs => do f b; each f bs

/-- What is on the disk now. -/
def snapshot : Op (FS Data) := fun fs => ⟨.ok fs, fs, []⟩

/-- `valid_fpath`, `valid_dir`, io/paths.py L7-34. -/
def valid (a : Arg) : Op FPath := fun fs => ⟨validPath fs a, fs, []⟩

/-- `Path.mkdir()`. -/
def makeDir (p : FPath) : Op Unit := fun fs =>
  match mkdir fs p with
  | .error e => ⟨.error e, fs, []⟩
  | .ok fs' => ⟨.ok (), fs', [fs']⟩

/-- How `shutil.rmtree` goes: the sets of paths gone at its intermediate stages, and its exception if it fails
after the last of them. -/
structure Removal where
  stages : List (FPath → Bool)
  err : Option PyErr

/-- `shutil.rmtree(p)` of a directory. -/
def removeTree (E : FPath → Removal) (p : FPath) : Op Unit := fun fs =>
  let mids := (E p).stages.map (without fs p)
  match (E p).err with
  | none => ⟨.ok (), without fs p fun _ => true, mids ++ [without fs p fun _ => true]⟩
  | some e => ⟨.error e, mids.getLast?.getD fs, mids⟩

/-- Making a directory afresh, e.g. read_excel.py L64-68: emptied by `rmtree` if it is there. -/
def freshDir (E : FPath → Removal) (p : FPath) : Op Unit := fun fs =>
  match fs p with
  | some .dir => (do removeTree E p; makeDir p : Op Unit) fs
  | _ => makeDir p fs

/-- One change of the disk. -/
def put (p : FPath) (d : Data) : Op Unit := fun fs =>
  ⟨.ok (), fun q => if q = p then some (.file d) else fs q, [fun q => if q = p then some (.file d) else fs q]⟩

/-- `open(p, 'wb')`, writing and closing; also `savefig`, `to_csv` and `logging.FileHandler(p, "w+")`. -/
def write (p : FPath) (d : Data) : Op Unit := fun fs =>
  match fs p.dropLast with
  | none => fail .fileNotFoundError fs
  | some (.file _) => fail .other fs
  | some .dir => match fs p with
    | some .dir => fail .other fs
    | _ => (do put p .torn; put p d : Op Unit) fs

/-- Reading a file. -/
def read (p : FPath) : Op Data := fun fs => ⟨match fs p with
  | none => .error .fileNotFoundError
  | some .dir => .error .other
  | some (.file d) => .ok d, fs, []⟩

/-- `pd.read_excel(xlsxpath, sheet_name=None)`, read_excel.py L71. -/
def readWorkbook (p : FPath) : Op Pandas.Workbook := do
  match ← read p with
  | .workbook wb => pure wb
  | _ => fail .other

/-- `pd.read_pickle` of an input file. -/
def readContainer (p : FPath) : Op Container := do
  match ← read p with
  | .inputs c => pure c
  | _ => fail .other

/-- `pd.read_pickle` of `outputs.pkl`. -/
def readOutcome (p : FPath) : Op Programme.Outcome := do
  match ← read p with
  | .results o => pure o
  | _ => fail .other

/-- `LOG_FILENAME`, logging.py L46. -/
def logName : Name := "pylesa.log".toList
/-- `'outputs.pkl'`, fixed_order.py L161 and mpc.py L670. -/
def resultsName : Name := "outputs.pkl".toList
/-- The folder of the tables, io/outputs.py L1592. -/
def kpiDir : Name := "KPIs".toList

/-- `read_inputs`, read_excel.py L17-46 with `XlsxInput.__init__` L53-79. `check` and `book` look at the workbook:
whether it is there, and what it says. -/
def readExcel (check : Op Unit) (book : Op Pandas.Workbook) (E : FPath → Removal) (root : FPath) : Op Unit := do
  check
  freshDir E (root ++ [inDir])
  let wb ← book
  freshDir E (root ++ [outDir])
  let base ← lift (readInputs wb)
  write (root ++ [inDir, baseFile]) (.inputs base)

/-- `Para.__init__`, parametric_analysis.py L18-67. -/
def para (E : FPath → Removal) (root : FPath) : Op (List (ℤ × ℤ)) := do
  let _ ← valid (.path (root ++ [inDir]))
  let _ ← valid (.path (root ++ [outDir]))
  let base ← readContainer (root ++ [inDir, baseFile])
  let pa ← lift (rangesOf base.parametric)
  let sizes ← lift (combos pa)
  each (fun s => freshDir E (root ++ [outDir, folderName s])) sizes
  return sizes

/-- `Para.create_pickles`, parametric_analysis.py L69-128. -/
def makePickles (root : FPath) (sizes : List (ℤ × ℤ)) : Op Unit :=
  each (fun s => do
    let base ← readContainer (root ++ [inDir, baseFile])
    let c ← lift (resizeContainer s base)
    write (root ++ [inDir, pickleName s]) (.inputs c)) sizes

/-- `run_solver` for one combination, main.py L18-38; the controllers read the input file of the combination and
write `outputs.pkl` (fixed_order.py L161-164, mpc.py L670-673). -/
def solve (L : Libs) (gekko : Gekko) (root : FPath) (controller : Value) (first n : ℕ) (name : Name) : Op Unit := do
  let c ← readContainer (root ++ [inDir, name ++ ".pkl".toList])
  let o ← lift (solvePickle L gekko (controllerOf controller) first n c)
  write (root ++ [outDir, name, resultsName]) (.results o)

/-- Names of the periods, io/outputs.py L67, L78. -/
def periodName : Figures.Period → Name
  | .year => "Year".toList
  | .winter => "Winter".toList
  | .summer => "Summer".toList
  | .user => "User".toList
  | .other => "".toList

/-- The files of a period, io/outputs.py L68-76 and L79-86: the bar charts only with `bars`. -/
def figureNames (bars : Bool) : List Name := if bars then figures else figures.take 7

/-- One period of `run_plots`, io/outputs.py L68-76 and L79-86, with `Plot.__init__` L112-136. -/
def plotPeriod (E : FPath → Removal) (root : FPath) (name : Name) (pb : Figures.Period × Bool) : Op Unit := do
  let o ← readOutcome (root ++ [outDir, name, resultsName])
  let c ← readContainer (root ++ [inDir, name ++ ".pkl".toList])
  let n ← lift (do natOf (← Dict.get c.controller.info "total_timesteps"))
  let first ← lift (do natOf (← Dict.get c.controller.info "first_hour"))
  freshDir E (root ++ [outDir, name, periodName pb.1])
  let d ← lift (Figures.drawPeriod (rows o) n first pb)
  each (fun f => write (root ++ [outDir, name, periodName pb.1, f]) (.figure d)) (figureNames pb.2)

/-- `run_plots`, io/outputs.py L58-88. -/
def plot (E : FPath → Removal) (root : FPath) (name : Name) : Op Unit := do
  let c ← readContainer (root ++ [inDir, name ++ ".pkl".toList])
  let n ← lift (do natOf (← Dict.get c.controller.info "total_timesteps"))
  each (plotPeriod E root name) (Figures.periods n)

/-- The input files on the disk. -/
def inputFiles (root : FPath) (fs : FS Data) : Dir Container := fun n =>
  match fs (root ++ [inDir, n]) with
  | some (.file (.inputs c)) => some c
  | _ => none

/-- The results on the disk. -/
def resultFiles (root : FPath) (fs : FS Data) : Dir Programme.Outcome := fun n =>
  match fs (root ++ [outDir, n, resultsName]) with
  | some (.file (.results o)) => some o
  | _ => none

/-- `run_KPIs`, io/outputs.py L90-107, with `ThreeDPlots.__init__` L1589-1639. What it computes from the files it
reads is `Report.tables`; `title` is `self.root.name`. -/
noncomputable def kpis (L : Libs) (E : FPath → Removal) (title : Name) (root : FPath) : Op Unit := do
  freshDir E (root ++ [outDir, kpiDir])
  let base ← readContainer (root ++ [inDir, baseFile])
  let fs ← snapshot
  let t := tables L base (inputFiles root fs) (String.ofList title) (resultFiles root fs)
  each (fun fc => write (root ++ [outDir, kpiDir, fc.1.toList]) (.kpi fc.2)) t.1
  match t.2 with
  | none => pure ()
  | some e => fail e

/-- `main` L92-140 on one core. -/
noncomputable def study (L : Libs) (gekko : Gekko) (E : FPath → Removal) (title : Name) (root : FPath) :
    List (ℤ × ℤ) → Op Unit
  | [] => fail .indexError
  | s :: ss => do
    let c ← readContainer (root ++ [inDir, folderName s ++ ".pkl".toList])
    let controller ← lift (Dict.get c.controller.info "controller")
    let n ← lift (do natOf (← Dict.get c.controller.info "total_timesteps"))
    let first ← lift (do natOf (← Dict.get c.controller.info "first_hour"))
    each (fun s => do
      solve L gekko root controller first n (folderName s)
      plot E root (folderName s)) (s :: ss)
    kpis L E title root

/-- `main` from L73 on, in the directory `root`: logging.py L46, then L77-140. -/
noncomputable def body (L : Libs) (gekko : Gekko) (check : Op Unit) (book : Op Pandas.Workbook)
    (E : FPath → Removal) (title : Name) (root : FPath) : Op Unit := do
  write (root ++ [logName]) .log
  readExcel check book E root
  let sizes ← para E root
  makePickles root sizes
  study L gekko E title root sizes

/-- The folder of the study, `main` L58-70. -/
def makeRoot (E : FPath → Removal) (overwrite : Bool) (root : FPath) : Op Unit := fun fs =>
  match fs root with
  | none => makeDir root fs
  | some .dir => if overwrite then (do removeTree E root; makeDir root : Op Unit) fs
    else fail .fileExistsError fs
  | some (.file _) => if overwrite then fail .other fs else fail .fileExistsError fs

/-- `main`, L56-140, with `singlecore`. -/
noncomputable def main (L : Libs) (gekko : Gekko) (E : FPath → Removal) (xlsx outdir : Arg) (overwrite : Bool) :
    Op Unit := do
  let x ← valid xlsx
  let d ← valid outdir
  makeRoot E overwrite (join d (stem (lastName x)))
  body L gekko (do let _ ← valid (.path x)) (readWorkbook x) E (lastName (join d (stem (lastName x))))
    (join d (stem (lastName x)))

end Disk
end Verif
