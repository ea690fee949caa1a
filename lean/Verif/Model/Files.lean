import Verif.Model.Para

/-!
# The file system as seen by `main`: `/repo/pylesa/main.py` L56-73, `/repo/pylesa/io/paths.py` and every
place that makes a directory or writes a file during a run

A path is the list of its components, already resolved (symbolic links are not modelled, so
`Path.resolve` is the identity). A file system gives each path what is there. Permissions and a full
disk are not modelled, except that `shutil.rmtree` may fail half way.
-/

set_option autoImplicit false

namespace Verif
namespace Files
open Para

/-- A file or directory name. -/
abbrev Name := List Char

/-- A resolved absolute path. -/
abbrev FPath := List Name

/-- What is at a path. -/
inductive Node (C : Type) where
  | dir
  | file (content : C)
  deriving DecidableEq

/-- A file system. -/
abbrev FS (C : Type) := FPath → Option (Node C)

variable {C : Type}

/-- The position after the last full stop, `name.rfind('.')`, counted from the end. -/
def afterDot (name : Name) : ℕ := (name.reverse.takeWhile (· ≠ '.')).length

/-- `PurePath.stem` of a name: what precedes the last full stop, unless that is at the start or at the
end of the name. -/
def stem (name : Name) : Name :=
  if '.' ∈ name ∧ 0 < name.length - afterDot name - 1 ∧ 0 < afterDot name then
    name.take (name.length - afterDot name - 1)
  else name

/-- `dir / name` for a name without separators, as the operating system reads it: `.` and the empty
name stay in the directory, `..` is the directory above. -/
def join (dir : FPath) (name : Name) : FPath :=
  if name = [] ∨ name = ['.'] then dir
  else if name = ['.', '.'] then dir.dropLast
  else dir ++ [name]

/-- `PurePath.name`: the last component. -/
def lastName (p : FPath) : Name := p.getLast?.getD []

/-- An argument of `main`: something `Path(...)` accepts, or not. -/
inductive Arg where
  | path (p : FPath)
  | other

/-- `valid_fpath` and `valid_dir`, io/paths.py L7-34: the two do the same. -/
def validPath (fs : FS C) : Arg → Except PyErr FPath
  | .other => .error .typeError
  | .path p => match fs p with
    | none => .error .fileNotFoundError
    | some _ => .ok p

/-- `Path.mkdir()`. -/
def mkdir (fs : FS C) (p : FPath) : Except PyErr (FS C) :=
  match fs p with
  | some _ => .error .fileExistsError
  | none => match fs p.dropLast with
    | some .dir => .ok fun q => if q = p then some .dir else fs q
    | some (.file _) => .error .other
    | none => .error .fileNotFoundError

/-- What `shutil.rmtree(p)` leaves when it has removed the paths `gone` at or below `p`. -/
def without (fs : FS C) (p : FPath) (gone : FPath → Bool) : FS C :=
  fun q => if p <+: q ∧ gone q = true then none else fs q

/-- `main` L56-70. `broken` is `none` if `shutil.rmtree` works, else the paths it removed before it
failed. The result is the answer and the file system left behind. -/
def prepare (fs : FS C) (xlsx outdir : Arg) (overwrite : Bool) (broken : Option (FPath → Bool)) :
    Except PyErr FPath × FS C :=
  match validPath fs xlsx with
  | .error e => (.error e, fs)
  | .ok x => match validPath fs outdir with
    | .error e => (.error e, fs)
    | .ok d =>
      let root := join d (stem (lastName x))
      let make (fs : FS C) : Except PyErr FPath × FS C := match mkdir fs root with
        | .error e => (.error e, fs)
        | .ok fs' => (.ok root, fs')
      match fs root with
      | none => make fs
      | some (.file _) => if overwrite then (.error .other, fs) else (.error .fileExistsError, fs)
      | some .dir =>
        if overwrite then
          match broken with
          | some gone => (.error .other, without fs root gone)
          | none => make (without fs root fun _ => true)
        else (.error .fileExistsError, fs)

/-! ## What a run does on disk after that -/

/-- A change on disk: making an empty directory in place of any earlier one, or writing a file. -/
inductive Action (C : Type) where
  | freshDir (p : FPath)
  | write (p : FPath) (content : C)

/-- Making a directory afresh (as read_excel.py L64-68): `rmtree` first if it is there. The file system
is left half way if `rmtree` fails. Writing a file: `open(p, 'wb')`, `savefig`, `to_csv`. -/
def Action.exec (broken : Option (FPath → Bool)) (fs : FS C) : Action C → Except PyErr Unit × FS C
  | .freshDir p => match fs p with
    | some .dir => match broken with
      | some gone => (.error .other, without fs p gone)
      | none => match mkdir (without fs p fun _ => true) p with
        | .error e => (.error e, without fs p fun _ => true)
        | .ok fs' => (.ok (), fs')
    | _ => match mkdir fs p with
      | .error e => (.error e, fs)
      | .ok fs' => (.ok (), fs')
  | .write p c => match fs p.dropLast with
    | some .dir => match fs p with
      | some .dir => (.error .other, fs)
      | _ => (.ok (), fun q => if q = p then some (.file c) else fs q)
    | some (.file _) => (.error .other, fs)
    | none => (.error .fileNotFoundError, fs)

/-- Names of the figures, io/outputs.py L170, L233, L314, L424, L431, L493, L563, L619. -/
def figures : List Name := ["operation.png".toList, "electricity_demand_and_generation.png".toList,
  "heat_demand_and_heat_pump.png".toList, "heatpump_cop_and_duty.png".toList,
  "thermal_storage.png".toList, "electrical_storage.png".toList, "grid.png".toList,
  "RES_bar_charts.png".toList]

/-- Names of the plotting periods, io/outputs.py L67, L78. -/
def periods : List Name := ["Year".toList, "Winter".toList, "Summer".toList, "User".toList]

/-- Names of the KPI figures, io/outputs.py L1688, L1724, L1760, L1796, L1833, L1869, L1906, L1943. -/
def kpiFigures : List Name := ["operating_cost.png".toList, "RES_self_consumption.png".toList,
  "heat_from_RES.png".toList, "HP_size_ratio.png".toList, "HP_utilisation.png".toList,
  "capital_cost.png".toList, "cost_of_heat.png".toList, "levelised_cost_of_heat.png".toList]

/-- Names of the KPI tables, io/outputs.py L2024-2028, L2051-2055, L2072-2076. -/
def kpiTables (root : FPath) : List Name :=
  ["KPI_economic_".toList, "KPI_technical_".toList, "output_".toList].flatMap fun t =>
    [t ++ lastName root ++ ".pkl".toList, t ++ lastName root ++ ".csv".toList]

/-- `INDIR` and `OUTDIR`, constants.py L8-9. -/
def inDir : Name := "inputs".toList
def outDir : Name := "outputs".toList

/-- Everywhere a run of the combinations `cs` makes a directory: read_excel.py L64-68 and L75-79,
parametric_analysis.py L61-67, io/outputs.py L131-136 and L1596-1601. -/
def dirPaths (root : FPath) (cs : List (ℤ × ℤ)) : List FPath :=
  [root ++ [inDir], root ++ [outDir], root ++ [outDir, "KPIs".toList]] ++
  cs.flatMap fun c => (root ++ [outDir, folderName c]) ::
    periods.map fun p => root ++ [outDir, folderName c, p]

/-- Everywhere it writes a file: logging.py L46, read_excel.py L44-46, parametric_analysis.py L126-128,
fixed_order.py L161-164, mpc.py L670-673, and the figures and tables of io/outputs.py. -/
def filePaths (root : FPath) (cs : List (ℤ × ℤ)) : List FPath :=
  [root ++ ["pylesa.log".toList], root ++ [inDir, "inputs.pkl".toList]] ++
  (cs.flatMap fun c => [root ++ [inDir, pickleName c],
      root ++ [outDir, folderName c, "outputs.pkl".toList]] ++
    periods.flatMap fun p => figures.map fun f => root ++ [outDir, folderName c, p, f]) ++
  (kpiTables root ++ kpiFigures).map fun f => root ++ [outDir, "KPIs".toList, f]

/-- The actions a run may take; in which order, and how far it gets, depends on the rest of the program. -/
def Action.allowed (root : FPath) (cs : List (ℤ × ℤ)) : Action C → Prop
  | .freshDir p => p ∈ dirPaths root cs
  | .write p _ => p ∈ filePaths root cs

/-- A run: each action with whether its `rmtree` breaks. Errors do not stop the list here, so that it
also covers the two processes and handlers that carry on. -/
def runActions : FS C → List (Action C × Option (FPath → Bool)) → FS C
  | fs, [] => fs
  | fs, (a, b) :: as => runActions (a.exec b fs).2 as

end Files
end Verif
