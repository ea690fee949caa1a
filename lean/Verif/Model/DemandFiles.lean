import Verif.Model.Demand
import Verif.Model.Files

/-!
# Where the demand functions find their data (`/repo/pylesa/demand`)

The functions of `/repo/pylesa/demand` read standard profiles from the data directory of the package and the
houses, temperatures and hot water of a settlement from pickles in the directory of a study, and write
their predictions into the data directory. They are not called by a run; they are there to make a demand profile
for the workbook. Plots are not modelled. A file holds one of the kinds of content below; reading a file of
another kind fails with some error (`.other`).
-/

set_option autoImplicit false

namespace Verif
namespace Demand
open Files

/-- What a file can hold. -/
inductive Content where
  /-- the sheet of Elexon: its columns from the third row below the header on, a value per half hour -/
  | elexon (columns : Season → DayType → List ℚ)
  /-- the workbook of standard heat profiles -/
  | heatBook (S : Sheets)
  /-- the pickle `standard_profile_file` makes of it -/
  | heatPickle (S : Sheets)
  /-- `heating.pkl` -/
  | heating (rows : List HouseRow)
  /-- the column 'air_temperature' of `resources.pkl` -/
  | resources (air : List ℚ)
  /-- `hot_water.pkl` -/
  | hotWater (perDay : ℚ)
  /-- a column of numbers -/
  | csv (values : List ℚ)
  /-- anything else -/
  | other

/-- A name as it is written in the program. -/
def named (s : String) : Name := s.toList

/-- `ifiles('pylesa').joinpath('data', name)`; `pkg` is where the package is installed. -/
def dataFile (pkg : FPath) (name : String) : FPath := pkg ++ [named "data", named name]

/-- `root / INDIR / subname / name`, electricity_demand.py L99, heat_demand.py L163, L177, L207, L209
(`INDIR` is "inputs", constants.py L8). -/
def studyFile (root : FPath) (subname : Name) (name : String) : FPath :=
  root ++ [named "inputs", subname, named name]

/-- `pd.read_excel`, `pd.read_pickle` and `pd.read_csv` on a path. -/
def readFile (fs : FS Content) (p : FPath) : Except PyErr Content :=
  match fs p with
  | none => .error .fileNotFoundError
  | some .dir => .error .other
  | some (.file c) => .ok c

/-- `((p + p.shift(-1)) / 2)[::2]`, electricity_demand.py L26. With an odd number of rows the last would be nan; it is
left out here. -/
def hourlyMeans (p : List ℚ) : List ℚ :=
  (List.range (p.length / 2)).map fun h => (p.getD (2 * h) 0 + p.getD (2 * h + 1) 0) / 2

/-- `import_elexon_profile`, L16-28: `iloc[2:50]`, so at most 48 half hours. -/
def importElexon (pkg : FPath) (fs : FS Content) : Except PyErr (Season → DayType → List ℚ) := do
  match ← readFile fs (dataFile pkg "electricity_profiles.xlsx") with
  | .elexon columns => .ok fun s d => hourlyMeans ((columns s d).take 48)
  | _ => .error .other

/-- `pd.read_pickle(heating.pkl)`, electricity_demand.py L99-100 and heat_demand.py L177-178, L209-210. -/
def readHeating (fs : FS Content) (root : FPath) (subname : Name) : Except PyErr (List HouseRow) := do
  match ← readFile fs (studyFile root subname "heating.pkl") with
  | .heating rows => .ok rows
  | _ => .error .other

/-- `profile_from_input`, electricity_demand.py L98-116. -/
def elecProfile (pkg : FPath) (fs : FS Content) (year : ℕ) (root : FPath) (subname : Name) :
    Except PyErr (List ℚ) := do
  let rows ← readHeating fs root subname
  let table ← importElexon pkg fs
  profileFromInput table year (rows.map (·.number))

/-- `average_day_temperature`, heat_demand.py L161-165: where the air temperature comes from. -/
def readAir (fs : FS Content) (root : FPath) (subname : Name) : Except PyErr (List ℚ) := do
  match ← readFile fs (studyFile root subname "resources.pkl") with
  | .resources air => .ok air
  | _ => .error .other

/-- The reading of the standard profiles in `standard_day_profile`, L141-142. -/
def readSheets (pkg : FPath) (fs : FS Content) : Except PyErr Sheets := do
  match ← readFile fs (dataFile pkg "demand.demand_profiles.pkl") with
  | .heatPickle S => .ok S
  | _ => .error .other

/-- `profiles_from_inputs`, L175-202. The standard profiles are read anew for every day of every row, so not at all
without rows. -/
def heatProfiles (pkg : FPath) (fs : FS Content) (root : FPath) (subname : Name) :
    Except PyErr (List (List ℚ)) := do
  let rows ← readHeating fs root subname
  let air ← readAir fs root subname
  match rows with
  | [] => .ok []
  | _ => do
    let S ← readSheets pkg fs
    profilesFromInputs S air rows

/-- `hot_water_addition`, L205-227. -/
def readHotWater (fs : FS Content) (root : FPath) (subname : Name) : Except PyErr ℚ := do
  match ← readFile fs (studyFile root subname "hot_water.pkl") with
  | .hotWater q => do
    let rows ← readHeating fs root subname
    .ok (hotWaterHour rows q)
  | _ => .error .other

/-- `aggregate`, L230-245. -/
def heatProfile (pkg : FPath) (fs : FS Content) (root : FPath) (subname : Name) : Except PyErr (List ℚ) := do
  let profiles ← heatProfiles pkg fs root subname
  let hwd ← readHotWater fs root subname
  .ok ((List.range 8760).map fun hour => profiles.foldl (fun acc p => acc + p.getD hour 0) 0 + hwd)

/-- `standard_profile_file`, L111-134: the pickle it writes. -/
def standardFile (pkg : FPath) (fs : FS Content) : Except PyErr Content := do
  match ← readFile fs (dataFile pkg "demand.demand.xlsx") with
  | .heatBook S => .ok (.heatPickle S)
  | _ => .error .other

/-- The functions of the two modules that use files. -/
inductive Call where
  /-- `electricity_demand.import_elexon_profile()` -/
  | importElexon
  /-- `electricity_demand.profile_from_input(year, root, subname)` -/
  | elecProfile (year : ℕ) (root : FPath) (subname : Name)
  /-- `electricity_demand.predicted_demand(year, name, subname)` -/
  | predictElec (year : ℕ) (root : FPath) (subname : Name)
  /-- `electricity_demand.plot_demand()` -/
  | plotElec
  /-- `heat_demand.standard_profile_file()` -/
  | standardFile
  /-- `heat_demand.standard_day_profile(type, age, temp)` up to the sheet it reads -/
  | standardDay
  /-- `heat_demand.profiles_from_inputs(root, subname)` -/
  | heatProfiles (root : FPath) (subname : Name)
  /-- `heat_demand.aggregate(name, subname)` -/
  | heatProfile (root : FPath) (subname : Name)
  /-- `heat_demand.predicted_demand(name, subname)` -/
  | predictHeat (root : FPath) (subname : Name)
  /-- `heat_demand.findhorn_demand()` -/
  | findhorn

/-- `open(path, 'wb')` and `np.savetxt(path, …)`. The numbers of a csv are written with four digits (`%.3e`),
which is not modelled. -/
def writeFile (fs : FS Content) (p : FPath) (c : Content) : FS Content :=
  fun q => if q = p then some (.file c) else fs q

/-- A call that only reads. -/
def reads {α : Type} (fs : FS Content) (x : Except PyErr α) : Except PyErr Unit × FS Content :=
  ((fun _ => ()) <$> x, fs)

/-- A call that writes what it computes, if it computes something. -/
def writes (fs : FS Content) (p : FPath) (x : Except PyErr Content) : Except PyErr Unit × FS Content :=
  match x with
  | .ok c => (.ok (), writeFile fs p c)
  | .error e => (.error e, fs)

/-- What a call does: whether it raises, and the files afterwards. `predicted_demand` of electricity_demand.py
L119-138, `plot_demand` L141-143, `predicted_demand` of heat_demand.py L248-270, `findhorn_demand` L273-283. -/
def perform (pkg : FPath) (fs : FS Content) : Call → Except PyErr Unit × FS Content
  | .importElexon => reads fs (importElexon pkg fs)
  | .elecProfile year root subname => reads fs (elecProfile pkg fs year root subname)
  | .predictElec year root subname =>
    writes fs (dataFile pkg "demand.predicted_elec_demand.csv") (do
      let y ← elecProfile pkg fs year root subname
      .csv <$> predictedElec y)
  | .plotElec => reads fs (readFile fs (dataFile pkg "demand.predicted_elec_demand.csv"))
  | .standardFile => writes fs (dataFile pkg "demand.demand_profiles.pkl") (standardFile pkg fs)
  | .standardDay => reads fs (readSheets pkg fs)
  | .heatProfiles root subname => reads fs (heatProfiles pkg fs root subname)
  | .heatProfile root subname => reads fs (heatProfile pkg fs root subname)
  | .predictHeat root subname =>
    writes fs (dataFile pkg "demand.predicted_heat_demand.csv") (do
      let y ← heatProfile pkg fs root subname
      .csv <$> predictedHeat y)
  | .findhorn => reads fs (readFile fs (dataFile pkg "demand.predicted_heat_demand.csv"))

/-- Calls one after the other, each in a try block: what each of them did, and the files at the end. -/
def history (pkg : FPath) (fs : FS Content) : List Call → List (Except PyErr Unit) × FS Content
  | [] => ([], fs)
  | c :: cs =>
    let r := perform pkg fs c
    let rest := history pkg r.2 cs
    (r.1 :: rest.1, rest.2)

end Demand
end Verif
