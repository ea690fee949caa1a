import Verif.Model.DemandFiles
import Verif.Props.Demand

/-!
# The standard profiles of the demand functions (C118)
-/

set_option autoImplicit false

namespace Verif
open Demand Files

/-! ## Specification -/

/-- What the package has in its data directory (`/repo/pylesa/data`), relative to that directory. -/
def Spec.packaged : List (List String) :=
  [[], ["Open Notebook.onetoc2"], ["PV_output.csv"], ["__init__.py"],
   ["demand"], ["demand", "demand.xlsx"], ["demand", "demand_profiles.pkl"],
   ["demand", "electricity_profiles.xlsx"], ["demand", "predicted_elec_demand.csv"],
   ["demand", "predicted_heat_demand.csv"],
   ["oedb"], ["oedb", "power_coefficient_curves.csv"], ["oedb", "power_curves.csv"], ["oedb", "turbine_data.csv"],
   ["power_curves.csv"], ["sam-library-cec-inverters-2018-3-18.csv"],
   ["sam-library-cec-modules-2017-6-5.csv"], ["water_spec_heat.csv"], ["water_spec_heat.pkl"],
   ["wind_turbine_data"], ["wind_turbine_data", "power_coefficient_curves.csv"],
   ["wind_turbine_data", "power_curves.csv"], ["wind_turbine_data", "turbine_data.csv"]]

/-- Nothing is in the data directory of the package but what comes with it. The rest of the disk is free. -/
def Spec.AsShipped (pkg : FPath) (fs : FS Content) : Prop :=
  ∀ rest : List Name, fs (pkg ++ named "data" :: rest) ≠ none →
    ∃ p ∈ Spec.packaged, rest = p.map String.toList

/-- A file of a settlement: in the folder of that name, in the folder `inputs`. -/
def Spec.inputOf (root : FPath) (subname : Name) (name : String) : FPath :=
  root ++ ["inputs".toList, subname, name.toList]

theorem studyFile_eq (root : FPath) (subname : Name) (name : String) :
    studyFile root subname name = Spec.inputOf root subname name := rfl

/-- Every settlement described on the disk has at least one row of houses. -/
def Spec.SomeHouses (fs : FS Content) : Prop :=
  ∀ root subname, fs (Spec.inputOf root subname "heating.pkl") ≠ some (.file (.heating []))

/-- The file of a settlement is missing, or it is what it should be. -/
structure Spec.GoodStudy (fs : FS Content) (root : FPath) (subname : Name) : Prop where
  heating : fs (Spec.inputOf root subname "heating.pkl") = none ∨
    ∃ rows, fs (Spec.inputOf root subname "heating.pkl") = some (.file (.heating rows))
  resources : fs (Spec.inputOf root subname "resources.pkl") = none ∨
    ∃ air, fs (Spec.inputOf root subname "resources.pkl") = some (.file (.resources air))

/-- The settlement a call is about has good files (calls without a settlement: nothing to ask). -/
def Spec.GoodCall (fs : FS Content) : Call → Prop
  | .elecProfile _ root subname | .predictElec _ root subname | .heatProfiles root subname
  | .heatProfile root subname | .predictHeat root subname => Spec.GoodStudy fs root subname
  | _ => True

/-! ## Reading -/

theorem missing {pkg : FPath} {fs : FS Content} (h : Spec.AsShipped pkg fs) {name : String}
    (hn : [name] ∉ Spec.packaged) : fs (dataFile pkg name) = none := by
  by_contra hne
  obtain ⟨p, hp, he⟩ := h [named name] hne
  refine hn ?_
  rcases p with _ | ⟨a, _ | ⟨b, r⟩⟩
  · cases he
  · have : name = a := String.toList_injective (List.cons.inj he).1
    rw [this]
    exact hp
  · cases (List.cons.inj he).2

theorem readFile_missing {fs : FS Content} {p : FPath} (h : fs p = none) :
    readFile fs p = .error .fileNotFoundError := by
  unfold readFile
  rw [h]

theorem importElexon_missing {pkg : FPath} {fs : FS Content} (h : Spec.AsShipped pkg fs) :
    importElexon pkg fs = .error .fileNotFoundError := by
  unfold importElexon
  rw [readFile_missing (missing h (by decide))]
  rfl

theorem readSheets_missing {pkg : FPath} {fs : FS Content} (h : Spec.AsShipped pkg fs) :
    readSheets pkg fs = .error .fileNotFoundError := by
  unfold readSheets
  rw [readFile_missing (missing h (by decide))]
  rfl

theorem standardFile_missing {pkg : FPath} {fs : FS Content} (h : Spec.AsShipped pkg fs) :
    standardFile pkg fs = .error .fileNotFoundError := by
  unfold standardFile
  rw [readFile_missing (missing h (by decide))]
  rfl

/-- How `heating.pkl` is read. -/
theorem readHeating_cases (fs : FS Content) (root : FPath) (subname : Name) :
    (∃ rows, readHeating fs root subname = .ok rows ∧
      fs (Spec.inputOf root subname "heating.pkl") = some (.file (.heating rows))) ∨
    ∃ e, readHeating fs root subname = .error e := by
  unfold readHeating readFile
  rw [studyFile_eq]
  rcases h : fs (Spec.inputOf root subname "heating.pkl") with _ | _ | c
  · exact Or.inr ⟨_, rfl⟩
  · exact Or.inr ⟨_, rfl⟩
  · cases c
    case heating rows => exact Or.inl ⟨rows, rfl, rfl⟩
    all_goals exact Or.inr ⟨_, rfl⟩

theorem readHeating_good {fs : FS Content} {root : FPath} {subname : Name} (h : Spec.GoodStudy fs root subname) :
    (∃ rows, readHeating fs root subname = .ok rows ∧
      fs (Spec.inputOf root subname "heating.pkl") = some (.file (.heating rows))) ∨
    readHeating fs root subname = .error .fileNotFoundError := by
  unfold readHeating readFile
  rw [studyFile_eq]
  rcases h.heating with h | ⟨rows, h⟩
  · rw [h]
    exact Or.inr rfl
  · rw [h]
    exact Or.inl ⟨rows, rfl, rfl⟩

theorem readAir_good {fs : FS Content} {root : FPath} {subname : Name} (h : Spec.GoodStudy fs root subname) :
    (∃ air, readAir fs root subname = .ok air) ∨ readAir fs root subname = .error .fileNotFoundError := by
  unfold readAir readFile
  rw [studyFile_eq]
  rcases h.resources with h | ⟨air, h⟩
  · rw [h]
    exact Or.inr rfl
  · rw [h]
    exact Or.inl ⟨air, rfl⟩

theorem elecProfile_fails {pkg : FPath} {fs : FS Content} (h : Spec.AsShipped pkg fs) (year : ℕ) (root : FPath)
    (subname : Name) : ∃ e, elecProfile pkg fs year root subname = .error e ∧
      (Spec.GoodStudy fs root subname → e = .fileNotFoundError) := by
  unfold elecProfile
  by_cases hg : Spec.GoodStudy fs root subname
  · rcases readHeating_good hg with ⟨rows, hr, _⟩ | hr
    · rw [hr]
      refine ⟨.fileNotFoundError, ?_, fun _ => rfl⟩
      show (importElexon pkg fs >>= fun _ => _) = _
      rw [importElexon_missing h]
      rfl
    · rw [hr]
      exact ⟨_, rfl, fun _ => rfl⟩
  · rcases readHeating_cases fs root subname with ⟨rows, hr, _⟩ | ⟨e, hr⟩
    · rw [hr]
      refine ⟨.fileNotFoundError, ?_, fun _ => rfl⟩
      show (importElexon pkg fs >>= fun _ => _) = _
      rw [importElexon_missing h]
      rfl
    · rw [hr]
      exact ⟨e, rfl, fun h => absurd h hg⟩

theorem heatProfiles_fails {pkg : FPath} {fs : FS Content} (h : Spec.AsShipped pkg fs) (hs : Spec.SomeHouses fs)
    (root : FPath) (subname : Name) : ∃ e, heatProfiles pkg fs root subname = .error e ∧
      (Spec.GoodStudy fs root subname → e = .fileNotFoundError) := by
  have rest : ∀ (air : List ℚ) (rows : List HouseRow), rows ≠ [] →
      (match rows with
        | [] => (.ok [] : Except PyErr (List (List ℚ)))
        | _ => do
          let S ← readSheets pkg fs
          profilesFromInputs S air rows) = .error .fileNotFoundError := by
    intro air rows hne
    cases rows with
    | nil => exact absurd rfl hne
    | cons r rs =>
      show (readSheets pkg fs >>= fun _ => _) = _
      rw [readSheets_missing h]
      rfl
  unfold heatProfiles
  by_cases hg : Spec.GoodStudy fs root subname
  · rcases readHeating_good hg with ⟨rows, hr, hf⟩ | hr
    · have hne : rows ≠ [] := fun h0 => hs root subname (h0 ▸ hf)
      rw [hr]
      rcases readAir_good hg with ⟨air, ha⟩ | ha
      · refine ⟨.fileNotFoundError, ?_, fun _ => rfl⟩
        show (readAir fs root subname >>= fun _ => _) = _
        rw [ha]
        exact rest air rows hne
      · refine ⟨.fileNotFoundError, ?_, fun _ => rfl⟩
        show (readAir fs root subname >>= fun _ => _) = _
        rw [ha]
        rfl
    · rw [hr]
      exact ⟨_, rfl, fun _ => rfl⟩
  · rcases readHeating_cases fs root subname with ⟨rows, hr, hf⟩ | ⟨e, hr⟩
    · have hne : rows ≠ [] := fun h0 => hs root subname (h0 ▸ hf)
      rw [hr]
      cases ha : readAir fs root subname with
      | error e =>
        refine ⟨e, ?_, fun h => absurd h hg⟩
        rfl
      | ok air =>
        refine ⟨.fileNotFoundError, ?_, fun _ => rfl⟩
        exact rest air rows hne
    · rw [hr]
      exact ⟨e, rfl, fun h => absurd h hg⟩

theorem heatProfile_fails {pkg : FPath} {fs : FS Content} (h : Spec.AsShipped pkg fs) (hs : Spec.SomeHouses fs)
    (root : FPath) (subname : Name) : ∃ e, heatProfile pkg fs root subname = .error e ∧
      (Spec.GoodStudy fs root subname → e = .fileNotFoundError) := by
  obtain ⟨e, he, hg⟩ := heatProfiles_fails h hs root subname
  refine ⟨e, ?_, hg⟩
  unfold heatProfile
  rw [he]
  rfl

/-- One call on the package as shipped. -/
theorem perform_fails {pkg : FPath} {fs : FS Content} (h : Spec.AsShipped pkg fs) (hs : Spec.SomeHouses fs)
    (c : Call) : ∃ e, perform pkg fs c = (.error e, fs) ∧ (Spec.GoodCall fs c → e = .fileNotFoundError) := by
  cases c with
  | importElexon =>
    refine ⟨_, ?_, fun _ => rfl⟩
    dsimp only [perform, reads]
    rw [importElexon_missing h]
    rfl
  | elecProfile year root subname =>
    obtain ⟨e, he, hg⟩ := elecProfile_fails h year root subname
    refine ⟨e, ?_, hg⟩
    dsimp only [perform, reads]
    rw [he]
    rfl
  | predictElec year root subname =>
    obtain ⟨e, he, hg⟩ := elecProfile_fails h year root subname
    refine ⟨e, ?_, hg⟩
    dsimp only [perform, writes]
    rw [he]
    rfl
  | plotElec =>
    refine ⟨_, ?_, fun _ => rfl⟩
    dsimp only [perform, reads]
    rw [readFile_missing (missing h (by decide))]
    rfl
  | standardFile =>
    refine ⟨_, ?_, fun _ => rfl⟩
    dsimp only [perform, writes]
    rw [standardFile_missing h]
  | standardDay =>
    refine ⟨_, ?_, fun _ => rfl⟩
    dsimp only [perform, reads]
    rw [readSheets_missing h]
    rfl
  | heatProfiles root subname =>
    obtain ⟨e, he, hg⟩ := heatProfiles_fails h hs root subname
    refine ⟨e, ?_, hg⟩
    dsimp only [perform, reads]
    rw [he]
    rfl
  | heatProfile root subname =>
    obtain ⟨e, he, hg⟩ := heatProfile_fails h hs root subname
    refine ⟨e, ?_, hg⟩
    dsimp only [perform, reads]
    rw [he]
    rfl
  | predictHeat root subname =>
    obtain ⟨e, he, hg⟩ := heatProfile_fails h hs root subname
    refine ⟨e, ?_, hg⟩
    dsimp only [perform, writes]
    rw [he]
    rfl
  | findhorn =>
    refine ⟨_, ?_, fun _ => rfl⟩
    dsimp only [perform, reads]
    rw [readFile_missing (missing h (by decide))]
    rfl

/-! ## C118 -/

/-- C118 is false: with the package as it is shipped, whatever settlements are described on the disk and whatever
the demand functions are called for, in any order and any number of times, every call raises, nothing is ever
written; and it is a `FileNotFoundError` unless the files of the settlement are themselves wrong. -/
theorem C118_never_found {pkg : FPath} {fs : FS Content} (h : Spec.AsShipped pkg fs) (hs : Spec.SomeHouses fs)
    (calls : List Call) :
    (history pkg fs calls).2 = fs ∧
    List.Forall₂ (fun c r => ∃ e, r = .error e ∧ (Spec.GoodCall fs c → e = .fileNotFoundError))
      calls (history pkg fs calls).1 := by
  induction calls with
  | nil => exact ⟨rfl, List.Forall₂.nil⟩
  | cons c cs ih =>
    obtain ⟨e, he, hg⟩ := perform_fails h hs c
    unfold history
    rw [he]
    exact ⟨ih.1, List.Forall₂.cons ⟨e, rfl, hg⟩ ih.2⟩

/-- The package as shipped on an otherwise empty disk, with one described settlement. -/
def Sample.disk : FS Content := fun p =>
  if p = Spec.inputOf [named "study"] (named "hp_100_ts_0") "heating.pkl" then
    some (.file (.heating [⟨.detached, 0, 3, 12⟩]))
  else if p = Spec.inputOf [named "study"] (named "hp_100_ts_0") "resources.pkl" then
    some (.file (.resources (List.replicate 8760 7)))
  else if (Spec.packaged.map fun q => named "pylesa" :: named "data" :: q.map String.toList).contains p then
    some (.file .other)
  else none

theorem Sample.disk_shipped : Spec.AsShipped [named "pylesa"] Sample.disk := by
  intro rest hne
  unfold Sample.disk at hne
  rw [if_neg (by intro h; exact absurd (List.cons.inj h).1 (by decide)),
    if_neg (by intro h; exact absurd (List.cons.inj h).1 (by decide))] at hne
  split_ifs at hne with hc
  · obtain ⟨q, hq, he⟩ := List.mem_map.mp (List.contains_iff_mem.mp hc)
    exact ⟨q, hq, (List.cons.inj (List.cons.inj he).2).2.symm⟩
  · exact absurd rfl hne

theorem Sample.disk_houses : Spec.SomeHouses Sample.disk := by
  intro root subname h
  unfold Sample.disk at h
  split_ifs at h <;> cases h

example : Spec.GoodCall Sample.disk (.predictElec 2019 [named "study"] (named "hp_100_ts_0")) :=
  ⟨Or.inr ⟨_, rfl⟩, Or.inr ⟨_, rfl⟩⟩

/-- C118: what a run itself reads from the package is there: the properties of water
(hot_water_tank.py L74-77) and the directory of turbine data (renewables.py L393 and L444) with its three files. -/
theorem C118_run_data : ["water_spec_heat.pkl"] ∈ Spec.packaged ∧ ["oedb"] ∈ Spec.packaged ∧
    ∀ f ∈ ["turbine_data.csv", "power_curves.csv", "power_coefficient_curves.csv"], ["oedb", f] ∈ Spec.packaged := by
  decide

theorem hourlyMeans_length (p : List ℚ) : (hourlyMeans p).length = p.length / 2 := by
  unfold hourlyMeans
  rw [List.length_map, List.length_range]

/-- C118: of a column of half-hourly powers the hourly profile takes, for each hour, the mean of its two half
hours. -/
theorem C118_half_hours {p : List ℚ} {h : ℕ} (hh : 2 * h + 1 < p.length) :
    (hourlyMeans p)[h]? = some ((p[2 * h] + p[2 * h + 1]) / 2) := by
  unfold hourlyMeans
  rw [List.getElem?_map, List.getElem?_range (by omega)]
  show some ((p.getD (2 * h) 0 + p.getD (2 * h + 1) 0) / 2) = _
  rw [List.getD_eq_getElem?_getD, List.getD_eq_getElem?_getD, List.getElem?_eq_getElem (by omega : 2 * h < p.length),
    List.getElem?_eq_getElem hh]
  rfl

example : (hourlyMeans [1, 3, 2, 4])[1]? = some 3 :=
  (C118_half_hours (p := [1, 3, 2, 4]) (h := 1) (by decide)).trans (by decide +kernel)

theorem sum_pairs : ∀ (n : ℕ) (p : List ℚ), p.length = 2 * n →
    ((List.range n).map fun h => p.getD (2 * h) 0 + p.getD (2 * h + 1) 0).sum = p.sum := by
  intro n
  induction n with
  | zero =>
    intro p hp
    rw [List.length_eq_zero_iff.mp hp]
    rfl
  | succ n ih =>
    intro p hp
    rcases p with _ | ⟨a, _ | ⟨b, q⟩⟩
    · simp at hp
    · simp at hp; omega
    · rw [List.range_succ_eq_map, List.map_cons, List.sum_cons, List.map_map]
      have hq : q.length = 2 * n := by simp at hp; omega
      have := ih q hq
      rw [List.sum_cons, List.sum_cons, ← this, ← add_assoc]
      refine congrArg₂ (· + ·) rfl (congrArg List.sum (List.map_congr_left fun h _ => ?_))
      show (a :: b :: q).getD (2 * (h + 1)) 0 + (a :: b :: q).getD (2 * (h + 1) + 1) 0 = _
      rw [show 2 * (h + 1) = 2 * h + 1 + 1 by ring]
      rfl

/-- C118: the energy of a day is kept: the hourly values add up to the half-hourly ones taken for half an hour
each. -/
theorem C118_day_energy {p : List ℚ} (hp : p.length = 48) :
    (hourlyMeans p).length = 24 ∧ (hourlyMeans p).sum = (p.map (· * (1/2))).sum := by
  refine ⟨by rw [hourlyMeans_length, hp], ?_⟩
  have h := sum_pairs 24 p hp
  unfold hourlyMeans
  rw [hp]
  have hm : ∀ (xs : List ℚ) (f : ℚ → ℚ), (∀ x, f x = x * (1/2)) → (xs.map f).sum = xs.sum * (1/2) := by
    intro xs f hf
    induction xs with
    | nil => simp
    | cons x xs ih => rw [List.map_cons, List.sum_cons, List.sum_cons, ih, hf]; ring
  rw [hm p _ (fun _ => rfl), ← h, ← hm _ (fun x => x / 2) (fun x => by ring), List.map_map]
  rfl

example : hourlyMeans [1, 3, 2, 2] = [2, 2] := by decide +kernel

theorem elecProfile_eq {pkg : FPath} {fs : FS Content} {root : FPath} {subname : Name} {rows : List HouseRow}
    {table : Season → DayType → List ℚ} (hr : readHeating fs root subname = .ok rows)
    (ht : importElexon pkg fs = .ok table) (year : ℕ) :
    elecProfile pkg fs year root subname = profileFromInput table year (rows.map (·.number)) := by
  unfold elecProfile
  generalize profileFromInput = f
  rw [hr, ht]
  rfl

/-- C118, what is left of it: with the sheet of half-hourly powers where the function looks for it (48 half hours in
every column) and a settlement with houses, the electricity profile of any year is found. Its value in an hour is the
number of houses times the mean of the two half hours, in the column of the season and the kind of day. -/
theorem C118_electricity_partial {pkg : FPath} {fs : FS Content} {columns : Season → DayType → List ℚ}
    {root : FPath} {subname : Name} {rows : List HouseRow}
    (hf : fs (dataFile pkg "electricity_profiles.xlsx") = some (.file (.elexon columns)))
    (hc : ∀ s d, (columns s d).length = 48)
    (hh : fs (Spec.inputOf root subname "heating.pkl") = some (.file (.heating rows))) (hr : rows ≠ []) (year : ℕ) :
    ∃ ys, elecProfile pkg fs year root subname = .ok ys ∧ ys.length = 8760 ∧
      ∀ hour < 8760, ∃ s d a b, Spec.seasonOfDay (hour / 24) = some s ∧ dayOfWeek year hour = .ok d ∧
        (columns s d)[2 * (hour % 24)]? = some a ∧ (columns s d)[2 * (hour % 24) + 1]? = some b ∧
        ys[hour]? = some ((a + b) / 2 * (rows.map (·.number)).sum) := by
  have hread : readHeating fs root subname = .ok rows := by
    unfold readHeating readFile
    rw [studyFile_eq]
    rw [hh]
    rfl
  have helex : importElexon pkg fs = .ok fun s d => hourlyMeans (columns s d) := by
    unfold importElexon readFile
    rw [hf]
    show Except.ok _ = Except.ok _
    refine congrArg Except.ok (funext fun s => funext fun d => ?_)
    rw [List.take_of_length_le (by rw [hc])]
  obtain ⟨zs, hz, hl, hget⟩ := C58_year_series (table := fun s d => hourlyMeans (columns s d))
    (fun s d => by rw [hourlyMeans_length, hc]) year
  have hprof : ∃ ys, profileFromInput (fun s d => hourlyMeans (columns s d)) year (rows.map (·.number)) = .ok ys := by
    unfold profileFromInput
    rw [hz]
    cases rows with
    | nil => exact absurd rfl hr
    | cons r rs => exact ⟨_, rfl⟩
  obtain ⟨ys, hys⟩ := hprof
  have he := C79_electricity hys hz
  refine ⟨ys, ?_, by rw [he, List.length_map, hl], fun hour hlt => ?_⟩
  · exact (elecProfile_eq hread helex year).trans hys
  · obtain ⟨s, d, hs, hd, hg⟩ := hget hour hlt
    have h24 : hour % 24 < 24 := Nat.mod_lt _ (by norm_num)
    have hb : 2 * (hour % 24) + 1 < (columns s d).length := by rw [hc]; omega
    refine ⟨s, d, _, _, hs, hd, List.getElem?_eq_getElem (by omega), List.getElem?_eq_getElem hb, ?_⟩
    rw [he, List.getElem?_map, hg]
    rw [C118_half_hours hb]
    rfl

/-- C118, what is left of it: with the pickle of standard heat profiles where the function looks for it, and the three
files of a settlement, the heat demand found is the one of C78. -/
theorem C118_heat_partial {pkg : FPath} {fs : FS Content} {S : Sheets} {root : FPath} {subname : Name}
    {rows : List HouseRow} {air : List ℚ} {hotWater : ℚ}
    (hf : fs (dataFile pkg "demand.demand_profiles.pkl") = some (.file (.heatPickle S)))
    (hh : fs (Spec.inputOf root subname "heating.pkl") = some (.file (.heating rows)))
    (ha : fs (Spec.inputOf root subname "resources.pkl") = some (.file (.resources air)))
    (hw : fs (Spec.inputOf root subname "hot_water.pkl") = some (.file (.hotWater hotWater))) :
    heatProfile pkg fs root subname = aggregate S air rows hotWater := by
  have hread : readHeating fs root subname = .ok rows := by
    unfold readHeating readFile
    rw [studyFile_eq]
    rw [hh]
    rfl
  have hair : readAir fs root subname = .ok air := by
    unfold readAir readFile
    rw [studyFile_eq]
    rw [ha]
    rfl
  have hS : readSheets pkg fs = .ok S := by
    unfold readSheets readFile
    rw [hf]
    rfl
  have hhw : readHotWater fs root subname = .ok (hotWaterHour rows hotWater) := by
    unfold readHotWater readFile
    rw [studyFile_eq]
    rw [hw]
    show (readHeating fs root subname >>= fun _ => _) = _
    rw [hread]
    rfl
  have hprof : heatProfiles pkg fs root subname = profilesFromInputs S air rows := by
    unfold heatProfiles
    rw [hread]
    show (readAir fs root subname >>= fun _ => _) = _
    rw [hair]
    cases rows with
    | nil => rfl
    | cons r rs =>
      show (readSheets pkg fs >>= fun _ => _) = _
      rw [hS]
      rfl
  unfold heatProfile aggregate
  rw [hprof, hhw]
  rfl

/-- The workbook and the pickle of standard heat profiles lie where they are looked for. -/
def Spec.HeatFound (pkg : FPath) (S : Sheets) (fs : FS Content) : Prop :=
  fs (dataFile pkg "demand.demand.xlsx") = some (.file (.heatBook S)) ∧
  fs (dataFile pkg "demand.demand_profiles.pkl") = some (.file (.heatPickle S))

theorem dataFile_ne {pkg : FPath} {a b : String} (h : a ≠ b) : dataFile pkg a ≠ dataFile pkg b := by
  unfold dataFile
  intro he
  have := List.append_cancel_left he
  simp only [List.cons.injEq, true_and, and_true] at this
  exact h (String.toList_injective this)

theorem writes_found {pkg : FPath} {S : Sheets} {fs : FS Content} (h : Spec.HeatFound pkg S fs) {name : String}
    (h1 : "demand.demand.xlsx" ≠ name) (h2 : "demand.demand_profiles.pkl" ≠ name) (x : Except PyErr Content) :
    Spec.HeatFound pkg S (writes fs (dataFile pkg name) x).2 := by
  cases x with
  | error e => exact h
  | ok c => exact ⟨(if_neg (dataFile_ne h1)).trans h.1, (if_neg (dataFile_ne h2)).trans h.2⟩

theorem standardFile_found {pkg : FPath} {fs : FS Content} {S : Sheets}
    (hf : fs (dataFile pkg "demand.demand.xlsx") = some (.file (.heatBook S))) :
    (perform pkg fs .standardFile).1 = .ok () ∧ Spec.HeatFound pkg S (perform pkg fs .standardFile).2 := by
  have h : standardFile pkg fs = .ok (.heatPickle S) := by
    unfold standardFile readFile
    rw [hf]
    rfl
  dsimp only [perform]
  rw [h]
  exact ⟨rfl, (if_neg (dataFile_ne (by decide))).trans hf, if_pos rfl⟩

theorem perform_found {pkg : FPath} {S : Sheets} {fs : FS Content} (h : Spec.HeatFound pkg S fs) (c : Call) :
    Spec.HeatFound pkg S (perform pkg fs c).2 := by
  cases c
  case standardFile => exact (standardFile_found h.1).2
  case predictElec => exact writes_found h (by decide) (by decide) _
  case predictHeat => exact writes_found h (by decide) (by decide) _
  all_goals exact h

theorem readSheets_found {pkg : FPath} {S : Sheets} {fs : FS Content} (h : Spec.HeatFound pkg S fs) :
    readSheets pkg fs = .ok S := by
  unfold readSheets readFile
  rw [h.2]
  rfl

theorem history_found {pkg : FPath} {S : Sheets} : ∀ (cs : List Call) {fs : FS Content}, Spec.HeatFound pkg S fs →
    Spec.HeatFound pkg S (history pkg fs cs).2 ∧
    ∀ (i : ℕ) (c : Call), cs[i]? = some c → ∃ at', Spec.HeatFound pkg S at' ∧ (history pkg fs cs).1[i]? = some (perform pkg at' c).1
  | [], _, h => ⟨h, fun i c hc => by simp at hc⟩
  | c :: cs, fs, h => by
    obtain ⟨h1, h2⟩ := history_found cs (perform_found h c)
    refine ⟨h1, fun i d hd => ?_⟩
    cases i with
    | zero =>
      cases Option.some.inj hd
      exact ⟨fs, h, rfl⟩
    | succ i => exact h2 i d hd

/-- C118: copying the files does repair it. Once the workbook of standard heat profiles lies where
`standard_profile_file` looks for it, that call succeeds, and whatever functions are called afterwards and however
often, the pickle it wrote stays as it is and every call for a standard day finds its sheet. -/
theorem C118_repaired_partial {pkg : FPath} {fs : FS Content} {S : Sheets}
    (hf : fs (dataFile pkg "demand.demand.xlsx") = some (.file (.heatBook S))) (cs : List Call) :
    (history pkg fs (.standardFile :: cs)).1[0]? = some (.ok ()) ∧
    (history pkg fs (.standardFile :: cs)).2 (dataFile pkg "demand.demand_profiles.pkl") =
      some (.file (.heatPickle S)) ∧
    readSheets pkg (history pkg fs (.standardFile :: cs)).2 = .ok S ∧
    ∀ i : ℕ, cs[i]? = some .standardDay → (history pkg fs (.standardFile :: cs)).1[i + 1]? = some (.ok ()) := by
  obtain ⟨h0, h1⟩ := standardFile_found hf
  obtain ⟨h2, h3⟩ := history_found cs h1
  refine ⟨congrArg some h0, h2.2, readSheets_found h2, fun i hi => ?_⟩
  obtain ⟨at', ha, he⟩ := h3 i _ hi
  refine he.trans (congrArg some ?_)
  dsimp only [perform, reads]
  rw [readSheets_found ha]
  rfl

/-- The sample disk with the sheet of powers put where it is looked for. -/
def Sample.repaired : FS Content := fun p =>
  if p = dataFile [named "pylesa"] "electricity_profiles.xlsx" then
    some (.file (.elexon fun _ d => (List.range 48).map fun i => if d = .wd then (i : ℚ) else 1))
  else Sample.disk p

example : ∃ ys, elecProfile [named "pylesa"] Sample.repaired 2019 [named "study"] (named "hp_100_ts_0") = .ok ys ∧
    ys.length = 8760 := by
  obtain ⟨ys, h, hl, _⟩ := C118_electricity_partial (pkg := [named "pylesa"]) (fs := Sample.repaired)
    (root := [named "study"]) (subname := named "hp_100_ts_0") rfl (fun s d => by simp) rfl
    (by decide) 2019
  exact ⟨ys, h, hl⟩

/-- A disk with the standard heat profiles where they are looked for, and a settlement with all three files. -/
def Sample.heated : FS Content := fun p =>
  if p = dataFile [named "pylesa"] "demand.demand.xlsx" then some (.file (.heatBook fun _ => none))
  else if p = dataFile [named "pylesa"] "demand.demand_profiles.pkl" then
    some (.file (.heatPickle fun _ => some fun _ _ => List.replicate 24 2))
  else if p = Spec.inputOf [named "study"] (named "hp_100_ts_0") "hot_water.pkl" then some (.file (.hotWater 3))
  else Sample.disk p

example : ∃ S air rows, Spec.CompleteSheets S ∧
    heatProfile [named "pylesa"] Sample.heated [named "study"] (named "hp_100_ts_0") = aggregate S air rows 3 :=
  ⟨fun _ => some fun _ _ => List.replicate 24 2, List.replicate 8760 7, [⟨.detached, 0, 3, 12⟩], by
    intro _ _ _
    exact ⟨_, rfl, fun _ _ => List.length_replicate⟩, C118_heat_partial rfl rfl rfl rfl⟩

example : (history [named "pylesa"] Sample.heated [.standardFile, .importElexon, .standardDay]).1[2]? = some (.ok ()) :=
  (C118_repaired_partial (S := fun _ => none) rfl [.importElexon, .standardDay]).2.2.2 1 rfl

end Verif
