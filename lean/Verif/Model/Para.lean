import Verif.Model.AuxHeater

/-!
# Parametric study: `/repo/pylesa/parametric_analysis.py` and the enumeration in
`/repo/pylesa/io/outputs.py` (`ThreeDPlots.__init__`, the size parsing of `Calcs`)

Text is a list of characters. Sizes and steps are integers (`range` accepts nothing else). A directory
of pickle files is a function from file names to contents.
-/

set_option autoImplicit false

namespace Verif
open InputText
namespace Para

/-- Python's `range(a, b, s)`. -/
def pyRange (a b s : ℤ) : Except PyErr (List ℤ) :=
  if s = 0 then .error .valueError
  else if 0 < s then .ok ((List.range ((b - a + s - 1) / s).toNat).map (fun k : ℕ => a + k * s))
  else .ok ((List.range ((a - b - s - 1) / (-s)).toNat).map (fun k : ℕ => a + k * s))

/-- The ranges of the sheet, `pa` in `Para.__init__`. -/
structure Ranges where
  hpMin : ℤ
  hpMax : ℤ
  hpStep : ℤ
  tsMin : ℤ
  tsMax : ℤ
  tsStep : ℤ

/-- Heat pump sizes, parametric_analysis.py L28-35. -/
def hpSizes (pa : Ranges) : Except PyErr (List ℤ) :=
  if pa.hpMin = pa.hpMax then .ok [pa.hpMin]
  else pyRange pa.hpMin (pa.hpMax + pa.hpStep) pa.hpStep

/-- Store sizes, parametric_analysis.py L37-44 (the end of the range is computed with the heat pump
step, as written). -/
def tsSizes (pa : Ranges) : Except PyErr (List ℤ) :=
  if pa.tsMin = pa.tsMax then .ok [pa.tsMin]
  else pyRange pa.tsMin (pa.tsMax + pa.hpStep) pa.tsStep

/-- Pairs, parametric_analysis.py L46-51. -/
def pairs (hps tss : List ℤ) : List (ℤ × ℤ) := hps.flatMap (fun h => tss.map (fun t => (h, t)))

/-- `Para.combos`, parametric_analysis.py L28-51. -/
def combos (pa : Ranges) : Except PyErr (List (ℤ × ℤ)) :=
  match hpSizes pa with
  | .error e => .error e
  | .ok hps => match tsSizes pa with
    | .error e => .error e
    | .ok tss => .ok (pairs hps tss)

/-- `str` of an integer. -/
def showInt : ℤ → List Char
  | .ofNat n => Nat.toDigits 10 n
  | .negSucc n => '-' :: Nat.toDigits 10 (n + 1)

/-- `'hp_' + str(h) + '_ts_' + str(t)`, parametric_analysis.py L56-57. -/
def folderName (c : ℤ × ℤ) : List Char :=
  "hp_".toList ++ showInt c.1 ++ "_ts_".toList ++ showInt c.2

/-- `Para.folder_name`, parametric_analysis.py L53-58. -/
def folderNames (pa : Ranges) : Except PyErr (List (List Char)) :=
  match combos pa with
  | .error e => .error e
  | .ok cs => .ok (cs.map folderName)

/-! ## Output folders -/

/-- A directory: contents by name. -/
abbrev Dir (F : Type) := List Char → Option F

/-- Putting an entry in a directory. -/
def Dir.put {F : Type} (d : Dir F) (name : List Char) (f : F) : Dir F :=
  fun n => if n = name then some f else d n

/-- Making the output folders, parametric_analysis.py L60-67: an existing folder is emptied. -/
def makeFolders {F : Type} (empty : F) : List (List Char) → Dir F → Dir F
  | [], d => d
  | n :: ns, d => makeFolders empty ns (d.put n empty)

/-! ## Input pickles -/

/-- The contents of an input pickle: the entries the study changes (`hp_basics['capacity'][0]`, the
`duty` columns of the four regression tables, `thermal_storage['capacity'][0]`) and the rest. -/
structure Inputs (ρ : Type) where
  hpCapacity : ℚ
  duty1 : List ℚ
  duty2 : List ℚ
  duty3 : List ℚ
  duty4 : List ℚ
  tsCapacity : ℚ
  rest : ρ

/-- The factor of the duties, parametric_analysis.py L89-92. -/
def ratio (hp : ℤ) (capacity : ℚ) : ℚ :=
  if capacity = 0 then 0 else pyRound ((hp : ℚ) / capacity) 2

/-- Body of the loop of `create_pickles`, parametric_analysis.py L77-123. -/
def resize {ρ : Type} (c : ℤ × ℤ) (i : Inputs ρ) : Inputs ρ :=
  let capacity := i.hpCapacity
  let i := { i with hpCapacity := (c.1 : ℚ) }
  let r := ratio c.1 capacity
  let i := { i with duty1 := i.duty1.map (fun d => d * r) }
  let i := { i with duty2 := i.duty2.map (fun d => d * r) }
  let i := { i with duty3 := i.duty3.map (fun d => d * r) }
  let i := { i with duty4 := i.duty4.map (fun d => d * r) }
  { i with tsCapacity := (c.2 : ℚ) }

/-- `"inputs.pkl"`. -/
def baseFile : List Char := "inputs.pkl".toList

/-- `folder_name[i] + ".pkl"`, parametric_analysis.py L126. -/
def pickleName (c : ℤ × ℤ) : List Char := folderName c ++ ".pkl".toList

/-- `create_pickles`, parametric_analysis.py L69-128, on the input directory; the base is read again for
each combination (L75). -/
def createPickles {ρ : Type} : List (ℤ × ℤ) → Dir (Inputs ρ) → Except PyErr (Dir (Inputs ρ))
  | [], d => .ok d
  | c :: cs, d => match d baseFile with
    | none => .error .fileNotFoundError
    | some base => createPickles cs (d.put (pickleName c) (resize c base))

/-! ## The KPI stage -/

/-- The sizes enumerated by `ThreeDPlots.__init__`, outputs.py L1607-1627. -/
def kpiCombos (pa : Ranges) : Except PyErr (List (ℤ × ℤ)) := do
  let hps ← if pa.hpMin = pa.hpMax then pure [pa.hpMin]
    else pyRange pa.hpMin (pa.hpMax + pa.hpStep) pa.hpStep
  let tss ← if pa.tsMin = pa.tsMax then pure [pa.tsMin]
    else pyRange pa.tsMin (pa.tsMax + pa.hpStep) pa.tsStep
  return hps.flatMap (fun h => tss.map (fun t => (h, t)))

/-- The names and results read, outputs.py L1629-1639; `outputs` gives the contents of
`<name>/outputs.pkl`. -/
def readResults {R : Type} (outputs : Dir R) :
    List (ℤ × ℤ) → Except PyErr (List (List Char × R))
  | [] => .ok []
  | c :: cs => match outputs (folderName c) with
    | none => .error .fileNotFoundError
    | some r => match readResults outputs cs with
      | .error e => .error e
      | .ok rs => .ok ((folderName c, r) :: rs)

/-- `ThreeDPlots.__init__`, outputs.py L1603-1639. -/
def kpiResults {R : Type} (pa : Ranges) (outputs : Dir R) :
    Except PyErr (List (List Char × R)) :=
  match kpiCombos pa with
  | .error e => .error e
  | .ok cs => readResults outputs cs

/-- `str.replace("_", " ")`, outputs.py L1335, L1353, L1398. -/
def spaced (cs : List Char) : List Char := cs.map (fun c => if c = '_' then ' ' else c)

/-- Splitting at every space. -/
def splitSpace : List Char → List (List Char)
  | [] => [[]]
  | c :: cs =>
    if c = ' ' then [] :: splitSpace cs
    else match splitSpace cs with
      | [] => [[c]]
      | w :: ws => (c :: w) :: ws

/-- `str.split()` of text whose only white space is spaces. -/
def words (cs : List Char) : List (List Char) := (splitSpace cs).filter (fun w => w ≠ [])

/-- `s.isdigit()` for ASCII text. -/
def isDigits (w : List Char) : Bool := w ≠ [] ∧ ∀ c ∈ w, c.isDigit = true

/-- `[int(s) for s in str.split() if s.isdigit()]`, outputs.py L1336, L1354, L1399. -/
def numbers (name : List Char) : List ℕ :=
  ((words (spaced name)).filter isDigits).filterMap (digitsVal 0)

/-- `t[k]` of the numbers in a name. -/
def numberAt (name : List Char) (k : ℕ) : Except PyErr ℕ :=
  match (numbers name)[k]? with
  | some n => .ok n
  | none => .error .indexError

end Para
end Verif
