import Verif.Base

/-!
# The part of pandas the input stage uses

`/repo/pylesa/io/read_excel.py`, `/repo/pylesa/io/inputs.py` and `/repo/pylesa/environment/weather.py`
read a workbook into data frames and cut pieces out of them. A data frame is described here as a
view: the labels of its rows and columns, in order, each with the position it has in an underlying
grid of cells. Dropping, selecting, renaming and renumbering change the labels only; nothing moves
in the grid.

Labels are assumed distinct along each axis where a single one is looked up (the first match counts).
-/

set_option autoImplicit false

namespace Verif
namespace Pandas

/-- The contents of a cell: a number or text. Dates and booleans are outside the model. -/
inductive Cell where
  | num (x : ℚ)
  | text (s : String)
  deriving DecidableEq

/-- A cell, `none` when empty (`NaN`). -/
abbrev Value := Option Cell

/-- A worksheet: the size of its used range and its cells, by row number as Excel shows it (from 1) and
column number (from 0). -/
structure Sheet where
  width : ℕ
  height : ℕ
  cell : ℕ → ℕ → Value

/-- A workbook: its sheets by name. -/
abbrev Workbook := String → Option Sheet

/-- A row or column label. `unnamed k` is the text `'Unnamed: k'` pandas makes for an empty header cell;
`other` a header cell that is not text. -/
inductive Key where
  | unnamed (k : ℕ)
  | named (s : String)
  | pos (k : ℕ)
  | other (x : ℚ)
  deriving DecidableEq

/-- A data frame: labels and grid positions of the rows, of the columns, and the grid (row, column). -/
structure DataFrame where
  index : List (Key × ℕ)
  columns : List (Key × ℕ)
  cell : ℕ → ℕ → Value

/-- The label of column `k`, from its header cell. -/
def headerKey (v : Value) (k : ℕ) : Key :=
  match v with
  | none => .unnamed k
  | some (.text s) => .named s
  | some (.num x) => .other x

/-- `pd.read_excel` of one sheet (read_excel.py L71): the first row is the header, the rows below are
numbered from 0. Grid positions are those of the sheet. -/
def readSheet (s : Sheet) : DataFrame where
  index := (List.range (s.height - 1)).map (fun i => (.pos i, i + 2))
  columns := (List.range s.width).map (fun k => (headerKey (s.cell 1 k) k, k))
  cell := s.cell

/-- `excel_sheets[name]`: a missing sheet raises `KeyError`. -/
def sheetOf (wb : Workbook) (name : String) : Except PyErr DataFrame :=
  match wb name with
  | none => .error .keyError
  | some s => .ok (readSheet s)

namespace DataFrame

/-- `df[c][r]`: an unknown label raises `KeyError`. -/
def get (f : DataFrame) (c r : Key) : Except PyErr Value :=
  match f.columns.lookup c with
  | none => .error .keyError
  | some j => match f.index.lookup r with
    | none => .error .keyError
    | some i => .ok (f.cell i j)

/-- `df[c]` as the list of its entries. -/
def column (f : DataFrame) (c : Key) : Except PyErr (List Value) :=
  match f.columns.lookup c with
  | none => .error .keyError
  | some j => .ok (f.index.map (fun r => f.cell r.2 j))

/-- `df.drop(index=rows, columns=cols)`: an unknown label raises `KeyError`. -/
def drop (f : DataFrame) (rows cols : List Key) : Except PyErr DataFrame :=
  if (∀ r ∈ rows, r ∈ f.index.map Prod.fst) ∧ (∀ c ∈ cols, c ∈ f.columns.map Prod.fst) then
    .ok { f with
      index := f.index.filter (fun p => p.1 ∉ rows)
      columns := f.columns.filter (fun p => p.1 ∉ cols) }
  else .error .keyError

/-- `df.dropna(axis='index', how='any')`: only rows without an empty cell stay. -/
def dropnaRows (f : DataFrame) : DataFrame :=
  { f with index := f.index.filter (fun r => f.columns.all (fun c => (f.cell r.2 c.2).isSome)) }

/-- The new label of `k`. -/
def relabel (m : List (Key × String)) (k : Key) : Key :=
  match m.lookup k with
  | some s => .named s
  | none => k

/-- `df.rename(columns=m)`: labels that do not occur are ignored. -/
def rename (f : DataFrame) (m : List (Key × String)) : DataFrame :=
  { f with columns := f.columns.map (fun p => (relabel m p.1, p.2)) }

/-- `df.rename(index=m)`. -/
def renameIndex (f : DataFrame) (m : List (Key × String)) : DataFrame :=
  { f with index := f.index.map (fun p => (relabel m p.1, p.2)) }

/-- Numbering a list of positions from `n`. -/
def number : ℕ → List (Key × ℕ) → List (Key × ℕ)
  | _, [] => []
  | n, p :: ps => (.pos n, p.2) :: number (n + 1) ps

/-- `df.reset_index(drop=True)`. -/
def resetIndex (f : DataFrame) : DataFrame := { f with index := number 0 f.index }

/-- `df.iloc[a:b]`. -/
def iloc (f : DataFrame) (a b : ℕ) : DataFrame := { f with index := (f.index.drop a).take (b - a) }

/-- `df.transpose()`. -/
def transpose (f : DataFrame) : DataFrame where
  index := f.columns
  columns := f.index
  cell := fun i j => f.cell j i

/-- `df.loc[r, c] = v` for labels that exist. (For a new label pandas would enlarge the frame; the
model raises `KeyError`.) -/
def setCell (f : DataFrame) (r c : Key) (v : Value) : Except PyErr DataFrame :=
  match f.index.lookup r with
  | none => .error .keyError
  | some i => match f.columns.lookup c with
    | none => .error .keyError
    | some j => .ok { f with cell := fun i' j' => if i' = i ∧ j' = j then v else f.cell i' j' }

/-- `df[c] = g(df[c])` for a column that exists, entry by entry. -/
def mapColumn (f : DataFrame) (c : Key) (g : Value → Value) : Except PyErr DataFrame :=
  match f.columns.lookup c with
  | none => .error .keyError
  | some j => .ok { f with cell := fun i' j' => if j' = j then g (f.cell i' j') else f.cell i' j' }

end DataFrame

/-! ## Frames put together from others -/

/-- A frame numbered from 0 that is not a view of one sheet: its columns and its rows. -/
structure Table where
  columns : List Key
  rows : List (Key → Value)

namespace Table

/-- The entries of a frame by label, row by row. -/
def ofFrame (f : DataFrame) : Table where
  columns := f.columns.map Prod.fst
  rows := f.index.map (fun r k => match f.columns.lookup k with
    | none => none
    | some j => f.cell r.2 j)

/-- `pd.concat([t, pd.DataFrame({name: xs})], axis=1)` for frames numbered from 0: the shorter one is
filled with empty cells. -/
def addColumn (t : Table) (name : String) (xs : List Value) : Table where
  columns := t.columns ++ [.named name]
  rows := (List.range (max t.rows.length xs.length)).map (fun i k =>
    if k = .named name then (xs[i]?).getD none
    else match t.rows[i]? with
      | none => none
      | some row => row k)

/-- `pd.concat(ts, ignore_index=True)`: columns in order of first appearance, rows one after the other. -/
def concat : List Table → Table
  | [] => ⟨[], []⟩
  | t :: ts =>
    let rest := concat ts
    ⟨t.columns ++ rest.columns.filter (fun c => c ∉ t.columns), t.rows ++ rest.rows⟩

/-- `df.dropna()`. -/
def dropna (t : Table) : Table :=
  { t with rows := t.rows.filter (fun row => t.columns.all (fun c => (row c).isSome)) }

/-- `df.drop(columns=cs)`. -/
def drop (t : Table) (cs : List Key) : Except PyErr Table :=
  if ∀ c ∈ cs, c ∈ t.columns then .ok { t with columns := t.columns.filter (fun c => c ∉ cs) }
  else .error .keyError

end Table

/-! ## Values as Python objects -/

/-- A dictionary with text keys and cell values, in the order written (keys are distinct). -/
abbrev Dict := List (String × Value)

/-- `d[k]`. -/
def Dict.get (d : Dict) (k : String) : Except PyErr Value :=
  match d.lookup k with
  | none => .error .keyError
  | some v => .ok v

/-- A method of `str` called on a cell; numbers and empty cells are not text. -/
def textOf : Value → Except PyErr String
  | some (.text s) => .ok s
  | _ => .error .attributeError

/-- A cell used as a number. Text and empty cells are outside the model: pandas would go on with text or
`NaN`; the model stops with `other`. -/
def numOf : Value → Except PyErr ℚ
  | some (.num x) => .ok x
  | _ => .error .other

end Pandas
end Verif
