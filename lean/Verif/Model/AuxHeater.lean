import Verif.Model.Enums

/-!
# Auxiliary heater (`/repo/pylesa/heat/auxiliary.py`) and the text read from the input sheet
(`/repo/pylesa/io/read_excel.py`, `/repo/pylesa/io/inputs.py`)
-/

set_option autoImplicit false

namespace Verif
open Enums StrEnum

/-- An entry of `fuel_info`. -/
structure FuelInfo where
  cost : ℚ
  energyDensity : ℚ
  deriving DecidableEq

/-- An `Aux` object; cost and density are `None` for electricity (auxiliary.py L43-45). -/
structure AuxObj where
  fuel : Arg Fuel
  efficiency : ℚ
  cost : Option ℚ
  energyDensity : Option ℚ

namespace Aux

/-- The text a fuel argument hashes and compares as; a `str` mixin member is its value. Anything that is
not a string is not a key of the table. -/
def keyOf : Arg Fuel → Option String
  | .member f => some (value f)
  | .text s => some s
  | .other => none

/-- `fuel_info[fuel]`; the table is a list of key and entry, the first match counting. -/
def lookup (info : List (String × FuelInfo)) (fuel : Arg Fuel) : Option FuelInfo :=
  match keyOf fuel with
  | none => none
  | some k => info.lookup k

/-- `Aux.__init__` with the `fuel` setter, auxiliary.py L17-29 and L35-52. L43 is an identity test:
a plain string `"ELECTRIC"` is not the member. -/
def construct (fuel : Arg Fuel) (efficiency : ℚ) (info : List (String × FuelInfo)) :
    Except PyErr AuxObj :=
  if isIn fuel then
    if (match fuel with | .member .electric => true | _ => false) then
      .ok ⟨fuel, efficiency, none, none⟩
    else
      match lookup info fuel with
      | none => .error .keyError
      | some e => .ok ⟨fuel, efficiency, some e.cost, some e.energyDensity⟩
  else .error .valueError

/-- `fuel_usage`, L54-63. Zero efficiency raises. -/
def fuelUsage (a : AuxObj) (demand : ℚ) : Except PyErr ℚ :=
  if a.efficiency = 0 then .error .zeroDivisionError else .ok (demand / a.efficiency)

end Aux

namespace InputText

/-- Reading one enumeration from the sheet: `.upper()`, `in`, `from_value`
(io/inputs.py L182-187, L191-196, L201-206). Lean's `toUpper` acts on ASCII letters; Python's also on
others, none of which occurs in a valid name. -/
def readEnum (α : Type) [StrEnum α] [DecidableEq α] (s : String) : Except PyErr α :=
  if isIn (α := α) (.text s.toUpper) then fromValue α s.toUpper else .error .valueError

/-- One character of `int(text)`. -/
def digitVal (c : Char) : Option ℕ := if c.isDigit then some (c.toNat - '0'.toNat) else none

/-- The digits of `int(text)`, without sign. -/
def digitsVal : ℕ → List Char → Option ℕ
  | acc, [] => some acc
  | acc, c :: cs => match digitVal c with
    | none => none
    | some d => digitsVal (acc * 10 + d) cs

/-- `str.strip` of spaces. -/
def strip (cs : List Char) : List Char :=
  ((cs.dropWhile (· == ' ')).reverse.dropWhile (· == ' ')).reverse

/-- `int(text)` for text of an optional sign and ASCII digits, surrounded by spaces; anything else
raises `ValueError`. Python also allows other white space, underscores between digits and non-ASCII
digits; those inputs are outside the model. -/
def pyInt (cs : List Char) : Except PyErr ℤ :=
  match strip cs with
  | [] => .error .valueError
  | '-' :: c :: cs => match digitsVal 0 (c :: cs) with
    | some n => .ok (-(n : ℤ))
    | none => .error .valueError
  | '+' :: c :: cs => match digitsVal 0 (c :: cs) with
    | some n => .ok n
    | none => .error .valueError
  | c :: cs => match digitsVal 0 (c :: cs) with
    | some n => .ok n
    | none => .error .valueError

/-- `text.split(',')` (never empty). -/
def splitComma : List Char → List (List Char)
  | [] => [[]]
  | c :: cs =>
    if c = ',' then [] :: splitComma cs
    else match splitComma cs with
      | [] => [[c]]
      | w :: ws => (c :: w) :: ws

/-- `[int(i) for i in ls]`. -/
def readInts : List (List Char) → Except PyErr (List ℤ)
  | [] => .ok []
  | w :: ws => match pyInt w with
    | .error e => .error e
    | .ok n => match readInts ws with
      | .error e => .error e
      | .ok ns => .ok (n :: ns)

/-- Reading an order of processes, io/read_excel.py L118-123. -/
def readOrder (cs : List Char) : Except PyErr (List ℤ) := readInts (splitComma cs)

end InputText
end Verif
