import Verif.Base

/-!
# Enumerations (`/repo/pylesa/heat/enums.py`) and the auxiliary heater's configuration
(`/repo/pylesa/heat/auxiliary.py`)

Members are strings (`class HP(str, Enum)`), so a member equals its value and a plain string with
that value. `in` (L9-10) compares with the members by `==`.
-/

set_option autoImplicit false

namespace Verif

/-- `HP`, enums.py L25-28. -/
inductive HPType where
  | ashp | gshp | wshp
  deriving DecidableEq, Repr

/-- `ModelName`, enums.py L31-35. -/
inductive ModelName where
  | simple | lorentz | generic | standard
  deriving DecidableEq, Repr

/-- `DataInput`, enums.py L38-40. -/
inductive DataInput where
  | integrated | peak
  deriving DecidableEq, Repr

/-- `Fuel`, enums.py L43-47. -/
inductive Fuel where
  | gas | wood | kerosene | electric
  deriving DecidableEq, Repr

/-- An enumeration of string values: its members in order and the value of each. -/
class StrEnum (α : Type) where
  members : List α
  value : α → String

instance : StrEnum HPType where
  members := [.ashp, .gshp, .wshp]
  value
    | .ashp => "ASHP"
    | .gshp => "GSHP"
    | .wshp => "WSHP"

instance : StrEnum ModelName where
  members := [.simple, .lorentz, .generic, .standard]
  value
    | .simple => "SIMPLE"
    | .lorentz => "LORENTZ"
    | .generic => "GENERIC REGRESSION"
    | .standard => "STANDARD TEST REGRESSION"

instance : StrEnum DataInput where
  members := [.integrated, .peak]
  value
    | .integrated => "INTEGRATED PERFORMANCE"
    | .peak => "PEAK PERFORMANCE"

instance : StrEnum Fuel where
  members := [.gas, .wood, .kerosene, .electric]
  value
    | .gas => "GAS"
    | .wood => "WOOD CHIPS"
    | .kerosene => "KEROSENE"
    | .electric => "ELECTRIC"

namespace Enums
open StrEnum

/-- `SingleTypeCheck.from_value`, enums.py L12-22. -/
def fromValue (α : Type) [StrEnum α] (v : String) : Except PyErr α :=
  match (members (α := α)).find? (fun m => value m == v) with
  | some m => .ok m
  | none => .error .keyError

/-- A Python value offered where a member is expected: a member, a plain string, or anything
else (which equals no member). -/
inductive Arg (α : Type) where
  | member (a : α)
  | text (s : String)
  | other

/-- `arg == m` for a member `m`. -/
def eqMember {α : Type} [StrEnum α] [DecidableEq α] (arg : Arg α) (m : α) : Bool :=
  match arg with
  | .member a => decide (a = m)
  | .text s => s == value m
  | .other => false

/-- `arg in E`, `SingleTypeCheck.__contains__`, enums.py L9-10. -/
def isIn {α : Type} [StrEnum α] [DecidableEq α] (arg : Arg α) : Bool :=
  (members (α := α)).any (eqMember arg)

end Enums
end Verif
