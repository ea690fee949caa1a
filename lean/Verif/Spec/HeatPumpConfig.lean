import Verif.Model.HeatPumpConfig

/-!
# What a valid heat pump configuration is
-/

set_option autoImplicit false

namespace Verif
open Enums HpConfig StrEnum

namespace Spec

/-- A value a user may give for an enumeration: a member or its exact text. -/
def Names {α : Type} [StrEnum α] (a : Arg α) (m : α) : Prop :=
  a = .member m ∨ a = .text (value m)

/-- C14: a temperature given as one number or for each of the 8760 hours. -/
def FullYearTemp : TempArg → Prop
  | .scalar _ => True
  | .array xs => xs.length = 8760
  | .series xs => xs.length = 8760

/-- C14, C17: test data with two temperature columns and as many (at least one) rows of cop and duty
data, each in one or two dimensions. -/
def ShapesOk (d : TestData) : Prop :=
  ∃ n, 0 < n ∧ d.xShape = [n, 2] ∧
    (d.copShape = [n] ∨ ∃ k, 0 < k ∧ d.copShape = [n, k]) ∧
    (d.dutyShape = [n] ∨ ∃ k, 0 < k ∧ d.dutyShape = [n, k])

/-- C14: the model is known and its own inputs are given. -/
inductive ModelInputsOk (a : HpArgs) : Prop
  | simple (c : ℚ) (h : Names a.approach .simple) (hc : a.simpleCop = some c)
  | lorentz (s : LorentzSpec) (h : Names a.approach .lorentz) (hs : a.lorentz = some s)
  | generic (p : HPType) (h : Names a.approach .generic) (hp : a.hpType = .member p)
  | standard (d : TestData) (h : Names a.approach .standard) (hd : a.standard = some d)
      (hshape : ShapesOk d)

/-- C14: a valid configuration. -/
structure ValidConfig (a : HpArgs) : Prop where
  hpType : ∃ p, Names a.hpType p
  dataInput : ∃ d, Names a.dataInput d
  flow : FullYearTemp a.flow
  ret : FullYearTemp a.ret
  ambient : a.ambient.length = 8760
  model : ModelInputsOk a

/-- C13: the temperature of the heat source at one hour, from air and water temperature. -/
def SourceTemp (a : Arg HPType) (row : ℚ × ℚ) (t : ℚ) : Prop :=
  (Names a .ashp → t = row.1) ∧ (¬ Names a .ashp → t = row.2)

/-- C65: input sheets with complete hourly data and, for the standard model, usable test data. -/
structure SheetOk (s : Sheet) : Prop where
  source : s.source.length = 8760
  ambient : s.ambient.length = 8760
  standard : s.approach = .standard → ShapesOk s.standard

end Spec
end Verif
