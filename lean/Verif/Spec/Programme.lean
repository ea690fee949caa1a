import Verif.Model.Programme
import Verif.Spec.Run
import Verif.Spec.Workbook

/-!
# Vocabulary for a whole study
-/

set_option autoImplicit false

namespace Verif
open Pandas Simulation
namespace Spec

/-- A number in this cell is not below `x`. -/
def NotBelow (wb : Pandas.Workbook) (sheet : String) (col : Char) (row : ℕ) (x : ℚ) : Prop :=
  ∀ y, Holds wb sheet col row y → x ≤ y

/-- A number in this cell is not above `x`. -/
def NotAbove (wb : Pandas.Workbook) (sheet : String) (col : Char) (row : ℕ) (x : ℚ) : Prop :=
  ∀ y, Holds wb sheet col row y → y ≤ x

/-- The order written in this cell lists no process twice and is safe. -/
def GoodOrder (wb : Pandas.Workbook) (below : Bool) (row : ℕ) : Prop :=
  ∀ t order, Says wb "Controller" 'D' row t → InputText.readOrder t.toList = .ok order →
    order.Nodup ∧ SafeOrder below order

/-- Meaningful entries: a battery without negative numbers, its initial charge, efficiencies and losses at
most 1; no negative heat demand; a flow temperature of the network not below the return temperature; two
orders without repetition, safe in the sense of `SafeOrder`. -/
structure Sensible (wb : Pandas.Workbook) : Prop where
  battery : ∀ s row, wb "Electrical storage" = some s → FirstComplete s [5] [0, 1] row →
    (∀ col ∈ ['C', 'D', 'E', 'F', 'G', 'H', 'I'], NotBelow wb "Electrical storage" col row 0) ∧
    (∀ col ∈ ['D', 'G', 'H', 'I'], NotAbove wb "Electrical storage" col row 1)
  heat : ∀ row, 6 ≤ row → NotBelow wb "Demand input" 'D' row 0
  network : ∀ ret, Holds wb "Demand input" 'I' 6 ret →
    ∀ row, 6 ≤ row → NotBelow wb "Demand input" 'F' row ret
  above : GoodOrder wb false 8
  below : GoodOrder wb true 9

/-- At every hour the heat pump has a positive COP and no negative duty. -/
def GoodPump {N : Type} (S : RunIn N) : Prop := ∀ p ∈ S.perf, 0 < p.cop ∧ 0 ≤ p.duty

/-- Process `p` is listed in the order written in this cell. -/
def Lists (wb : Pandas.Workbook) (row : ℕ) (p : ℤ) : Prop :=
  ∃ t order, Says wb "Controller" 'D' row t ∧ InputText.readOrder t.toList = .ok order ∧ p ∈ order

/-- The wind and PV libraries give one value for each of the 8760 hours. -/
structure WholeYear (L : Libs) : Prop where
  user : ∀ a b c d w xs, L.userTurbine a b c d w = .ok xs → xs.length = 8760
  data : ∀ a b c w xs, L.dataTurbine a b c w = .ok xs → xs.length = 8760

end Spec
end Verif
