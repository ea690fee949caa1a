import Verif.Model.Tank

/-!
# Specification vocabulary for the hot water tank
-/

set_option autoImplicit false

namespace Verif.Spec

/-- A stratified profile: from the top down no node is warmer than the one above it. -/
def Stratified (nodes : List ℚ) : Prop := nodes.Pairwise (fun above below => above ≥ below)

/-- A tank that can be used: positive capacity and at least two nodes. -/
def UsableTank (tk : Tank) : Prop := 0 < tk.capacity ∧ 2 ≤ tk.number

/-- No heat crosses the wall or the openings. -/
def Lossless (tk : Tank) : Prop := tk.wall = 0 ∧ tk.connection = 0

/-- Every temperature of the profile is in the interval. -/
def Within (lo hi : ℚ) (nodes : List ℚ) : Prop := ∀ t ∈ nodes, lo ≤ t ∧ t ≤ hi

/-- Profile `a` is nowhere warmer than profile `b`, node by node. -/
def NowhereWarmer (a b : List ℚ) : Prop := List.Forall₂ (· ≤ ·) a b

/-- A 3-node tank of 300 litres inside, without losses. -/
def labTank : Tank where
  capacity := 300
  number := 3
  insulation := "polyurethane"
  location := .inside
  air := []
  wall := 0
  connection := 0

/-- The same tank with a wall. -/
def wallTank : Tank := { labTank with wall := 10 }

/-- The same tank with an opening. -/
def openTank : Tank := { wallTank with connection := 100000 }

/-- Source at 60 with spread 10, flow 55, return 40. -/
def labNet : NetTemps := ⟨60, 10, 55, 40⟩

end Verif.Spec
