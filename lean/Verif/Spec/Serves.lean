import Verif.Spec.Tank

/-!
# Specification vocabulary for stores that serve a run to its end
-/

set_option autoImplicit false

namespace Verif.Spec

/-- A store of two or three layers, without openings, whose walls lose something but in a pass at most a tenth of a
layer's excess over the surroundings, in air that is always as warm, between temperatures water can have: the air is
colder than the return, the return colder than flow and source, and the water of source and flow needs the same
heat per kg in the program's table (it is rounded to tens of degrees). -/
structure SteadyStore (tk : Tank) (net : NetTemps) (air : ℚ) : Prop where
  usable : UsableTank tk
  layers : tk.number ≤ 3
  sealed : tk.connection = 0
  wall : 0 < tk.wall
  insulation : ∃ k, tk.kValue = .ok k ∧ tk.wall * k * 10 ≤ tk.nodeMass * 4178
  surroundings : ∀ hour < 8760, tk.ambTemp hour = .ok air
  warmAir : net.source - air ≤ 10 * air
  ret : air < net.ret
  flow : net.ret < net.flow ∧ net.flow ≤ 100
  source : net.ret < net.source ∧ net.source ≤ 100
  spread : net.sourceDelta ≠ 0
  heats : pyRoundTens net.source = pyRoundTens net.flow

/-- A stratified profile of the tank's layers, all warmer than the air and colder than the source. -/
def Between (tk : Tank) (air source : ℚ) (nodes : List ℚ) : Prop :=
  nodes.length = tk.number ∧ Stratified nodes ∧ ∀ t ∈ nodes, air < t ∧ t < source

/-- Half a layer holds the heat of this demand, above the return temperature. -/
def LayersHold (tk : Tank) (net : NetTemps) (demand : ℚ) : Prop :=
  demand * 3600 * 1000 ≤ tk.nodeMass / 2 * 4178 * (net.flow - net.ret)

/-- A store of 30 cubic metres in three layers, with a wall. -/
def bigStore : Tank := { wallTank with capacity := 30000 }

end Verif.Spec
