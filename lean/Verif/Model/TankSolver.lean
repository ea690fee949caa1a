import Verif.Model.Tank

/-!
# The hot water tank with any integrator

`/repo/pylesa/storage/hot_water_tank.py` L602-703 and L822-918 again, with the call of `odeint` (L696-698, L911-913) as a
parameter. `Verif.Model.Tank` takes it to be exact.
-/

set_option autoImplicit false

namespace Verif
namespace Tank

/-- What `odeint` is asked for (L694-700, L909-914): the temperatures one unit of time after those given, when each changes
at a constant rate. The arguments are the temperatures and the rates. -/
abbrev Solver := List ℚ → List ℚ → List ℚ

/-- The exact answer. -/
def exactSolver : Solver := List.zipWith (· + ·)

/-- One `odeint` call, L696-700 and L911-914. -/
def eulerWith (ode : Solver) (tk : Tank) (e : StepEnv) (cs : List ℚ) (state : TankState) (nodes : List ℚ)
    (net : NetTemps) : Except PyErr (List ℚ) :=
  if tk.number = 1 then .error .indexError
  else .ok (ode nodes ((List.range tk.number).map (fun i => slope tk e state nodes net i (cs.getD i 0))))

/-- One pass of the loop L686-702. -/
def internalStepWith (ode : Solver) (tk : Tank) (hour : ℕ) (state : TankState) (net : NetTemps) (thermal demand : ℚ)
    (nodes : List ℚ) : Except PyErr (List ℚ) :=
  match massFlow state net thermal demand (temp nodes (tk.number - 1)) (temp nodes 0) with
  | .error e => .error e
  | .ok m1 => match env tk hour nodes with
    | .error e => .error e
    | .ok (cs, k, amb) =>
      match eulerWith ode tk ⟨min m1 tk.nodeMass, k, amb⟩ cs state nodes net with
      | .error e => .error e
      | .ok new => .ok (sortDown new)

/-- The loop L686-702. -/
def profilesWith (ode : Solver) (tk : Tank) (hour : ℕ) (state : TankState) (net : NetTemps) (thermal demand : ℚ) :
    ℕ → List ℚ → Except PyErr (List (List ℚ))
  | 0, _ => .ok []
  | t + 1, nodes => match internalStepWith ode tk hour state net thermal demand nodes with
    | .error e => .error e
    | .ok new => match profilesWith ode tk hour state net thermal demand t new with
      | .error e => .error e
      | .ok rest => .ok (new :: rest)

/-- `new_nodes_temp`, L602-703. -/
def newNodesTempWith (ode : Solver) (tk : Tank) (hour : ℕ) (state : TankState) (net : NetTemps) (nodes : List ℚ)
    (thermal demand : ℚ) : Except PyErr NodesOut :=
  if nodes.length ≠ tk.number then .error .other
  else if tk.capacity = 0 then .ok (.flat nodes)
  else if nodes.sum = net.source * nodes.length ∧ state = .charging then
    .ok (.flat (List.replicate nodes.length nodes).flatten)
  else if tk.number = 0 then .error .indexError
  else
    match massFlow state net thermal demand (temp nodes (tk.number - 1)) (temp nodes 0) with
    | .error e => .error e
    | .ok mf =>
      let t := stepCount tk (mf * 3600)
      match profilesWith ode tk hour state net (thermal * 3600 / t) (demand * 3600 / t) t nodes with
      | .error e => .error e
      | .ok ps => .ok (.profiles ps)

/-- The loop L893-914. -/
def energyLoopWith (ode : Solver) (tk : Tank) (hour : ℕ) (state : TankState) (net : NetTemps) (cp : ℚ) :
    ℕ → List ℚ → Except PyErr ℚ
  | 0, _ => .ok 0
  | t + 1, nodes =>
    match env tk hour nodes with
    | .error e => .error e
    | .ok (cs, k, amb) =>
      match eulerWith ode tk ⟨tk.nodeMass, k, amb⟩ cs state nodes net with
      | .error e => .error e
      | .ok new => match energyLoopWith ode tk hour state net cp t new with
        | .error e => .error e
        | .ok rest => .ok (stepEnergy tk state net cp nodes + rest)

/-- `max_energy_in_out`, L822-918. -/
def maxEnergyWith (ode : Solver) (tk : Tank) (hour : ℕ) (state : TankState) (net : NetTemps) (nodes : List ℚ) :
    Except PyErr ℚ :=
  if nodes.length ≠ tk.number then .error .other
  else if nodes.sum ≥ net.source * nodes.length ∧ state = .charging then .ok 0
  else if nodes.sum ≤ net.ret * nodes.length ∧ state = .discharging then .ok 0
  else if tk.capacity = 0 then .ok 0
  else
    match env tk hour nodes with
    | .error e => .error e
    | .ok _ => match specificHeat net.source with
      | .error e => .error e
      | .ok cp => match energyLoopWith ode tk hour state net cp (tk.number - 1) nodes with
        | .error e => .error e
        | .ok total => .ok (total / 3600000)

/-- The tank as the fixed order controller sees it. -/
def toTankIWith (ode : Solver) (tk : Tank) (net : ℕ → NetTemps) (initial : ℚ) : TankI (List ℚ) where
  capacity := tk.capacity
  initTemps := initTemps tk initial
  maxInOut hour state nodes := maxEnergyWith ode tk hour state (net hour) nodes
  newNodes hour state nodes thermal demand :=
    match newNodesTempWith ode tk hour state (net hour) nodes thermal demand with
    | .error e => .error e
    | .ok out => lastProfile out

end Tank
end Verif
