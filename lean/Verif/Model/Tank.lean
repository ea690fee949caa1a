import Verif.Model.FixedOrder
import Mathlib.Data.List.Sort

/-!
# Hot water tank (`/repo/pylesa/storage/hot_water_tank.py`)

Node 0 is the top. Node temperatures are a list of `number_nodes` rationals.

`odeint` is given a right-hand side (`model_temp`, L614-650 and L841-877) that does not look at its
argument `z`: it reads the temperatures at the beginning of the internal step. So each call integrates a
constant over a span of length one, and the result is that constant added to the old temperatures. This is
how the model writes it; that `odeint` integrates a constant exactly is in the trusted base.

The tank's geometry enters only through two numbers, `wall` (the product `Fe * Fi / (r2 - r1) * pi *
(r1^2 + h * (r2 + r1))`, L515-516 and L570-571, without the conductivity `k`) and `connection` (`Fe * cl`,
L571). `Verif.Model.TankGeometry` computes them over the reals.
-/

set_option autoImplicit false

namespace Verif

/-- `self.location` after `lower().strip()`, L53. -/
inductive TankLocation where
  | inside | outside | invalid
  deriving DecidableEq, Repr

/-- A `HotWaterTank`, L27-81. `insulation` is after `lower().strip()`. -/
structure Tank where
  capacity : ℚ
  number : ℕ
  insulation : String
  location : TankLocation
  air : List ℚ
  wall : ℚ
  connection : ℚ

/-- Temperatures of the heat network at one hour. -/
structure NetTemps where
  source : ℚ
  sourceDelta : ℚ
  flow : ℚ
  ret : ℚ

namespace Tank

/-- Division where zero raises. With numpy numbers the code would go on with inf or nan; those runs are
outside the model. -/
def safeDiv (a b : ℚ) : Except PyErr ℚ := if b = 0 then .error .zeroDivisionError else .ok (a / b)

/-- `init_temps`, L83-87. -/
def initTemps (tk : Tank) (initial : ℚ) : List ℚ := List.replicate tk.number initial

/-- `calc_node_mass`, L89-97. -/
def nodeMass (tk : Tank) : ℚ := tk.capacity / tk.number

/-- `insulation_k_value`, L99-113, with the table of L17-21. -/
def kValue (tk : Tank) : Except PyErr ℚ :=
  if tk.insulation = "polyurethane" then .ok (25 / 1000 * 3600)
  else if tk.insulation = "fibreglass" then .ok (4 / 100 * 3600)
  else if tk.insulation = "polystyrene" then .ok (35 / 1000 * 3600)
  else .error .valueError

/-- `self.cp`, L74-81, from `data/water_spec_heat.pkl`, in J/(kg K). -/
def cpTable : List (ℤ × ℚ) :=
  [(0, 4217), (10, 4192), (20, 4182), (30, 4178), (40, 4179), (50, 4181), (60, 4185), (70, 4190),
    (80, 4196), (90, 4205), (100, 4216)]

/-- `specific_heat_water` of a number, L115-136. The branch L133-134 (4180 for anything that is neither `int`
nor `float`) is not reached by the controllers: node temperatures are floats, and the temperatures of the
network are items of columns of dtype object, which hold Python numbers. -/
def specificHeat (t : ℚ) : Except PyErr ℚ :=
  if 100 ≥ t ∧ t ≥ 0 then
    match cpTable.lookup (pyRoundTens t) with
    | some c => .ok c
    | none => .error .keyError
  else .error .valueError

/-- `amb_temp`, L148-174. -/
def ambTemp (tk : Tank) (hour : ℕ) : Except PyErr ℚ :=
  match tk.location with
  | .outside => match tk.air[hour]? with
    | some t => .ok t
    | none => .error .keyError
  | .inside => .ok 15
  | .invalid => .error .valueError

/-- The temperature of node `i`. -/
def temp (nodes : List ℚ) (i : ℕ) : ℚ := nodes.getD i 0

/-- `discharging_function`, L176-219, for node `i`. -/
def dischargeFlag (state : TankState) (nodes : List ℚ) (flow : ℚ) (i : ℕ) : ℚ :=
  match state with
  | .discharging =>
    if i = 0 ∧ flow ≤ temp nodes 0 then 1
    else if i = 0 ∧ flow ≥ temp nodes 0 then 0
    else if flow < temp nodes i ∧ flow ≥ temp nodes (i - 1) then 1
    else 0
  | _ => 0

/-- `charging_function`, L253-298, for node `i`. -/
def chargeFlag (state : TankState) (nodes : List ℚ) (source : ℚ) (i : ℕ) : ℚ :=
  match state with
  | .charging =>
    if i = 0 ∧ source ≥ temp nodes 0 then 1
    else if i = 0 ∧ source ≤ temp nodes 0 then 0
    else if source ≥ temp nodes i ∧ source ≤ temp nodes (i - 1) then 1
    else 0
  | _ => 0

/-- `discharging_bottom_node`, L221-251, for node `i`. -/
def dischargeBottom (n : ℕ) (state : TankState) (nodes : List ℚ) (flow : ℚ) (i : ℕ) : ℚ :=
  if (List.range n).any (fun j => dischargeFlag state nodes flow j = 1) then
    if i = n - 1 ∧ temp nodes 0 ≥ flow then 1
    else 0
  else 0

/-- `charging_top_node`, L300-310, for node `i`. -/
def chargeOut (n : ℕ) (state : TankState) (i : ℕ) : ℚ :=
  if state = .charging ∧ i = n - 1 then 1 else 0

/-- The last flagged node among the first `n`, else `n` (L330-341). -/
def lastFlag (n : ℕ) (flag : ℕ → ℚ) : ℕ :=
  (List.range n).foldl (fun acc j => if flag j = 1 then j else acc) n

/-- The four mixing factors, L328. -/
structure Mixing where
  Fcnt : ℚ
  Fcnb : ℚ
  Fdnt : ℚ
  Fdnb : ℚ

/-- `mixing_function`, L312-379, for node `i`. -/
def mixing (n : ℕ) (state : TankState) (nodes : List ℚ) (source flow : ℚ) (i : ℕ) : Mixing :=
  let nc := lastFlag n (chargeFlag state nodes source)
  let nd := lastFlag n (dischargeFlag state nodes flow)
  match state with
  | .charging =>
    { Fcnt := if i ≤ nc then 0 else 1
      Fcnb := if i = n - 1 ∨ i < nc then 0 else 1
      Fdnt := 0
      Fdnb := 0 }
  | .discharging =>
    { Fcnt := 0
      Fcnb := 0
      Fdnt := if i = 0 ∨ i ≤ nd then 0 else 1
      Fdnb := if i = n - 1 ∨ i < nd then 0 else 1 }
  | .standby => ⟨0, 0, 0, 0⟩

/-- What one internal step needs besides the node temperatures: mass flow `m`, conductivity `k` and
surrounding temperature `amb`. -/
structure StepEnv where
  m : ℚ
  k : ℚ
  amb : ℚ

/-- `coefficient_A`, L488-519, and with `m` the node mass `coefficient_A_max`, L705-741; `cp` is the
specific heat at the node. -/
def coefA (tk : Tank) (e : StepEnv) (state : TankState) (nodes : List ℚ) (net : NetTemps)
    (i : ℕ) (cp : ℚ) : ℚ :=
  let mf := mixing tk.number state nodes net.source net.flow i
  (-(dischargeFlag state nodes net.flow i) * e.m * cp - mf.Fdnt * e.m * cp - mf.Fcnb * e.m * cp
    - chargeOut tk.number state i * e.m * cp - tk.wall * e.k) / (tk.nodeMass * cp)

/-- `coefficient_B`, L521-530, and `coefficient_B_max`, L743-753. -/
def coefB (tk : Tank) (e : StepEnv) (state : TankState) (nodes : List ℚ) (net : NetTemps)
    (i : ℕ) : ℚ :=
  (mixing tk.number state nodes net.source net.flow i).Fcnt * e.m / tk.nodeMass

/-- `coefficient_C`, L532-539, and `coefficient_C_max`, L755-765. -/
def coefC (tk : Tank) (e : StepEnv) (state : TankState) (nodes : List ℚ) (net : NetTemps)
    (i : ℕ) : ℚ :=
  (mixing tk.number state nodes net.source net.flow i).Fdnb * e.m / tk.nodeMass

/-- `coefficient_D`, L541-574, and `coefficient_D_max`, L767-802. -/
def coefD (tk : Tank) (e : StepEnv) (state : TankState) (nodes : List ℚ) (net : NetTemps)
    (i : ℕ) (cp : ℚ) : ℚ :=
  (chargeFlag state nodes net.source i * e.m * cp * net.source
    + dischargeBottom tk.number state nodes net.flow i * e.m * cp * net.ret
    + tk.wall * e.k * e.amb + tk.connection) / (tk.nodeMass * cp)

/-- `model_temp` for node `i`, L614-650 and L841-877. -/
def slope (tk : Tank) (e : StepEnv) (state : TankState) (nodes : List ℚ) (net : NetTemps)
    (i : ℕ) (cp : ℚ) : ℚ :=
  let A := coefA tk e state nodes net i cp
  let B := coefB tk e state nodes net i
  let C := coefC tk e state nodes net i
  let D := coefD tk e state nodes net i cp
  if i = 0 then A * temp nodes i + C * temp nodes (i + 1) + D
  else if i = tk.number - 1 then A * temp nodes i + B * temp nodes (i - 1) + D
  else A * temp nodes i + B * temp nodes (i - 1) + C * temp nodes (i + 1) + D

/-- Specific heats of all nodes (`set_of_coefficients`, L589-599, evaluates them node by node). -/
def cps : List ℚ → Except PyErr (List ℚ)
  | [] => .ok []
  | t :: ts => match specificHeat t with
    | .error e => .error e
    | .ok c => match cps ts with
      | .error e => .error e
      | .ok cs => .ok (c :: cs)

/-- What the coefficients read besides the mass flow; raises as they do. -/
def env (tk : Tank) (hour : ℕ) (nodes : List ℚ) : Except PyErr (List ℚ × ℚ × ℚ) :=
  match cps nodes with
  | .error e => .error e
  | .ok cs => match tk.kValue with
    | .error e => .error e
    | .ok k => match tk.ambTemp hour with
      | .error e => .error e
      | .ok amb => .ok (cs, k, amb)

/-- One `odeint` call: the temperatures one internal step later, before sorting. With a single node the
right-hand side reads a node that does not exist (L620). -/
def euler (tk : Tank) (e : StepEnv) (cs : List ℚ) (state : TankState) (nodes : List ℚ)
    (net : NetTemps) : Except PyErr (List ℚ) :=
  if tk.number = 1 then .error .indexError
  else .ok ((List.range tk.number).map (fun i =>
    temp nodes i + slope tk e state nodes net i (cs.getD i 0)))

/-- `DH_flow_post_mix`, L416-421. -/
def networkMass (net : NetTemps) (demand : ℚ) : Except PyErr ℚ :=
  match specificHeat net.flow with
  | .error e => .error e
  | .ok cp => safeDiv demand (cp / 1000 * (net.flow - net.ret))

/-- `source_out_pre_mix`, L423-428. -/
def sourceMass (net : NetTemps) (thermal : ℚ) : Except PyErr ℚ :=
  match specificHeat net.source with
  | .error e => .error e
  | .ok cp => safeDiv thermal (cp / 1000 * net.sourceDelta)

/-- `mass_flow_calc`, L456-486, with `thermal_storage_mass_charging` L430-440 and
`thermal_storage_mass_discharging` L442-454. -/
def massFlow (state : TankState) (net : NetTemps) (thermal demand bottom top : ℚ) :
    Except PyErr ℚ :=
  match state with
  | .standby => .ok 0
  | .charging =>
    match sourceMass net thermal with
    | .error e => .error e
    | .ok s => match networkMass net demand with
      | .error e => .error e
      | .ok d => safeDiv (s * net.sourceDelta - d * (net.flow - net.ret)) (net.source - bottom)
  | .discharging =>
    match networkMass net demand with
    | .error e => .error e
    | .ok d => match sourceMass net thermal with
      | .error e => .error e
      | .ok s => match safeDiv (d * (net.flow - net.ret) - s * net.sourceDelta) (top - net.ret) with
        | .error e => .error e
        | .ok x => .ok |x|

/-- `sorted(nodes_temp, reverse=True)`, L701. -/
def sortDown (xs : List ℚ) : List ℚ := xs.insertionSort (· ≥ ·)

/-- One pass of the loop L686-702: mass flow, limited to one node (L586), Euler step, sorting. -/
def internalStep (tk : Tank) (hour : ℕ) (state : TankState) (net : NetTemps) (thermal demand : ℚ)
    (nodes : List ℚ) : Except PyErr (List ℚ) :=
  match massFlow state net thermal demand (temp nodes (tk.number - 1)) (temp nodes 0) with
  | .error e => .error e
  | .ok m1 => match env tk hour nodes with
    | .error e => .error e
    | .ok (cs, k, amb) =>
      match euler tk ⟨min m1 tk.nodeMass, k, amb⟩ cs state nodes net with
      | .error e => .error e
      | .ok new => .ok (sortDown new)

/-- The loop L686-702: the profiles after each of `t` internal steps. -/
def profiles (tk : Tank) (hour : ℕ) (state : TankState) (net : NetTemps) (thermal demand : ℚ) :
    ℕ → List ℚ → Except PyErr (List (List ℚ))
  | 0, _ => .ok []
  | t + 1, nodes => match internalStep tk hour state net thermal demand nodes with
    | .error e => .error e
    | .ok new => match profiles tk hour state net thermal demand t new with
      | .error e => .error e
      | .ok rest => .ok (new :: rest)

/-- What `new_nodes_temp` returns: usually a list of profiles, but in two cases a flat list of
numbers. -/
inductive NodesOut where
  | profiles (ps : List (List ℚ))
  | flat (xs : List ℚ)
  deriving DecidableEq

/-- Number of internal steps, L659-668. -/
def stepCount (tk : Tank) (massTotal : ℚ) : ℕ :=
  (max (min (tk.number : ℤ) ⌈massTotal / tk.nodeMass⌉) 1).toNat

/-- `new_nodes_temp`, L602-703. The controllers always pass `number_nodes` temperatures; other lengths
are outside the model (error `other`). With zero nodes `nodes_temp[-1]` (L662) raises. -/
def newNodesTemp (tk : Tank) (hour : ℕ) (state : TankState) (net : NetTemps) (nodes : List ℚ)
    (thermal demand : ℚ) : Except PyErr NodesOut :=
  if nodes.length ≠ tk.number then .error .other
  else if tk.capacity = 0 then .ok (.flat nodes)
  else if nodes.sum = net.source * nodes.length ∧ state = .charging then
    .ok (.flat (List.replicate nodes.length nodes).flatten)
  else if tk.number = 0 then .error .indexError
  else
    match massFlow state net thermal demand (temp nodes (tk.number - 1)) (temp nodes 0) with
    | .error e => .error e
    | .ok mf =>
      let t := stepCount tk (mf * 3600)
      match profiles tk hour state net (thermal * 3600 / t) (demand * 3600 / t) t nodes with
      | .error e => .error e
      | .ok ps => .ok (.profiles ps)

/-- Energy counted in one pass of the loop L893-902, in J; `cp` is at the source temperature. -/
def stepEnergy (tk : Tank) (state : TankState) (net : NetTemps) (cp : ℚ) (nodes : List ℚ) : ℚ :=
  if state = .charging ∧ net.source > temp nodes (tk.number - 1) then
    tk.nodeMass * cp * (net.source - temp nodes (tk.number - 1))
  else if state = .discharging ∧ temp nodes 0 > net.flow then
    tk.nodeMass * cp * (temp nodes 0 - net.ret)
  else 0

/-- The loop L893-914: total energy of `t` passes. -/
def energyLoop (tk : Tank) (hour : ℕ) (state : TankState) (net : NetTemps) (cp : ℚ) :
    ℕ → List ℚ → Except PyErr ℚ
  | 0, _ => .ok 0
  | t + 1, nodes =>
    match env tk hour nodes with
    | .error e => .error e
    | .ok (cs, k, amb) =>
      match euler tk ⟨tk.nodeMass, k, amb⟩ cs state nodes net with
      | .error e => .error e
      | .ok new => match energyLoop tk hour state net cp t new with
        | .error e => .error e
        | .ok rest => .ok (stepEnergy tk state net cp nodes + rest)

/-- `max_energy_in_out`, L822-918, in kWh. -/
def maxEnergy (tk : Tank) (hour : ℕ) (state : TankState) (net : NetTemps) (nodes : List ℚ) :
    Except PyErr ℚ :=
  if nodes.length ≠ tk.number then .error .other
  else if nodes.sum ≥ net.source * nodes.length ∧ state = .charging then .ok 0
  else if nodes.sum ≤ net.ret * nodes.length ∧ state = .discharging then .ok 0
  else if tk.capacity = 0 then .ok 0
  else
    match env tk hour nodes with
    | .error e => .error e
    | .ok _ => match specificHeat net.source with
      | .error e => .error e
      | .ok cp => match energyLoop tk hour state net cp (tk.number - 1) nodes with
        | .error e => .error e
        | .ok total => .ok (total / 3600000)

/-- The controllers use the last entry (`[-1]`, fixed_order.py L281, mpc.py L389). The last entry of a
flat list is one number; the next use of it as a profile raises `TypeError`. Simplification: the error is raised at
once, also in the last hour of a run, where the program never uses the number. -/
def lastProfile : NodesOut → Except PyErr (List ℚ)
  | .profiles ps => match ps.getLast? with
    | some p => .ok p
    | none => .error .indexError
  | .flat _ => .error .typeError

/-- The real tank as the fixed order controller sees it; `net` gives the temperatures of each hour. -/
def toTankI (tk : Tank) (net : ℕ → NetTemps) (initial : ℚ) : TankI (List ℚ) where
  capacity := tk.capacity
  initTemps := initTemps tk initial
  maxInOut hour state nodes := maxEnergy tk hour state (net hour) nodes
  newNodes hour state nodes thermal demand :=
    match newNodesTemp tk hour state (net hour) nodes thermal demand with
    | .error e => .error e
    | .ok out => lastProfile out

end Tank
end Verif
