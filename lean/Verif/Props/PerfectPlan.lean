import Verif.Props.BothControllers
import Verif.Props.CheapestPlan
import Verif.Props.PredictiveStore

/-!
# Planning pays, from the workbook (C112)

`C112_workbook` needs an optimiser that finds cheapest plans. There is one, and with it the predictive run ends.
-/

set_option autoImplicit false

namespace Verif
open Pandas Workbook Simulation Spec Programme FixedOrder Mpc

variable {L : Libs} {wb : Pandas.Workbook} {size : ℤ × ℤ}

/-- What an optimiser should answer at this hour: the second point of a cheapest plan up to the end of the horizon, from
empty stores, for the capacities posted. -/
def Spec.CheapestAnswer (D : Dynamics) (first : ℕ) (S : MpcIn (List ℚ)) (caps : List ℚ) (hour : ℕ) (p : Point) : Prop :=
  ∃ s plan, Cheapest S D hour (horizonEnd S hour - hour) s plan ∧ p = plan 1 ∧ s.socEs = 0 ∧ s.soc = 0 ∧
    2 ≤ horizonEnd S hour - hour ∧ ∀ k, k < horizonEnd S hour - hour → caps[hour - first + k]? = some (s.maxCap k)

open Classical in
/-- An optimiser that finds such an answer whenever there is one, and fails otherwise. -/
noncomputable def Spec.perfect (D : Dynamics) (first : ℕ) : Gekko := fun S caps hour _ =>
  if h : ∃ p, CheapestAnswer D first S caps hour p then .ok h.choose else .error .other

theorem perfect_optimises (D : Dynamics) (first : ℕ) {S : MpcIn (List ℚ)} (caps : List ℚ) (h0 : 0 ≤ S.es.capacity) :
    OptimisesFor S D first caps (perfect D first S caps) := by
  intro hour a p _ h
  unfold perfect at h
  split_ifs at h with hex
  obtain ⟨s, plan, h1, h2, h3, -, h5, h6⟩ := hex.choose_spec
  refine ⟨_, s, plan, h5, h1, ?_, h3.ge, by rw [h3]; exact h0, h6⟩
  rw [← h2]
  exact (Except.ok.inj h).symm

theorem perfect_answers {D : Dynamics} {first hour a : ℕ} {S : MpcIn (List ℚ)} {caps : List ℚ}
    (h : ∃ p, CheapestAnswer D first S caps hour p) : ∃ p, perfect D first S caps hour a = .ok p := by
  unfold perfect
  rw [dif_pos h]
  exact ⟨_, rfl⟩

/-- The data of a plain run can be planned with up to the last hour of the year. -/
theorem plain_plannable {R : RunIn (List ℚ)} {S : MpcIn (List ℚ)} (hd : SameData R S) (hR : PlainRun R) (hY : FullYear R)
    {hour n : ℕ} (hn : hour + n ≤ 8760) : Plannable S hour n := by
  have E := hR.ok.es
  have get : ∀ {α : Type} {l : List α} {t : ℕ}, l.length = 8760 → t < 8760 → ∃ x ∈ l, l[t]? = some x := by
    intro α l t hl ht
    exact ⟨l[t]'(by omega), List.getElem_mem _, List.getElem?_eq_getElem (by omega)⟩
  constructor
  · rw [hd.es]
    exact ⟨E.capacity_nonneg, E.chargeMax_nonneg, E.dischargeMax_nonneg, E.chargeEff_nonneg, E.dischargeEff_nonneg,
      E.selfDischarge_nonneg⟩
  · intro k _ hk
    obtain ⟨u, hu, eu⟩ := get hY.windUser (t := hour + k) (by omega)
    obtain ⟨d, hdd, ed⟩ := get hY.windData (t := hour + k) (by omega)
    obtain ⟨p, hp, ep⟩ := get hY.pv (t := hour + k) (by omega)
    rw [hd.generation (hour + k) (u + d + p) (by
      unfold FixedOrder.generation FixedOrder.wind
      simp only [List.getElem?_zipWith_eq_some]
      exact ⟨_, _, ⟨_, _, eu, ed, rfl⟩, ep, rfl⟩)]
    have := hR.energy.windUser u hu
    have := hR.energy.windData d hdd
    have := hR.energy.pv p hp
    linarith
  · intro k _ hk
    obtain ⟨x, hx, e⟩ := get hY.elecDemand (t := hour + k) (by omega)
    rw [hd.elecDemand _ _ e]
    exact hR.energy.elecDemand x hx
  · intro k _ hk
    obtain ⟨x, hx, e⟩ := get hY.heatDemand (t := hour + k) (by omega)
    rw [hd.heatDemand _ _ e, hd.peak]
    exact ⟨hR.ok.heat_nonneg x hx, le_listMax hx⟩
  · intro k _ hk
    obtain ⟨x, hx, e⟩ := get hY.perf (t := hour + k) (by omega)
    have hmn : hpMin S (hour + k) ≤ x.duty := by
      unfold hpMin
      rw [hd.perf _ _ e, hd.hp]
      have := mul_le_mul_of_nonneg_left hR.minimum (hR.ok.duty_nonneg x hx)
      rw [div_div, div_le_iff₀ (by norm_num)]
      linarith
    rw [hd.perf _ _ e]
    exact ⟨hR.ok.cop_pos x hx, hR.ok.duty_nonneg x hx, hmn⟩

/-- A workbook for such a study: meaningful entries, a battery without capacity, an electric heater, a heat pump whose
minimum output is no more than its duty, no negative export price, and orders that serve every demand. -/
structure Spec.PlainBook (wb : Pandas.Workbook) : Prop where
  sensible : Sensible wb
  battery : ∀ s row, wb "Electrical storage" = some s → FirstComplete s [5] [0, 1] row →
    Holds wb "Electrical storage" 'C' row 0
  heater : fuelOf (excel wb "Aux heat" 'C' 6) = .ok .electric
  minimum : ∀ time out, Holds wb "Heat pump" 'D' 7 time → Holds wb "Heat pump" 'D' 8 out → out * time ≤ 6000
  exports : NotBelow wb "Grid" 'D' 9 0
  above : ∀ t order, Says wb "Controller" 'D' 8 t → InputText.readOrder t.toList = .ok order → ServesAll false order
  below : ∀ t order, Says wb "Controller" 'D' 9 t → InputText.readOrder t.toList = .ok order → ServesAll true order

/-- C112: such a workbook makes a plain run, if the heat pump has a positive COP and no negative duty and no generation or
demand is negative. -/
theorem C112_plain_book (ht : TopRowsEmpty wb) (hw : PlainBook wb) (h0 : size.2 = 0) {R : RunIn (List ℚ)}
    (h : runInputs L wb size = .ok R) (hp : GoodPump R) (he : EnergyNonneg R) : PlainRun R := by
  obtain ⟨o, T⟩ := start_ok h
  obtain ⟨-, -, o', source, flow, ret, delta, ho', htank, -⟩ := C93_demand ht h
  cases Except.ok.inj (ho'.symm.trans T.objects)
  obtain ⟨H, O⟩ := C99_meaningful ht hw.sensible h hp (le_of_eq h0.symm)
  obtain ⟨s, row, hs', hrow, b1, -⟩ := C91_battery ht T.objects
  obtain ⟨fuel, hfu, -, hel, -⟩ := C91_heater T.objects
  obtain ⟨-, -, p3, p4, -⟩ := C91_heat_pump T.objects
  obtain ⟨-, c2, ⟨a, a1, a2⟩, ⟨b, b1', b2'⟩⟩ := C91_controller h
  have hc : o.tank.capacity = 0 := by
    rw [(C91_tank T.objects).1, h0]
    rfl
  exact
    { ok := H
      stores :=
        { battery := by rw [T.es]; exact Sample.holds_inj b1 (hw.battery s row hs' hrow)
          tankCapacity := by rw [htank]; exact hc
          tank := fun hour st nodes m hm => by
            rw [htank] at hm
            by_cases hlen : nodes.length = o.tank.number
            · exact (Except.ok.inj ((C32_no_energy hc hour st _ hlen).symm.trans hm)).symm
            · have hm : o.tank.maxEnergy hour st _ nodes = .ok m := hm
              unfold Tank.maxEnergy at hm
              rw [if_pos hlen] at hm
              cases hm }
      energy := he
      electric := by rw [T.aux]; exact hel.mpr (Except.ok.inj (hfu.symm.trans hw.heater))
      minimum := by rw [T.hp]; exact hw.minimum _ _ p3 p4
      above_nodup := O.above_nodup
      below_nodup := O.below_nodup
      above := hw.above a _ a1 a2
      below := hw.below b _ b1' b2'
      exports := Or.inl (hw.exports _ c2) }

/-- With the perfect optimiser the run without stores ends. -/
theorem perfect_predicts (hL : WholeYear L) (ht : TopRowsEmpty wb) (h0 : size.2 = 0)
    {R : RunIn (List ℚ)} (h : runInputs L wb size = .ok R) (hR : PlainRun R) {D : Dynamics}
    (hs : Settles D) (hl : LinearRule D) {first n horizon : ℕ} (hf : Holds wb "Controller" 'G' 5 first)
    (hn : Holds wb "Controller" 'G' 6 n) (hh : Holds wb "Controller" 'G' 9 horizon)
    (hb : first + n + 2 * horizon < 8759 ∨ 8759 ≤ first + n + horizon) (h2 : 2 ≤ horizon) (hn2 : 2 ≤ n)
    (hyear : first + n ≤ 8759) : ∃ ms, predict L (perfect D first) wb size = .ok ms ∧ ms.length = n := by
  have hY := C99_whole_year hL ht h
  exact C100_predicts_partial (gekko := perfect D first) hL ht h h0 hf hn hh (fun S caps hS => by
    obtain ⟨hd, hz⟩ := both_inputs h hS
    have hcz := hz hR.stores.tankCapacity
    obtain ⟨_, _, _, _, _, _, _, _, T⟩ := mpcIn_ok ht hS
    have e3 : horizon = S.horizon := by exact_mod_cast Except.ok.inj (congrArg numOf (hh.symm.trans T.horizon))
    obtain ⟨source, flow, ret, delta, -, -, -, -, -, hcap⟩ := T.tank
    have hlen : caps.length = n + S.horizon := by
      unfold maxCapacity at hcap
      rw [(fill_length _ _ _ _ hcap).1, List.length_replicate]
    have answer : ∀ hour, first ≤ hour → hour < first + n → hour ≤ 8757 → ∃ p, CheapestAnswer D first S caps hour p := by
      intro hour g1 g2 g3
      have b1 : 2 ≤ horizonEnd S hour - hour := by unfold horizonEnd; split_ifs <;> omega
      have b2 : hour + (horizonEnd S hour - hour) ≤ 8760 := by unfold horizonEnd; split_ifs <;> omega
      have b3 : horizonEnd S hour - hour ≤ S.horizon := by unfold horizonEnd; split_ifs <;> omega
      obtain ⟨plan, hplan⟩ := C111_solvable (s := ⟨0, 0, fun _ => 0⟩) (by rw [hd.aux]; exact hR.electric) hs hl
        (plain_plannable hd hR hY b2) le_rfl (by rw [hd.es]; exact hR.ok.es.capacity_nonneg) le_rfl (fun _ _ _ => le_rfl)
      refine ⟨_, _, plan, hplan, rfl, rfl, rfl, b1, fun k hk => ?_⟩
      have hlt : hour - first + k < caps.length := by omega
      rw [List.getElem?_eq_getElem hlt, hcz _ (List.getElem_mem hlt)]
    exact ⟨perfect_answers (answer first le_rfl (by omega) (by omega)),
      fun hour g1 g2 g3 => Or.inl (perfect_answers (answer hour (by omega) (by omega) g3))⟩) hb h2 hn2 (by omega) (by omega)

/-- **C112, from the workbook.** In a study without stores whose fixed order leaves no demand unmet there is an optimiser
with which the predictive controller gets through the hours, every answer is the second point of a cheapest plan, and all
the hours after the first together earn at least what they earn with the fixed order controller. -/
theorem C112_planning_pays (hL : WholeYear L) (ht : TopRowsEmpty wb) (hk : KnownProcesses wb) (h0 : size.2 = 0)
    {R : RunIn (List ℚ)} (h : runInputs L wb size = .ok R) (hR : PlainRun R) {D : Dynamics} (hD : Rests D)
    (hs : Settles D) (hl : LinearRule D) {first n horizon : ℕ} (hf : Holds wb "Controller" 'G' 5 first)
    (hn : Holds wb "Controller" 'G' 6 n) (hh : Holds wb "Controller" 'G' 9 horizon)
    (hb : first + n + 2 * horizon < 8759 ∨ 8759 ≤ first + n + horizon) (h2 : 2 ≤ horizon) (hn2 : 2 ≤ n)
    (hyear : first + n ≤ 8759) :
    ∃ gekko rs ms, (∀ S caps, mpcInputs L wb size first n = .ok (S, caps) → OptimisesFor S D first caps (gekko S caps)) ∧
      simulate L wb size = .ok rs ∧ predict L gekko wb size = .ok ms ∧ rs.length = n ∧ ms.length = n ∧
      ((rs.drop 1).map (·.grid.cashflow)).sum ≤ ((ms.drop 1).map (·.grid.cashflow)).sum := by
  have hopt : ∀ S caps, mpcInputs L wb size first n = .ok (S, caps) →
      OptimisesFor S D first caps (perfect D first S caps) := fun S caps hS => by
    refine perfect_optimises D first caps ?_
    rw [(C112_same_data h hS).es]
    exact hR.ok.es.capacity_nonneg
  obtain ⟨rs, hrs, l1⟩ := C99_simulates_partial hL ht hk h0 h hf hn (by omega)
  obtain ⟨ms, hms, l2⟩ := perfect_predicts hL ht h0 h hR hs hl hf hn hh hb h2 hn2 hyear
  refine ⟨perfect D first, rs, ms, hopt, hrs, hms, l1, l2, C112_workbook hD hrs hms (fun R' h' => ?_)
    (fun S caps first' n' hf' hn' hS => ?_) (fun n' hn' => ?_) (fun first' n' hf' hn' => ?_)⟩
  · cases Except.ok.inj (h.symm.trans h')
    exact hR
  · have e1 : first = first' := by exact_mod_cast Sample.holds_inj hf hf'
    have e2 : n = n' := by exact_mod_cast Sample.holds_inj hn hn'
    subst e1 e2
    exact hopt S caps hS
  · have e2 : n = n' := by exact_mod_cast Sample.holds_inj hn hn'
    omega
  · have e1 : first = first' := by exact_mod_cast Sample.holds_inj hf hf'
    have e2 : n = n' := by exact_mod_cast Sample.holds_inj hn hn'
    omega

/-! ### A workbook -/

namespace Sample

/-- The workbook of C131 without a battery. -/
def storeless : Pandas.Workbook := fun name =>
  if name = "Electrical storage" then some (sheet 9 6 (fun r c => if r = 6 then [num 0, num 0, num 0, num (1 / 2),
    num 4, num 3, num (9 / 10), num (9 / 10), num (1 / 100)].getD c none else none))
  else planned name

theorem storeless_top : TopRowsEmpty storeless := by
  intro name s hs k
  unfold storeless at hs
  split_ifs at hs
  · cases Option.some.inj hs; rfl
  · exact planned_top name s hs k

theorem storeless_row {s : Pandas.Sheet} (hs : storeless "Electrical storage" = some s) : FirstComplete s [5] [0, 1] 6 := by
  cases Option.some.inj hs
  refine ⟨by decide, by decide, by decide, fun r h1 h2 => ?_⟩
  interval_cases r <;> decide

theorem storeless_readable : Readable storeless :=
  let R := planned_readable
  { parametric := R.parametric, controller := R.controller, weather := R.weather, demandGen := R.demandGen,
    demandInput := R.demandInput, pv := R.pv, wind := R.wind, windFarm := R.windFarm,
    battery := ⟨_, rfl, by decide, by decide⟩, grid := R.grid, aux := R.aux, thermal := R.thermal, heatPump := R.heatPump,
    orderAbove := R.orderAbove, orderBelow := R.orderBelow, fuel := R.fuel, fuel1 := R.fuel1, fuel2 := R.fuel2,
    fuel3 := R.fuel3 }

theorem storeless_filled {L : Libs} (hk : L.knownModule "Some_Module" = true) : Filled L storeless :=
  let F := planned_filled hk
  { readable := storeless_readable, weather := F.weather, air := F.air, water := F.water, demand := F.demand,
    source := F.source, ret := F.ret,
    battery := ⟨_, 6, rfl, Nat.le_refl 9, storeless_row rfl, by
      simp only [List.forall_mem_cons, List.not_mem_nil, false_implies, implies_true, and_true]
      exact ⟨⟨_, rfl⟩, ⟨_, rfl⟩, ⟨_, rfl⟩, ⟨_, rfl⟩, ⟨_, rfl⟩, ⟨_, rfl⟩, ⟨_, rfl⟩⟩⟩,
    turbines := F.turbines, pv := F.pv, tank := F.tank, layers := F.layers, tankNumbers := F.tankNumbers,
    hpType := F.hpType, hpData := F.hpData, hpNumbers := F.hpNumbers, duties := F.duties, model := F.model,
    efficiency := ⟨1, rfl⟩, fuel := F.fuel,
    tariff := ⟨_, "Flat rates", rfl, rfl, by decide, fun _ => ⟨3, rfl⟩,
        fun h => absurd h (by decide), fun h => absurd h (by decide), fun h => absurd h (by decide)⟩ }

theorem storeless_ready (hp : ℤ) : Ready wallLibs storeless hp :=
  let R := planned_ready hp
  { objects := storeless_filled rfl, demand := R.demand, delta := R.delta, exportPrice := R.exportPrice,
    setpoint := ⟨1, rfl⟩
    prices := fun t h => by
      cases says_inj h (show Says _ _ _ _ "Flat rates" from rfl)
      exact ⟨fun h => absurd h (by decide), fun h => absurd h (by decide), fun h => absurd h (by decide),
        fun h => absurd h (by decide)⟩
    turbines := R.turbines, panels := R.panels,
    performance := R.performance }

theorem storeless_run (size : ℤ × ℤ) : ∃ S, runInputs wallLibs storeless size = .ok S :=
  (C94_ready (fun _ _ _ _ _ _ xs h => by rw [← Except.ok.inj h]; exact List.length_replicate) storeless_top
    (tail_of_height (s := pump "Simple") rfl (Nat.le_refl 47))).mpr (storeless_ready size.1)

theorem storeless_plain : PlainBook storeless where
  sensible :=
    let S := planned_sensible
    { heat := S.heat, network := S.network, above := S.above, below := S.below
      battery := fun s row hs hrow => by
        cases firstComplete_unique hrow (storeless_row hs)
        constructor
        · simp only [List.forall_mem_cons, List.not_mem_nil, false_implies, implies_true, and_true]
          refine ⟨fun y h => ?_, fun y h => ?_, fun y h => ?_, fun y h => ?_, fun y h => ?_, fun y h => ?_,
            fun y h => ?_⟩
          · rw [holds_inj h (show Holds _ _ _ _ 0 from rfl)]
          · rw [holds_inj h (show Holds _ _ _ _ (1 / 2) from rfl)]; norm_num
          · rw [holds_inj h (show Holds _ _ _ _ 4 from rfl)]; norm_num
          · rw [holds_inj h (show Holds _ _ _ _ 3 from rfl)]; norm_num
          · rw [holds_inj h (show Holds _ _ _ _ (9 / 10) from rfl)]; norm_num
          · rw [holds_inj h (show Holds _ _ _ _ (9 / 10) from rfl)]; norm_num
          · rw [holds_inj h (show Holds _ _ _ _ (1 / 100) from rfl)]; norm_num
        · simp only [List.forall_mem_cons, List.not_mem_nil, false_implies, implies_true, and_true]
          refine ⟨fun y h => ?_, fun y h => ?_, fun y h => ?_, fun y h => ?_⟩
          · rw [holds_inj h (show Holds _ _ _ _ (1 / 2) from rfl)]; norm_num
          · rw [holds_inj h (show Holds _ _ _ _ (9 / 10) from rfl)]; norm_num
          · rw [holds_inj h (show Holds _ _ _ _ (9 / 10) from rfl)]; norm_num
          · rw [holds_inj h (show Holds _ _ _ _ (1 / 100) from rfl)]; norm_num }
  battery := fun s row hs hrow => by
    cases firstComplete_unique hrow (storeless_row hs)
    rfl
  heater := planned_electric
  minimum := fun time out h1 h2 => by
    rw [holds_inj h2 (show Holds storeless "Heat pump" 'D' 8 0 from rfl)]
    norm_num
  exports := fun y h => by
    rw [holds_inj h (show Holds storeless "Grid" 'D' 9 3 from rfl)]
    norm_num
  above := fun t order h1 h2 => by
    cases says_inj h1 (show Says _ _ _ _ "1,2,3,4,5,6,7,8,9,10,11,12,13" from rfl)
    cases Except.ok.inj (h2.symm.trans served_above)
    exact ⟨by decide, by decide⟩
  below := fun t order h1 h2 => by
    cases says_inj h1 (show Says _ _ _ _ "1,2,3,4,5,6,7,8,9,10,11,12,13,14,15" from rfl)
    cases Except.ok.inj (h2.symm.trans served_below)
    exact ⟨by decide, by decide⟩

theorem storeless_no_power {L : Libs} {size : ℤ × ℤ} {o : Objects} (h : objects L storeless size = .ok o) :
    userSeries L o.windUser = .ok (List.replicate 8760 0) ∧
    databaseSeries L o.windDatabase = .ok (List.replicate 8760 0) ∧
    pvSeries L o.pv = .ok (List.replicate 8760 0) := by
  obtain ⟨s, hs, ⟨r1, f1, -, -, -, m1, -⟩, -, ⟨r2, f2, -, -, -, m2⟩⟩ := C91_turbines storeless_top h
  obtain ⟨s', hs', ⟨r3, _, f3, -, -, m3, -⟩, -⟩ := C91_pv_partial storeless_top h
  cases firstComplete_unique f1 (userRow "Simple" hs)
  cases firstComplete_unique f2 (databaseRow "Simple" hs)
  cases firstComplete_unique f3 (pvRow "Simple" hs')
  have e1 : numOf o.windUser.multiplier = .ok 0 := by rw [m1]; rfl
  have e2 : numOf o.windDatabase.multiplier = .ok 0 := by rw [m2]; rfl
  have e3 : numOf o.pv.multiplier = .ok 0 := by rw [m3]; rfl
  refine ⟨?_, ?_, ?_⟩
  · unfold userSeries Renewables.userPower
    rw [e1, okBind, if_pos rfl, if_pos rfl]
    rfl
  · unfold databaseSeries Renewables.databasePower
    rw [e2, okBind, if_pos rfl, if_pos rfl]
    rfl
  · unfold pvSeries Renewables.pvPower
    rw [e3, okBind, if_pos rfl, if_pos rfl]

theorem storeless_run_plain {size : ℤ × ℤ} (h1 : 0 ≤ size.1) (h0 : size.2 = 0) {R : RunIn (List ℚ)}
    (h : runInputs wallLibs storeless size = .ok R) : PlainRun R := by
  obtain ⟨o, T⟩ := start_ok h
  obtain ⟨p1, p2, p3⟩ := storeless_no_power T.objects
  obtain ⟨-, ⟨_, -, -, hc⟩, -⟩ := C93_demand storeless_top h
  refine C112_plain_book storeless_top storeless_plain h0 h
    (C99_simple_pump h (Or.inr ⟨h1, ⟨"Simple", rfl, by decide +kernel⟩, fun cop hc => ?_⟩))
    ⟨fun x hx => ?_, fun x hx => ?_, fun x hx => ?_, fun x hx => ?_⟩
  · rw [holds_inj hc (show Holds _ _ _ _ 3 from rfl)]
    norm_num
  · rw [Except.ok.inj (T.windUser.symm.trans p1)] at hx
    exact (List.eq_of_mem_replicate hx).ge
  · rw [Except.ok.inj (T.windData.symm.trans p2)] at hx
    exact (List.eq_of_mem_replicate hx).ge
  · rw [Except.ok.inj (T.pv.symm.trans p3)] at hx
    exact (List.eq_of_mem_replicate hx).ge
  · obtain ⟨t, ht⟩ := List.mem_iff_getElem?.mp hx
    have e : x = 2 := holds_inj (hc t x ht) (served_row (r := 6 + t) (by omega)).2.1
    rw [e]
    norm_num

theorem storeless_cells : Holds storeless "Controller" 'G' 5 (24 : ℕ) ∧ Holds storeless "Controller" 'G' 6 (48 : ℕ) ∧
    Holds storeless "Controller" 'G' 9 (6 : ℕ) := ⟨rfl, rfl, rfl⟩

theorem storeless_known : KnownProcesses storeless := by
  refine ⟨fun p h => ?_, fun p h => ?_⟩
  · have := lists_mem h ⟨"1,2,3,4,5,6,7,8,9,10,11,12,13", rfl, served_above⟩
    simp only [List.mem_cons, List.not_mem_nil, or_false] at this
    omega
  · have := lists_mem h ⟨"1,2,3,4,5,6,7,8,9,10,11,12,13,14,15", rfl, served_below⟩
    simp only [List.mem_cons, List.not_mem_nil, or_false] at this
    omega

end Sample

attribute [local irreducible] Sample.storeless predict simulate

/-- Two days with a heat pump of 10 kW, looking 6 hours ahead. -/
example : ∃ gekko rs ms, simulate Sample.wallLibs Sample.storeless (10, 0) = .ok rs ∧
    predict Sample.wallLibs gekko Sample.storeless (10, 0) = .ok ms ∧ rs.length = 48 ∧ ms.length = 48 ∧
    ((rs.drop 1).map (·.grid.cashflow)).sum ≤ ((ms.drop 1).map (·.grid.cashflow)).sum := by
  obtain ⟨R, hR⟩ := Sample.storeless_run (10, 0)
  obtain ⟨c1, c2, c3⟩ := Sample.storeless_cells
  obtain ⟨gekko, rs, ms, -, h⟩ := C112_planning_pays (size := (10, 0)) Sample.wallLibs_year Sample.storeless_top
    Sample.storeless_known rfl hR (Sample.storeless_run_plain (by decide) rfl hR) euler_rests euler_settles euler_linear
    c1 c2 c3 (Or.inl (by norm_num)) (by norm_num) (by norm_num) (by norm_num)
  exact ⟨gekko, rs, ms, h⟩

end Verif
