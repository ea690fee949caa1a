import Verif.Props.StoreStops
import Verif.Spec.Compare
import Verif.Props.LargerBattery

/-!
# What a battery gives back over a run (C130)
-/

set_option autoImplicit false

namespace Verif
open Spec FixedOrder
variable {N : Type}

/-- The state of charge rises by at most what is charged, and falls by at least the share of the discharge that the
efficiency leaves, while the discharge is within the rating. -/
theorem newSoc_upper {b : Battery} (hb : BatteryOk b) {ch dis soc : ℚ} (hch : 0 ≤ ch) (hdis : 0 ≤ dis)
    (hsoc : 0 ≤ soc) (hhas : dis ≤ soc + ch) (hrate : (dis - ch) * b.dischargeEff ≤ b.dischargeMax) :
    b.newSoc (ch - dis) soc + b.dischargeEff * dis ≤ soc + ch := by
  have e0 := hb.dischargeEff_nonneg
  have e1 := hb.dischargeEff_le_one
  have hl : 0 ≤ b.selfLoss soc := mul_nonneg hsoc hb.selfDischarge_nonneg
  have hle : b.dischargeEff * dis ≤ dis := by nlinarith
  have hx : b.maxCharging (ch - dis) soc + b.maxDischarging (ch - dis) soc + b.dischargeEff * dis ≤ ch := by
    by_cases hm : 0 ≤ ch - dis
    · have h1 : b.maxCharging (ch - dis) soc ≤ ch - dis := by
        unfold Battery.maxCharging
        dsimp only
        refine le_trans (min_le_left _ _) ?_
        split_ifs with h1 h2
        · exact le_rfl
        · exact h2.2
        · exact hm
      have h2 : b.maxDischarging (ch - dis) soc ≤ 0 := by
        unfold Battery.maxDischarging
        dsimp only
        refine le_trans (min_le_left _ _) ?_
        split_ifs with h1 h2
        · exact h1.1.le
        · linarith [hb.dischargeMax_nonneg]
        · exact le_rfl
      linarith
    · have h1 : b.maxCharging (ch - dis) soc ≤ 0 := by
        unfold Battery.maxCharging
        dsimp only
        refine le_trans (min_le_left _ _) ?_
        rw [if_neg (fun h => hm h.1), if_neg (fun h => hm h.1)]
      have h2 : b.maxDischarging (ch - dis) soc ≤ (ch - dis) * b.dischargeEff := by
        unfold Battery.maxDischarging
        dsimp only
        refine le_trans (min_le_left _ _) ?_
        split_ifs with h1 h2
        · exact le_rfl
        · linarith
        · by_contra hlt
          push Not at hm hlt
          exact h1 ⟨hlt, by linarith⟩
      have : b.dischargeEff * ch ≤ ch := by nlinarith
      linarith
  unfold Battery.newSoc
  dsimp only
  split_ifs with h1 h2 <;> linarith

/-- The reported flows of the battery are not negative, and it never gives more in an hour than it has at the beginning
and is charged with. -/
theorem C130_within_soc {P : Plant N} {i : StepIn N} (H : StepOk P i) {b : Bool} {order : List ℤ} (hnd : order.Nodup)
    (hs : SafeOrder b order) {r : Results N} (h : step P i b order = .ok r) :
    0 ≤ r.es.chargingTotal ∧ 0 ≤ r.es.dischargingTotal ∧ r.es.dischargingTotal ≤ i.soc + r.es.chargingTotal ∧
      r.es.finalSoc = P.es.newSoc (r.es.chargingTotal - r.es.dischargingTotal) i.soc := by
  obtain ⟨n1, n2, -⟩ := (C21_flows_nonneg H hnd hs h).es
  obtain ⟨c, r1, hd, hm⟩ := step_ok h
  obtain ⟨ps, r0, nodes, hf, hl, hr, -, -⟩ := dispatch_facts H hnd hd
  have h1 : r.es = r1.es := by
    rcases rule_outcome hm with ⟨rfl, _⟩ | ⟨_, _, rfl⟩ | ⟨_, _, _, rfl⟩ | ⟨_, _, _, _, _, rfl⟩ <;> rfl
  refine ⟨n1, n2, ?_, ?_⟩
  · have h2 := (hl.caps (safe2_done hf hs.2)).s0
    have h3 := hl.bal.soc
    rw [h1]
    subst hr
    simp only [totals2, totals1]
    linarith
  · rw [h1]
    subst hr
    rfl

example : ∃ r, step samplePlant sampleStep2 true orderBelow = .ok r ∧
    r.es.dischargingTotal ≤ sampleStep2.soc + r.es.chargingTotal := by
  obtain ⟨-, r, h, -⟩ := sampleStep2_steps
  exact ⟨r, h, (C130_within_soc sampleStep2_ok orderBelow_safe.1 orderBelow_safe.2 h).2.2.1⟩

/-- The discharge of an hour, less what is charged, is within the rating once the efficiency is taken off. -/
def Spec.WithinRating (b : Battery) (r : Results N) : Prop :=
  (r.es.dischargingTotal - r.es.chargingTotal) * b.dischargeEff ≤ b.dischargeMax

/-- **A battery within its rating.** If no hour of a run draws more than the rating, then after any number of hours
what is left in the battery, and the efficiency's share of all that was drawn, are together at most what it started
with and all that was charged. -/
theorem C130_battery_balance_partial {S : RunIn N} (H : RunOk S) (hord : OrdersOk S) {first n : ℕ}
    {rs : List (Results N)} (h : runTimesteps S first n = .ok rs) (hrate : ∀ r ∈ rs, WithinRating S.es r) :
    ∀ k ≤ n, socBefore S rs k + S.es.dischargeEff * ((rs.take k).map (·.es.dischargingTotal)).sum ≤
      S.es.initState + ((rs.take k).map (·.es.chargingTotal)).sum := by
  obtain ⟨rows, hours⟩ := run_hours H h
  intro k
  induction k with
  | zero => intro _; simp [socBefore]
  | succ k ih =>
    intro hk
    have hle := ih (by omega)
    obtain ⟨r, heat, price, row, perf, gen, wnd, pv, elec, r0, hr, ho, -, hstep⟩ := hours k (by omega)
    obtain ⟨o1, o2⟩ := hour_order hord price
    obtain ⟨n1, n2, n3, n4⟩ := C130_within_soc hstep o1 o2 ho.stepEq
    have e : r.es = r0.es := by rw [ho.resultEq]; rfl
    have hw := hrate r (List.mem_of_getElem? hr)
    unfold WithinRating at hw
    rw [← e] at n1 n2 n3 n4
    have key := newSoc_upper H.es n1 n2 hstep.soc_nonneg n3 hw
    have e1 : socBefore S rs (k + 1) = r.es.finalSoc := by
      show ((rs[k]?).map (·.es.finalSoc)).getD S.es.initState = _
      rw [hr]
      rfl
    have n4' : r.es.finalSoc =
      S.es.newSoc (r.es.chargingTotal - r.es.dischargingTotal) (socBefore S rs k) := n4
    have key' : S.es.newSoc (r.es.chargingTotal - r.es.dischargingTotal) (socBefore S rs k) +
      S.es.dischargeEff * r.es.dischargingTotal ≤ socBefore S rs k + r.es.chargingTotal := key
    rw [e1, n4', List.take_add_one, hr]
    simp only [Option.toList_some, List.map_append, List.map_cons, List.map_nil, List.sum_append, List.sum_cons,
      List.sum_nil, add_zero]
    rw [mul_add]
    linarith

/-- So with a lossless discharge the battery gives back at most what it started with and what it was charged with. -/
theorem C130_lossless_partial {S : RunIn N} (H : RunOk S) (hord : OrdersOk S) (he : S.es.dischargeEff = 1)
    {first n : ℕ} {rs : List (Results N)} (h : runTimesteps S first n = .ok rs)
    (hrate : ∀ r ∈ rs, WithinRating S.es r) {k : ℕ} (hk : k ≤ n) :
    ((rs.take k).map (·.es.dischargingTotal)).sum ≤
      S.es.initState + ((rs.take k).map (·.es.chargingTotal)).sum := by
  have h1 := C130_battery_balance_partial H hord h hrate k hk
  rw [he, one_mul] at h1
  have h2 : 0 ≤ socBefore S rs k := by
    cases k with
    | zero => exact (C01_soc_within_capacity _ H.es.capacity_nonneg H.es.init_nonneg H.es.init_le_one []).1
    | succ k =>
      have hk' : k < rs.length := by rw [C27_one_result_per_hour h]; omega
      show 0 ≤ ((rs[k]?).map (·.es.finalSoc)).getD S.es.initState
      rw [List.getElem?_eq_getElem hk']
      exact (C23_run_soc_within_capacity H h (List.getElem_mem hk')).1
  linarith

/-- A battery that can be emptied within an hour is never asked for more than its rating: no run needs to be looked at. -/
theorem C130_fast_within_rating {S : RunIn N} (H : RunOk S) (hord : OrdersOk S)
    (hfast : S.es.capacity * S.es.dischargeEff ≤ S.es.dischargeMax) {first n : ℕ} {rs : List (Results N)}
    (h : runTimesteps S first n = .ok rs) : ∀ r ∈ rs, WithinRating S.es r := by
  obtain ⟨rows, hours⟩ := run_hours H h
  intro r hr
  obtain ⟨k, hk, rfl⟩ := List.getElem_of_mem hr
  obtain ⟨r, heat, price, row, perf, gen, wnd, pv, elec, r0, hr, ho, -, hstep⟩ :=
    hours k (by rw [← C27_one_result_per_hour h]; exact hk)
  obtain ⟨o1, o2⟩ := hour_order hord price
  obtain ⟨n1, n2, n3, -⟩ := C130_within_soc hstep o1 o2 ho.stepEq
  have e : r.es = r0.es := by rw [ho.resultEq]; rfl
  have e' : rs[k] = r := by
    have := List.getElem?_eq_getElem hk
    rw [hr] at this
    exact (Option.some.inj this).symm
  rw [e']
  unfold WithinRating
  rw [e]
  have hc : socBefore S rs k ≤ S.es.capacity := hstep.soc_le
  have n3' : r0.es.dischargingTotal ≤ socBefore S rs k + r0.es.chargingTotal := n3
  have he := H.es.dischargeEff_nonneg
  refine le_trans ?_ hfast
  exact mul_le_mul_of_nonneg_right (by linarith) he

/-- **A fast battery.** With a battery that can be emptied within an hour, after any number of hours of any run, what
is left in it and the efficiency's share of all that was drawn are together at most what it started with and all that
was charged. -/
theorem C130_fast_battery {S : RunIn N} (H : RunOk S) (hord : OrdersOk S)
    (hfast : S.es.capacity * S.es.dischargeEff ≤ S.es.dischargeMax) {first n : ℕ} {rs : List (Results N)}
    (h : runTimesteps S first n = .ok rs) {k : ℕ} (hk : k ≤ n) :
    socBefore S rs k + S.es.dischargeEff * ((rs.take k).map (·.es.dischargingTotal)).sum ≤
      S.es.initState + ((rs.take k).map (·.es.chargingTotal)).sum :=
  C130_battery_balance_partial H hord h (C130_fast_within_rating H hord hfast h) k hk

/-- The year of the sample plant with a battery of 10 kWh that can give 20 kW without losses. -/
def Spec.fastRun : RunIn Unit :=
  { storedRun 10 with es := { sampleBattery with dischargeMax := 20, dischargeEff := 1 } }

theorem fastRun_ok : RunOk fastRun where
  es := by constructor <;> norm_num [fastRun, sampleBattery]
  heat_nonneg := sampleRun_ok.heat_nonneg
  cop_pos := sampleRun_ok.cop_pos
  duty_nonneg := sampleRun_ok.duty_nonneg
  zero_cap := sampleRun_ok.zero_cap
  tank_nonneg := sampleRun_ok.tank_nonneg

theorem fastRun_orders : OrdersOk fastRun :=
  ⟨storedRun_orders.1, storedRun_orders.2, storedRun_orders.3, storedRun_orders.4⟩

theorem fastRun_runs : ∃ rs, runTimesteps fastRun 0 8760 = .ok rs :=
  C27_accepts_span_inside_year (S := fastRun)
    ⟨sampleRun_fullYear.windUser, sampleRun_fullYear.windData, sampleRun_fullYear.pv,
      sampleRun_fullYear.elecDemand, sampleRun_fullYear.heatDemand,
      sampleRun_fullYear.importPrice, sampleRun_fullYear.perf⟩
    ⟨show ∀ n ∈ (storedRun 0).orderAbove, 1 ≤ n ∧ n ≤ 13 by decide,
      show ∀ n ∈ (storedRun 0).orderBelow, 1 ≤ n ∧ n ≤ 15 by decide⟩
    (fun _ _ _ => ⟨_, rfl⟩) (fun _ _ _ _ _ => ⟨_, rfl⟩) (by omega)

theorem fastRun_fast : fastRun.es.capacity * fastRun.es.dischargeEff ≤ fastRun.es.dischargeMax := by
  show (10 : ℚ) * 1 ≤ 20
  norm_num

example : ∃ rs, runTimesteps fastRun 0 8760 = .ok rs ∧ (∀ r ∈ rs, WithinRating fastRun.es r) ∧
    ((rs.take 8760).map (·.es.dischargingTotal)).sum ≤
      fastRun.es.initState + ((rs.take 8760).map (·.es.chargingTotal)).sum := by
  obtain ⟨rs, h⟩ := fastRun_runs
  have hw := C130_fast_within_rating fastRun_ok fastRun_orders fastRun_fast h
  exact ⟨rs, h, hw, C130_lossless_partial fastRun_ok fastRun_orders rfl h hw le_rfl⟩

/-- What it holds after half a year, and all it gave, is no more than what it held at first and all it got. -/
example : ∃ rs, runTimesteps fastRun 0 8760 = .ok rs ∧
    socBefore fastRun rs 4380 + ((rs.take 4380).map (·.es.dischargingTotal)).sum ≤
      fastRun.es.initState + ((rs.take 4380).map (·.es.chargingTotal)).sum := by
  obtain ⟨rs, h⟩ := fastRun_runs
  have k := C130_fast_battery fastRun_ok fastRun_orders fastRun_fast h (k := 4380) (by omega)
  rw [show fastRun.es.dischargeEff = 1 from rfl, one_mul] at k
  exact ⟨rs, h, k⟩

/-! ### Against the full claim -/

/-- A battery of 100 kWh, full at the start, without losses, that is rated at 10 W. -/
def Spec.trickleBattery : Battery := ⟨100, 1, 1, 1 / 100, 1, 1, 0⟩

theorem trickleBattery_ok : BatteryOk trickleBattery := by
  constructor <;> norm_num [trickleBattery]

/-- A year of an electric demand of 10 kWh in every hour, with that battery and the grid, and nothing to charge it. -/
def Spec.trickleRun : RunIn Unit :=
  { hp := ⟨0, 0, 0⟩, es := trickleBattery, aux := samplePlant.aux, tank := noTank, exportPrice := 40,
    windUser := List.replicate 8760 0, windData := List.replicate 8760 0, pv := List.replicate 8760 0,
    elecDemand := List.replicate 8760 10, heatDemand := List.replicate 8760 0,
    importPrice := List.replicate 8760 100, perf := List.replicate 8760 ⟨3, 0⟩, setpoint := 80,
    orderAbove := [2, 3], orderBelow := [7, 2] }

theorem dispatch_no_tank {P : Plant N} {i : StepIn N} {b : Bool} {order : List ℤ} {c : Checks} {r0 : Results N}
    (hc : P.tank.capacity = 0)
    (h : runOrder P i (if b then keyBelow else keyAbove) order (initChecks P i, initResults P i b) = .ok (c, r0)) :
    dispatch P i b order = .ok (c, totals2 P i b i.nodes (totals1 P b r0)) := by
  unfold dispatch tankUpdate
  simp only [h, bind, Except.bind, pure, Except.pure, if_pos hc]

/-- The plant of that year. -/
def Spec.tricklePlant : Plant Unit :=
  { hp := ⟨0, 0, 0⟩, es := trickleBattery, aux := samplePlant.aux, tank := noTank, exportPrice := 40,
    peakHeatDemand := 0 }

theorem trickle_plant : plant trickleRun = tricklePlant := by
  have : listMax (List.replicate 8760 (0 : ℚ)) = 0 := listMax_replicate 8759 0
  unfold plant
  rw [show trickleRun.heatDemand = List.replicate 8760 (0 : ℚ) from rfl, this]
  rfl

theorem trickle_soc {soc : ℚ} (h1 : 10 ≤ soc) (h2 : soc ≤ 100) :
    trickleBattery.newSoc (-10) soc = soc - 1 / 100 := by
  have e1 : trickleBattery.maxCharging (-10) soc = 0 := by
    unfold Battery.maxCharging trickleBattery
    dsimp only
    rw [if_neg (by norm_num), if_neg (by norm_num), min_eq_left (by linarith)]
  have e2 : trickleBattery.maxDischarging (-10) soc = -1 / 100 := by
    unfold Battery.maxDischarging trickleBattery
    dsimp only
    rw [if_neg (by norm_num), if_pos (by norm_num), min_eq_left (by linarith)]
    norm_num
  unfold Battery.newSoc
  rw [e1, e2]
  have e3 : trickleBattery.selfLoss soc = 0 := by
    show soc * 0 = 0
    ring
  have e4 : trickleBattery.capacity = 100 := rfl
  rw [e3, e4]
  dsimp only
  rw [if_neg (by linarith), if_neg (by linarith)]
  ring

theorem trickle_hour (t : ℕ) {soc : ℚ} (h1 : 10 ≤ soc) (h2 : soc ≤ 100) :
    ∃ r, step tricklePlant (hourIn t 0 100 (Tools.splitHourFixed 0 10) ⟨3, 0⟩ () soc) false [2, 3] = .ok r ∧
      r.es.dischargingTotal = 10 ∧ r.es.chargingTotal = 0 ∧ r.elecDemand.imp = 0 ∧
      r.es.finalSoc = soc - 1 / 100 ∧ r.ts.finalNodesTemp = some () ∧ r.grid.totalImport = 0 := by
  have e : Tools.splitHourFixed 0 10 = ⟨-10, 10, 0, 0⟩ := by decide +kernel
  rw [e]
  have hd := dispatch_no_tank (P := tricklePlant) (i := hourIn t 0 100 ⟨-10, 10, 0, 0⟩ ⟨3, 0⟩ () soc) (b := false) (order := [2, 3]) rfl rfl
  unfold step
  rw [hd]
  simp only [bind, Except.bind]
  refine ⟨_, if_neg ?_, ?_, ?_, ?_, ?_, rfl, ?_⟩
  · rintro ⟨h1, -⟩
    revert h1
    norm_num [totals2, totals1, update, record, initResults, initChecks, minOut, hourIn, tricklePlant]
  · simp [totals2, totals1, update, record, initResults, initChecks, esToDemand, Amt.scalar, h1]
  · simp [totals2, totals1, update, record, initResults, initChecks, esToDemand, Amt.scalar]
  · simp [totals2, totals1, update, record, initResults, initChecks, esToDemand, Amt.scalar, h1]
  · simp only [totals2, totals1, update, record, initResults, initChecks, esToDemand, Amt.scalar]
    rw [min_eq_left h1]
    show trickleBattery.newSoc (0 + 0 - (10 + 0)) soc = _
    rw [show (0 : ℚ) + 0 - (10 + 0) = -10 by norm_num]
    exact trickle_soc h1 h2
  · simp [totals2, totals1, update, record, initResults, initChecks, esToDemand, Amt.scalar, h1]

/-- **The battery gives what it never got.** In this year the battery is never charged, and whatever the number of
hours, it supplies all of the demand: 10 kWh in every hour, 87600 kWh in the year, from a battery that held 100 kWh and
is rated at 10 W. -/
theorem C130_gives_what_it_never_got {n : ℕ} (hn : n ≤ 8760) : ∃ rs, runTimesteps trickleRun 0 n = .ok rs ∧
    (rs.map (·.es.dischargingTotal)).sum = 10 * n ∧ (rs.map (·.es.chargingTotal)).sum = 0 ∧
    (∀ r ∈ rs, r.elecDemand.imp = 0 ∧ r.grid.totalImport = 0 ∧ r.res.generationTotal = 0 ∧
      r.elecDemand.elecDemand = 10) ∧ trickleRun.es.initState = 100 := by
  have gen : generation trickleRun = List.replicate 8760 0 := by
    show List.zipWith (· + ·) (List.zipWith (· + ·) (List.replicate 8760 0) (List.replicate 8760 0))
      (List.replicate 8760 0) = _
    rw [List.zipWith_replicate, List.zipWith_replicate, Nat.min_self, Nat.min_self]
    norm_num
  have rows : Tools.surplusDeficitFixed (generation trickleRun) trickleRun.elecDemand =
      .ok (List.replicate 8760 (Tools.splitHourFixed 0 10)) := by
    rw [gen, show trickleRun.elecDemand = List.replicate 8760 10 from rfl]
    unfold Tools.surplusDeficitFixed
    rw [List.length_replicate, List.length_replicate, if_neg (by norm_num), if_neg (by norm_num),
      List.zipWith_replicate, Nat.min_self]
  have get : ∀ {α : Type} (x : α) {t : ℕ}, t < 8760 → (List.replicate 8760 x)[t]? = some x := fun x t ht => by
    rw [List.getElem?_replicate, if_pos ht]
  have hfrom : ∀ (k t : ℕ) (soc : ℚ), t + k ≤ 8760 → soc = 100 - t / 100 →
      ∃ rs, runFrom trickleRun (List.replicate 8760 (Tools.splitHourFixed 0 10)) t k () soc = .ok rs ∧
        (rs.map (·.es.dischargingTotal)).sum = 10 * k ∧ (rs.map (·.es.chargingTotal)).sum = 0 ∧
        ∀ r ∈ rs, r.elecDemand.imp = 0 ∧ r.grid.totalImport = 0 ∧ r.res.generationTotal = 0 ∧
          r.elecDemand.elecDemand = 10 := by
    intro k
    induction k with
    | zero => intro t soc _ _; exact ⟨[], rfl, by simp, by simp, by simp⟩
    | succ k ih =>
      intro t soc hk hsoc
      have ht : t < 8760 := by omega
      have htq : (t : ℚ) ≤ 8760 := by exact_mod_cast ht.le
      have ht0 : (0 : ℚ) ≤ t := Nat.cast_nonneg t
      obtain ⟨r0, h0, d1, d2, d3, d4, d5, d6⟩ := trickle_hour t (soc := soc) (by rw [hsoc]; linarith)
        (by rw [hsoc]; linarith)
      have hour : hourStep trickleRun (List.replicate 8760 (Tools.splitHourFixed 0 10)) t () soc =
          .ok (complete (Tools.splitHourFixed 0 10) 0 0 0 10 0 r0) := by
        refine hourStep_ok.mpr ⟨0, 100, Tools.splitHourFixed 0 10, ⟨3, 0⟩, 0, 0, 0, 10, r0, ?_⟩
        exact
          { heatEq := get _ ht, priceEq := get _ ht, rowEq := get _ ht, perfEq := get _ ht
            genEq := by rw [gen]; exact get _ ht
            wndEq := by
              show (List.zipWith (· + ·) (List.replicate 8760 (0 : ℚ)) (List.replicate 8760 0))[t]? = _
              rw [List.zipWith_replicate, Nat.min_self, get _ ht]
              norm_num
            pvEq := get _ ht, elecEq := get _ ht
            stepEq := by
              rw [trickle_plant]
              have e : ((100 : ℚ) ≤ trickleRun.setpoint) = ((100 : ℚ) ≤ 80) := rfl
              have e' : ((100 : ℚ) > trickleRun.setpoint) = ((100 : ℚ) > 80) := rfl
              simp only [e, e']
              rw [if_pos (by norm_num), decide_eq_false (by norm_num)]
              exact h0
            resultEq := rfl }
      obtain ⟨rest, hrest, q1, q2, q3⟩ := ih (t + 1) r0.es.finalSoc (by omega)
        (by rw [d4, hsoc]; push_cast; ring)
      refine ⟨complete (Tools.splitHourFixed 0 10) 0 0 0 10 0 r0 :: rest, ?_, ?_, ?_, ?_⟩
      · unfold runFrom
        rw [hour]
        show (do
          let rest ← runFrom trickleRun (List.replicate 8760 (Tools.splitHourFixed 0 10)) (t + 1) k () r0.es.finalSoc
          return complete (Tools.splitHourFixed 0 10) 0 0 0 10 0 r0 :: rest) = _
        rw [hrest]
        rfl
      · rw [List.map_cons, List.sum_cons, q1]
        show r0.es.dischargingTotal + 10 * k = _
        rw [d1]
        push_cast
        ring
      · rw [List.map_cons, List.sum_cons, q2]
        show r0.es.chargingTotal + 0 = _
        rw [d2, add_zero]
      · intro r hr
        rcases List.mem_cons.mp hr with rfl | hr
        · exact ⟨d3, d6, rfl, rfl⟩
        · exact q3 r hr
  have hinit : trickleRun.es.initState = 100 := by
    show (1 : ℚ) * 100 = 100
    norm_num
  obtain ⟨rs, hrs, q1, q2, q3⟩ := hfrom n 0 trickleRun.es.initState (by omega) (by rw [hinit]; norm_num)
  exact ⟨rs, runTimesteps_ok.mpr ⟨_, rows, by omega, hrs⟩, q1, q2, q3, hinit⟩

end Verif
