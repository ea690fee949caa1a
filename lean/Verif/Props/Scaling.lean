import Verif.Spec.Compare
import Verif.Lemmas.Run
import Verif.Props.Prices
import Verif.Props.TankDispatch

/-!
# A system twice the size has twice the flows (C105)
-/

set_option autoImplicit false

namespace Verif
open Spec FixedOrder
variable {N : Type}

/-- The plant `k` times as large. -/
def timesPlant (k : ℚ) (P : Plant N) : Plant N :=
  { P with hp := { P.hp with capacity := k * P.hp.capacity }, es := timesBattery k P.es,
           peakHeatDemand := k * P.peakHeatDemand }

/-- The inputs of a timestep `k` times as large. -/
def timesIn (k : ℚ) (i : StepIn N) : StepIn N :=
  { i with surplus := k * i.surplus, deficit := k * i.deficit, heatDemand := k * i.heatDemand,
           soc := k * i.soc, perf := ⟨i.perf.cop, k * i.perf.duty⟩ }

/-- The checks `k` times as large. -/
def timesChecks (k : ℚ) (c : Checks) : Checks :=
  { elecUnmet := k * c.elecUnmet, heatUnmet := k * c.heatUnmet, resLeft := k * c.resLeft,
    hpUsage := k * c.hpUsage, tsDischarge := k * c.tsDischarge, tsCharge := k * c.tsCharge,
    soc := k * c.soc, auxLeft := k * c.auxLeft }

/-- An amount `k` times as large. -/
def timesAmt (k : ℚ) (a : Amt) : Amt := ⟨k * a.h, k * a.e⟩

theorem times_min {k : ℚ} (hk : 0 < k) (a b : ℚ) : min (k * a) (k * b) = k * min a b :=
  (mul_min_of_nonneg a b hk.le).symm

theorem times_le {k : ℚ} (hk : 0 < k) {a b : ℚ} : k * a ≤ k * b ↔ a ≤ b := mul_le_mul_iff_right₀ hk

theorem times_zero {k : ℚ} (hk : 0 < k) {a : ℚ} : k * a = 0 ↔ a = 0 := by
  rw [mul_eq_zero]
  exact ⟨fun h => h.resolve_left hk.ne', Or.inr⟩

theorem elecUsage_times {k : ℚ} (hk : 0 < k) (hp : HeatPump) (h : ℚ) (p : Perf) :
    ({ hp with capacity := k * hp.capacity } : HeatPump).elecUsage (k * h) ⟨p.cop, k * p.duty⟩
      = k * hp.elecUsage h p := by
  unfold HeatPump.elecUsage
  by_cases hc : hp.capacity = 0
  · rw [if_pos hc, if_pos (by rw [hc, mul_zero]), mul_zero]
  · rw [if_neg hc, if_neg (fun hh => hc ((times_zero hk).mp hh))]
    dsimp only
    rw [mul_div_assoc, mul_div_assoc, times_min hk]

theorem thermalOutput_times {k : ℚ} (hk : 0 < k) (hp : HeatPump) (x u : ℚ) (p : Perf) :
    (({ hp with capacity := k * hp.capacity } : HeatPump).thermalOutput (k * x) ⟨p.cop, k * p.duty⟩
      (k * u)).demand = k * (hp.thermalOutput x p u).demand := by
  unfold HeatPump.thermalOutput
  by_cases hc : hp.capacity = 0
  · rw [if_pos hc, if_pos (by rw [hc, mul_zero]), mul_zero]
  · rw [if_neg hc, if_neg (fun hh => hc ((times_zero hk).mp hh))]
    dsimp only
    rw [mul_assoc, times_min hk, times_min hk]

theorem maxCharging_times {k : ℚ} (hk : 0 < k) (b : Battery) (m s : ℚ) :
    (timesBattery k b).maxCharging (k * m) (k * s) = k * b.maxCharging m s := by
  unfold Battery.maxCharging timesBattery
  dsimp only
  have e1 : (k * m ≥ 0) ↔ m ≥ 0 := mul_nonneg_iff_of_pos_left hk
  have e2 : (k * m ≤ k * b.chargeMax) ↔ m ≤ b.chargeMax := times_le hk
  have e3 : (k * m ≥ k * b.chargeMax) ↔ m ≥ b.chargeMax := times_le hk
  simp only [e1, e2, e3]
  rw [← times_min hk, mul_sub]
  congr 1
  split_ifs <;> ring

theorem maxDischarging_times {k : ℚ} (hk : 0 < k) (b : Battery) (m s : ℚ) :
    (timesBattery k b).maxDischarging (k * m) (k * s) = k * b.maxDischarging m s := by
  unfold Battery.maxDischarging timesBattery
  dsimp only
  have e1 : (k * m * b.dischargeEff < 0) ↔ m * b.dischargeEff < 0 := by
    rw [mul_assoc]
    exact ⟨fun h => by_contra fun hn => absurd (mul_nonneg hk.le (not_lt.mp hn)) (not_le.mpr h),
      fun h => mul_neg_of_pos_of_neg hk h⟩
  have e2 : (k * m * b.dischargeEff ≥ -1 * (k * b.dischargeMax))
      ↔ m * b.dischargeEff ≥ -1 * b.dischargeMax := by
    rw [show -1 * (k * b.dischargeMax) = k * (-1 * b.dischargeMax) by ring, mul_assoc]
    exact times_le hk
  have e3 : (k * m * b.dischargeEff ≤ -1 * (k * b.dischargeMax))
      ↔ m * b.dischargeEff ≤ -1 * b.dischargeMax := by
    rw [show -1 * (k * b.dischargeMax) = k * (-1 * b.dischargeMax) by ring, mul_assoc]
    exact times_le hk
  simp only [e1, e2, e3]
  rw [← times_min hk]
  congr 1
  split_ifs <;> ring

theorem newSoc_times {k : ℚ} (hk : 0 < k) (b : Battery) (m s : ℚ) :
    (timesBattery k b).newSoc (k * m) (k * s) = k * b.newSoc m s := by
  unfold Battery.newSoc
  dsimp only
  have ex : k * s + (timesBattery k b).maxCharging (k * m) (k * s)
      + (timesBattery k b).maxDischarging (k * m) (k * s) - (timesBattery k b).selfLoss (k * s)
      = k * (s + b.maxCharging m s + b.maxDischarging m s - b.selfLoss s) := by
    rw [maxCharging_times hk, maxDischarging_times hk]
    simp only [Battery.selfLoss, timesBattery]
    ring
  have ec : (timesBattery k b).capacity = k * b.capacity := rfl
  rw [ex, ec]
  set x := s + b.maxCharging m s + b.maxDischarging m s - b.selfLoss s
  have e1 : (k * x ≥ k * b.capacity) ↔ x ≥ b.capacity := times_le hk
  have e2 : (k * x ≤ 0) ↔ x ≤ 0 := by
    have := times_le hk (a := x) (b := 0)
    rwa [mul_zero] at this
  simp only [e1, e2]
  split_ifs <;> ring

theorem amount_times {k : ℚ} (hk : 0 < k) (P : Plant N) (i : StepIn N)
    (ht : ∀ s m, P.tank.maxInOut i.hour s i.nodes = .ok m → m = 0) (c : Checks) {q : Process}
    (hq : q ≠ .hpImportToTs) :
    amount (timesPlant k P) (timesIn k i) (timesChecks k c) q
      = (amount P i c q).map (timesAmt k) := by
  have hsp : k * i.perf.duty - k * c.hpUsage = k * (i.perf.duty - c.hpUsage) := by ring
  cases q
  case resToDemand => simp [amount, Except.map, timesAmt]
  case esToDemand =>
    simp only [amount, timesChecks, Except.map, esToDemand, Amt.scalar, timesAmt, times_min hk]
  case importToDemand => rfl
  case hpResToDemand =>
    simp only [amount, timesChecks, timesPlant, timesIn, Except.map, hpResToDemand, timesAmt,
      thermalOutput_times hk, hsp, times_min hk, elecUsage_times hk]
  case eauxResToDemand =>
    simp only [amount, timesChecks, timesPlant, Except.map, eauxResToDemand, timesAmt, Amt.scalar,
      times_min hk]
    split_ifs
    · rfl
    · simp
  case tsToDemand =>
    simp only [amount]
    show (P.tank.maxInOut i.hour .discharging i.nodes >>= _) = _
    cases hm : P.tank.maxInOut i.hour .discharging i.nodes with
    | error e => rfl
    | ok m =>
      rw [ht _ _ hm]
      simp only [ok_then, pure, Except.pure, Except.map, timesChecks, tsToDemand, Amt.scalar, timesAmt]
      rw [show 0 - k * c.tsDischarge + k * c.tsCharge = k * (0 - c.tsDischarge + c.tsCharge) by ring,
        times_min hk]
  case esToHpToDemand =>
    simp only [amount, timesChecks, timesPlant, timesIn, Except.map, esToHpToDemand, timesAmt,
      thermalOutput_times hk, hsp, times_min hk, elecUsage_times hk]
  case hpImportToDemand =>
    simp only [amount, timesChecks, timesPlant, timesIn, Except.map, hpImportToDemand, timesAmt, hsp,
      times_min hk]
    have e : (if k * P.hp.capacity = 0 then 0 else k * min c.heatUnmet (i.perf.duty - c.hpUsage))
        = k * (if P.hp.capacity = 0 then 0 else min c.heatUnmet (i.perf.duty - c.hpUsage)) := by
      simp only [times_zero hk]
      split_ifs
      · rw [mul_zero]
      · rfl
    rw [e, elecUsage_times hk]
  case auxToDemand => rfl
  case hpResToTs =>
    simp only [amount]
    show (P.tank.maxInOut i.hour .charging i.nodes >>= _) = _
    cases hm : P.tank.maxInOut i.hour .charging i.nodes with
    | error e => rfl
    | ok m =>
      rw [ht _ _ hm]
      simp only [ok_then, pure, Except.pure, Except.map, timesChecks, timesPlant, timesIn, hpResToTs,
        timesAmt, hsp]
      rw [show 0 + k * c.tsDischarge - k * c.tsCharge = k * (0 + c.tsDischarge - c.tsCharge) by ring,
        mul_assoc, times_min hk, times_min hk, elecUsage_times hk]
  case eauxResToTs =>
    simp only [amount]
    show (if P.aux.electric then _ else _) = _
    rcases Bool.eq_false_or_eq_true P.aux.electric with hel | hel
    · rw [if_pos hel, if_pos hel]
      show (P.tank.maxInOut i.hour .charging i.nodes >>= _) = _
      cases hm : P.tank.maxInOut i.hour .charging i.nodes with
      | error e => rfl
      | ok m =>
        rw [ht _ _ hm]
        simp only [ok_then, pure, Except.pure, Except.map, timesChecks, Amt.scalar, timesAmt]
        rw [show 0 + k * c.tsDischarge - k * c.tsCharge = k * (0 + c.tsDischarge - c.tsCharge) by ring,
          times_min hk, times_min hk]
    · rw [if_neg (by rw [hel]; decide), if_neg (by rw [hel]; decide)]
      simp [Except.map, Amt.scalar, timesAmt]
  case hpImportToTs => exact absurd rfl hq
  case resToEs =>
    simp only [amount, timesChecks, timesPlant, Except.map, Amt.scalar, timesAmt,
      maxCharging_times hk]
  case importToEs =>
    have e : (timesBattery k P.es).chargeToCapacity (k * c.soc) = k * P.es.chargeToCapacity c.soc := by
      unfold Battery.chargeToCapacity Battery.selfLoss timesBattery
      dsimp only
      rw [← times_min hk]
      congr 1
      ring
    simp only [amount, timesChecks, timesPlant, Except.map, Amt.scalar, timesAmt, e]
  case resToExport => rfl

theorem update_times (k : ℚ) (q : Process) (a : Amt) (c : Checks) :
    update q (timesAmt k a) (timesChecks k c) = timesChecks k (update q a c) := by
  cases q <;> simp only [update, timesAmt, timesChecks, mul_add, mul_sub, mul_neg]

theorem record_times (k : ℚ) (q : Process) (a : Amt) (r : Results N) :
    record q (timesAmt k a) (timesResults k r) = timesResults k (record q a r) := by
  cases q <;> rfl

theorem runOrder_times {k : ℚ} (hk : 0 < k) (P : Plant N) (i : StepIn N)
    (ht : ∀ s m, P.tank.maxInOut i.hour s i.nodes = .ok m → m = 0) {key : ℤ → Except PyErr Process} :
    ∀ (order : List ℤ), (∀ n ∈ order, key n ≠ .ok .hpImportToTs) → ∀ (c : Checks) (r : Results N),
    runOrder (timesPlant k P) (timesIn k i) key order (timesChecks k c, timesResults k r)
      = (runOrder P i key order (c, r)).map (fun s => (timesChecks k s.1, timesResults k s.2)) := by
  intro order
  induction order with
  | nil => intro _ c r; rfl
  | cons n ns ih =>
    intro h12 c r
    simp only [runOrder]
    cases hq : key n with
    | error e => rfl
    | ok q =>
      have hq' : q ≠ .hpImportToTs := fun hh => h12 n List.mem_cons_self (by rw [hq, hh])
      simp only [ok_then, runProcess, amount_times hk P i ht c hq']
      cases amount P i c q with
      | error e => rfl
      | ok a =>
        simp only [Except.map, ok_then, pure, Except.pure, record_times, update_times]
        exact ih (fun m hm => h12 m (List.mem_cons_of_mem _ hm)) _ _

theorem totals1_times (k : ℚ) (P : Plant N) (b : Bool) (r : Results N) :
    totals1 (timesPlant k P) b (timesResults k r) = timesResults k (totals1 P b r) := by
  simp only [totals1, timesResults, timesPlant, AuxI.fuelUsage, Results.mk.injEq, HeatDemandR.mk.injEq,
    HpR.mk.injEq, TsR.mk.injEq, AuxR.mk.injEq, true_and, and_true]
  refine ⟨⟨?_, ?_⟩, ?_, ?_, ?_⟩
  · ring
  · split_ifs <;> ring
  · refine ⟨?_, ?_, ?_, ?_, ?_, ?_⟩ <;> first | rfl | ring
  · refine ⟨?_, ?_⟩ <;> ring
  · rcases Bool.eq_false_or_eq_true P.aux.electric with hel | hel
    · simp only [hel, if_true]
      refine ⟨?_, ?_, ?_, ?_⟩ <;> ring
    · simp only [hel, Bool.false_eq_true, if_false]
      refine ⟨?_, ?_, ?_, ?_⟩ <;> ring

theorem totals2_times {k : ℚ} (hk : 0 < k) (P : Plant N) (i : StepIn N) (b : Bool) (nodes : N)
    (r : Results N) : totals2 (timesPlant k P) (timesIn k i) b nodes (timesResults k r)
      = timesResults k (totals2 P i b nodes r) := by
  have e : (timesBattery k P.es).newSoc
      (k * r.es.chargingFromRes + k * r.es.chargingFromImport
        - (k * r.es.dischargingToDemand + k * r.es.dischargingToHp)) (k * i.soc)
      = k * P.es.newSoc (r.es.chargingFromRes + r.es.chargingFromImport
        - (r.es.dischargingToDemand + r.es.dischargingToHp)) i.soc := by
    rw [← newSoc_times hk]
    congr 1
    ring
  simp only [totals2, timesResults, timesPlant, timesIn, e, Results.mk.injEq, EsR.mk.injEq,
    GridR.mk.injEq, true_and, and_true]
  refine ⟨⟨?_, ?_⟩, ?_⟩
  · ring
  · ring
  · rcases Bool.eq_false_or_eq_true P.aux.electric with hel | hel
    · simp only [hel, if_true]
      cases b
      · simp only [Bool.false_eq_true, if_false, true_and]
        refine ⟨?_, ?_, ?_, ?_, ?_⟩ <;> ring
      · simp only [if_true]
        refine ⟨?_, ?_, ?_, ?_, ?_, ?_⟩ <;> first | rfl | ring
    · simp only [hel, Bool.false_eq_true, if_false]
      cases b
      · simp only [Bool.false_eq_true, if_false, true_and]
        refine ⟨?_, ?_, ?_, ?_, ?_⟩ <;> ring
      · simp only [if_true]
        refine ⟨?_, ?_, ?_, ?_, ?_, ?_⟩ <;> first | rfl | ring

theorem rule_none (P : Plant N) (i : StepIn N) (hmin : P.hp.minimumOutput = 0) (b : Bool) (c : Checks)
    (r : Results N) : minOutputRule P i b c r = .ok r := by
  unfold minOutputRule
  dsimp only
  rw [if_neg]
  rintro ⟨h1, h2⟩
  have : minOut P i = 0 := by unfold minOut; rw [hmin]; ring
  have : minTrigger b ≥ 0 := by unfold minTrigger; split_ifs <;> norm_num
  linarith

theorem step_times {k : ℚ} (hk : 0 < k) (P : Plant N) (i : StepIn N)
    (ht : ∀ s m, P.tank.maxInOut i.hour s i.nodes = .ok m → m = 0) (hc : P.tank.capacity = 0)
    (hmin : P.hp.minimumOutput = 0) (b : Bool) (order : List ℤ) (h12 : b = true → 12 ∉ order) :
    step (timesPlant k P) (timesIn k i) b order = (step P i b order).map (timesResults k) := by
  unfold step dispatch
  have h0 : initResults (timesPlant k P) (timesIn k i) b = timesResults k (initResults P i b) := by
    simp only [initResults, timesResults, timesPlant, timesIn, mul_zero, mul_sub]
  have h1 : initChecks (timesPlant k P) (timesIn k i) = timesChecks k (initChecks P i) := by
    simp only [initChecks, timesChecks, timesPlant, timesIn, mul_zero]
  rw [h0, h1, runOrder_times hk P i ht order ?_]
  · cases runOrder P i (if b then keyBelow else keyAbove) order
      (initChecks P i, initResults P i b) with
    | error e => rfl
    | ok s =>
      simp only [Except.map, ok_then, totals1_times]
      have h2 : tankUpdate (timesPlant k P) (timesIn k i) b (timesChecks k s.1)
          (timesResults k (totals1 P b s.2)) = .ok i.nodes := by
        unfold tankUpdate
        rw [if_pos (show (timesPlant k P).tank.capacity = 0 from hc)]
        rfl
      have h3 : tankUpdate P i b s.1 (totals1 P b s.2) = .ok i.nodes := by
        unfold tankUpdate
        rw [if_pos hc]
      rw [h2, h3]
      simp only [ok_then, pure, Except.pure, totals2_times hk]
      rw [rule_none P i hmin, rule_none (timesPlant k P) (timesIn k i) hmin]
  · intro n hn hh
    cases b with
    | true =>
      have : n = 12 := keyBelow_inj (p := .hpImportToTs) hh rfl
      exact h12 rfl (this ▸ hn)
    | false =>
      simp only [Bool.false_eq_true, if_false] at hh
      unfold keyAbove at hh
      split at hh <;> cases hh

theorem lookupPerf_map (f : Perf → Perf) (l : List Perf) (t : ℕ) :
    lookupPerf (l.map f) t = (lookupPerf l t).map f := by
  unfold lookupPerf
  rw [List.getElem?_map]
  cases l[t]? <;> rfl

theorem foldl_max_times {k : ℚ} (hk : 0 < k) (l : List ℚ) (a : ℚ) :
    (l.map (k * ·)).foldl max (k * a) = k * l.foldl max a := by
  induction l generalizing a with
  | nil => rfl
  | cons b l ih =>
    simp only [List.map_cons, List.foldl_cons]
    rw [← mul_max_of_nonneg _ _ hk.le, ih]

theorem listMax_times {k : ℚ} (hk : 0 < k) (l : List ℚ) : listMax (l.map (k * ·)) = k * listMax l := by
  cases l with
  | nil => simp [listMax]
  | cons a l => exact foldl_max_times hk l a

theorem plant_times {k : ℚ} (hk : 0 < k) (S : RunIn N) :
    plant (timesRun k S) = timesPlant k (plant S) := by
  simp only [plant, timesRun, timesPlant, listMax_times hk]

theorem wind_times (k : ℚ) (S : RunIn N) : wind (timesRun k S) = (wind S).map (k * ·) := by
  simp only [wind, timesRun, List.map_zipWith, List.zipWith_map, mul_add]

theorem generation_times (k : ℚ) (S : RunIn N) :
    generation (timesRun k S) = (generation S).map (k * ·) := by
  unfold generation
  rw [wind_times]
  simp only [timesRun, List.map_zipWith, List.zipWith_map, mul_add]

/-- A row of surplus and deficit `k` times as large. -/
def timesRow (k : ℚ) (r : Tools.Row) : Tools.Row :=
  { mtch := k * r.mtch, deficit := k * r.deficit, surplus := k * r.surplus, resUsed := k * r.resUsed }

theorem split_times {k : ℚ} (hk : 0 < k) (g d : ℚ) :
    Tools.splitHourFixed (k * g) (k * d) = timesRow k (Tools.splitHourFixed g d) := by
  have e : k * g - k * d = k * (g - d) := by ring
  have e2 : (k * (g - d) ≤ 0) ↔ g - d ≤ 0 := by
    have := times_le hk (a := g - d) (b := 0)
    rwa [mul_zero] at this
  unfold Tools.splitHourFixed
  dsimp only
  rw [e, times_min hk]
  by_cases h : g - d ≤ 0
  · rw [if_pos h, if_pos (e2.mpr h)]
    simp only [timesRow, mul_zero, Tools.Row.mk.injEq, true_and, and_true]
    ring
  · rw [if_neg h, if_neg (fun hh => h (e2.mp hh))]
    simp only [timesRow, mul_zero]

theorem rows_times {k : ℚ} (hk : 0 < k) (g d : List ℚ) :
    Tools.surplusDeficitFixed (g.map (k * ·)) (d.map (k * ·))
      = (Tools.surplusDeficitFixed g d).map (List.map (timesRow k)) := by
  unfold Tools.surplusDeficitFixed
  rw [List.length_map, List.length_map]
  by_cases h1 : g.length < 8760 ∨ d.length < 8760
  · rw [if_pos h1, if_pos h1]; rfl
  · rw [if_neg h1, if_neg h1]
    by_cases h2 : g.length > 8760 ∨ d.length > 8760
    · rw [if_pos h2, if_pos h2]; rfl
    · rw [if_neg h2, if_neg h2]
      simp only [Except.map, List.map_zipWith, List.zipWith_map, split_times hk]

theorem hour_times {k : ℚ} (hk : 0 < k) {S : RunIn N} (hc : S.tank.capacity = 0)
    (ht : ∀ hour s nodes m, S.tank.maxInOut hour s nodes = .ok m → m = 0)
    (hmin : S.hp.minimumOutput = 0) (h12 : 12 ∉ S.orderBelow) (rows : List Tools.Row) (t : ℕ)
    (nodes : N) (soc : ℚ) :
    hourStep (timesRun k S) (rows.map (timesRow k)) t nodes (k * soc)
      = (hourStep S rows t nodes soc).map (timesResults k) := by
  unfold hourStep
  rw [generation_times, wind_times, plant_times hk]
  show (lookup (S.heatDemand.map (k * ·)) t >>= _) = _
  rw [lookup_map]
  cases lookup S.heatDemand t with
  | error e => rfl
  | ok heat =>
    simp only [ok_then, Except.map]
    show (lookup S.importPrice t >>= _) = _
    cases lookup S.importPrice t with
    | error e => rfl
    | ok p =>
      simp only [ok_then]
      rw [lookup_map]
      cases lookup rows t with
      | error e => rfl
      | ok row =>
        simp only [ok_then, Except.map]
        show (lookupPerf (S.perf.map (fun p => ⟨p.cop, k * p.duty⟩)) t >>= _) = _
        rw [lookupPerf_map]
        cases lookupPerf S.perf t with
        | error e => rfl
        | ok perf =>
          simp only [ok_then, Except.map]
          have rest : ∀ b order, (b = true → 12 ∉ order) →
              ((step (timesPlant k (plant S))
                (timesIn k (hourIn t heat p row perf nodes soc)) b order >>= fun r =>
              (do
                let gen ← lookup ((generation S).map (k * ·)) t
                let wnd ← lookup ((wind S).map (k * ·)) t
                let pv ← lookup (S.pv.map (k * ·)) t
                let elec ← lookup (S.elecDemand.map (k * ·)) t
                return complete (timesRow k row) gen wnd pv elec (k * heat) r
                  : Except PyErr (Results N))))
            = ((step (plant S) (hourIn t heat p row perf nodes soc) b order >>= fun r =>
              (do
                let gen ← lookup (generation S) t
                let wnd ← lookup (wind S) t
                let pv ← lookup S.pv t
                let elec ← lookup S.elecDemand t
                return complete row gen wnd pv elec heat r : Except PyErr (Results N)))).map
                  (timesResults k) := by
            intro b order hb
            rw [step_times hk (plant S) _ (fun s m hm => ht _ s _ m hm) hc hmin b order hb]
            cases step (plant S) (hourIn t heat p row perf nodes soc) b order with
            | error e => rfl
            | ok r =>
              simp only [Except.map, ok_then, lookup_map]
              cases lookup (generation S) t with
              | error e => rfl
              | ok gen =>
                cases lookup (wind S) t with
                | error e => rfl
                | ok wnd =>
                  cases lookup S.pv t with
                  | error e => rfl
                  | ok pv =>
                    cases lookup S.elecDemand t with
                    | error e => rfl
                    | ok elec =>
                      simp only [ok_then, pure, Except.pure, complete, timesResults, timesRow, mul_add]
          by_cases hp1 : p > S.setpoint
          · rw [if_pos hp1, if_pos (show p > (timesRun k S).setpoint from hp1)]
            exact rest false S.orderAbove (fun h => by cases h)
          · rw [if_neg hp1, if_neg (show ¬ p > (timesRun k S).setpoint from hp1)]
            exact rest true S.orderBelow (fun _ => h12)

/-- C105: a system `k` times as large (demands, generation, heat pump, battery) without thermal store has
flows, states of charge and costs `k` times as large in every hour, and runs exactly if the original does.
What is missing for a system with a thermal store or a minimum output is that PyLESA then compares with
fixed amounts (0.1 kWh) and rounds to fixed decimals. -/
theorem C105_size_scales_partial {k : ℚ} (hk : 0 < k) {S : RunIn N} (hc : S.tank.capacity = 0)
    (ht : ∀ hour s nodes m, S.tank.maxInOut hour s nodes = .ok m → m = 0)
    (hmin : S.hp.minimumOutput = 0) (h12 : 12 ∉ S.orderBelow) (first n : ℕ) :
    runTimesteps (timesRun k S) first n
      = (runTimesteps S first n).map (List.map (timesResults k)) := by
  unfold runTimesteps
  rw [generation_times, show (timesRun k S).elecDemand = S.elecDemand.map (k * ·) from rfl,
    rows_times hk]
  cases Tools.surplusDeficitFixed (generation S) S.elecDemand with
  | error e => rfl
  | ok rows =>
    simp only [ok_then, Except.map]
    by_cases hl : first + n > 8760
    · rw [if_pos hl, if_pos hl]
    · rw [if_neg hl, if_neg hl]
      have e : (timesRun k S).es.initState = k * S.es.initState := by
        simp only [timesRun, timesBattery, Battery.initState]
        ring
      rw [e]
      show runFrom (timesRun k S) (rows.map (timesRow k)) first n S.tank.initTemps
        (k * S.es.initState) = _
      generalize S.tank.initTemps = nodes
      generalize S.es.initState = soc
      clear hl e
      induction n generalizing first nodes soc with
      | zero => rfl
      | succ n ih =>
        simp only [runFrom, hour_times hk hc ht hmin h12]
        cases hourStep S rows first nodes soc with
        | error e => rfl
        | ok r =>
          simp only [Except.map, ok_then]
          show (runFrom (timesRun k S) (rows.map (timesRow k)) (first + 1) n
            (r.ts.finalNodesTemp.getD nodes) (k * r.es.finalSoc) >>= _) = _
          rw [ih]
          cases runFrom S rows (first + 1) n (r.ts.finalNodesTemp.getD nodes) r.es.finalSoc <;> rfl

/-- A year without thermal store and minimum output, with a battery. -/
def Spec.batteryRun : RunIn Unit :=
  { sampleRun with hp := { sampleRun.hp with minimumOutput := 0 }, tank := noTank,
                   orderBelow := [1, 2, 3, 4, 5, 6, 8, 9, 13, 14, 15] }

/-- Two of them take twice the electricity from the grid. -/
example : ∃ rs, runTimesteps batteryRun 0 24 = .ok rs ∧
    runTimesteps (timesRun 2 batteryRun) 0 24 = .ok (rs.map (timesResults 2)) ∧
    ∀ r : Results Unit, (timesResults 2 r).grid.totalImport = 2 * r.grid.totalImport := by
  obtain ⟨rs, h⟩ := C27_accepts_span_inside_year (S := batteryRun) (first := 0) (n := 24)
    ⟨sampleRun_fullYear.windUser, sampleRun_fullYear.windData, sampleRun_fullYear.pv,
      sampleRun_fullYear.elecDemand, sampleRun_fullYear.heatDemand, sampleRun_fullYear.importPrice,
      sampleRun_fullYear.perf⟩
    ⟨show ∀ n ∈ batteryRun.orderAbove, 1 ≤ n ∧ n ≤ 13 by decide,
      show ∀ n ∈ batteryRun.orderBelow, 1 ≤ n ∧ n ≤ 15 by decide⟩
    (fun _ _ _ => ⟨_, rfl⟩) (fun _ _ _ _ _ => ⟨_, rfl⟩) (by decide)
  refine ⟨rs, h, ?_, fun _ => rfl⟩
  rw [C105_size_scales_partial (by norm_num) rfl (fun _ _ _ _ hh => (Except.ok.inj hh).symm) rfl
    (show 12 ∉ batteryRun.orderBelow by decide), h]
  rfl

/-- With a minimum output size matters: a heat pump of 12 kW asked for 1 kWh is switched off, one of 60 W
asked for 5 Wh, the same two hundred times smaller, runs. -/
theorem C105_minimum_output_breaks_scaling : ∃ (P : Plant Unit) (i : StepIn Unit) (order : List ℤ),
    P.tank.capacity = 0 ∧
    (∃ r, step P i false order = .ok r ∧ r.hp.heatTotalOutput = 0) ∧
    (∃ r, step (timesPlant (1 / 200) P) (timesIn (1 / 200) i) false order = .ok r ∧
      r.hp.heatTotalOutput = 1 / 200) := by
  refine ⟨barePlant, { sampleStep with surplus := 0, heatDemand := 1 }, [8, 9], rfl, ?_, ?_⟩
  · exact exists_of_checks (by decide +kernel)
  · exact exists_of_checks (by decide +kernel)

end Verif
