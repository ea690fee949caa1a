import Verif.Lemmas.FixedOrder

/-!
# Invariants of the process loop of one fixed-order timestep
-/

set_option autoImplicit false

namespace Verif
open Spec
namespace FixedOrder
variable {N : Type}

/-- The result fields a process writes are still zero. -/
def Fresh (q : Process) (r : Results N) : Prop :=
  match q with
  | .resToDemand => True
  | .esToDemand => r.elecDemand.es = 0 ∧ r.es.dischargingToDemand = 0
  | .importToDemand => r.elecDemand.imp = 0 ∧ r.grid.importForElecDemand = 0
  | .hpResToDemand => r.heatDemand.hpRes = 0 ∧ r.res.hpToHeatDemand = 0 ∧
      r.hp.heatFromResToDemand = 0 ∧ r.hp.elecFromResToDemand = 0
  | .eauxResToDemand => r.aux.resToDemand = 0
  | .hpImportToDemand => r.heatDemand.hpImport = 0 ∧ r.grid.importForHeatPumpToHeatDemand = 0 ∧
      r.hp.heatFromImportToDemand = 0 ∧ r.hp.elecFromImportToDemand = 0
  | .tsToDemand => r.heatDemand.ts = 0 ∧ r.ts.dischargingTotal = 0
  | .esToHpToDemand => r.heatDemand.hpEs = 0 ∧ r.es.dischargingToHp = 0 ∧
      r.hp.heatFromEsToDemand = 0 ∧ r.hp.elecFromEsToDemand = 0
  | .auxToDemand => r.heatDemand.aux = 0
  | .hpResToTs => r.res.hpToTs = 0 ∧ r.hp.heatFromResToTs = 0 ∧ r.hp.elecFromResToTs = 0 ∧
      r.ts.hpFromResToTs = 0
  | .eauxResToTs => r.aux.resToTs = 0 ∧ r.ts.auxToTs = 0
  | .hpImportToTs => r.grid.importForHeatPumpToTs = 0 ∧ r.hp.heatFromImportToTs = 0 ∧
      r.hp.elecFromImportToTs = 0 ∧ r.ts.hpFromImportToTs = 0
  | .resToEs => r.res.es = 0 ∧ r.es.chargingFromRes = 0
  | .importToEs => r.grid.importForEs = 0 ∧ r.es.chargingFromImport = 0
  | .resToExport => r.res.exp = 0 ∧ r.grid.totalExport = 0

theorem fresh_record {p q : Process} (hpq : p ≠ q) (a : Amt) {r : Results N} (h : Fresh q r) :
    Fresh q (record p a r) := by
  cases p <;> cases q <;> first | exact absurd rfl hpq | exact h

theorem fresh_init (P : Plant N) (i : StepIn N) (b : Bool) (q : Process) :
    Fresh q (initResults P i b) := by
  cases q <;> simp [Fresh, initResults]

/-- Fields written by no process. -/
structure Frame (P : Plant N) (i : StepIn N) (b : Bool) (r : Results N) : Prop where
  cop : r.hp.cop = i.perf.cop
  duty : r.hp.duty = i.perf.duty
  importPrice : r.grid.importPrice = i.importPrice
  exportPrice : r.grid.exportPrice = if b then P.exportPrice else 0
  surplus : r.grid.surplus = i.surplus
  deficit : r.grid.deficit = i.deficit
  below : r.grid.importBelowSetpoint = 0

/-- The same amount appears under several headings. -/
structure Copies (r : Results N) : Prop where
  c1 : r.es.dischargingToDemand = r.elecDemand.es
  c2 : r.grid.importForElecDemand = r.elecDemand.imp
  c3 : r.heatDemand.hpRes = r.hp.heatFromResToDemand
  c4 : r.res.hpToHeatDemand = r.hp.elecFromResToDemand
  c5 : r.heatDemand.hpImport = r.hp.heatFromImportToDemand
  c6 : r.grid.importForHeatPumpToHeatDemand = r.hp.elecFromImportToDemand
  c7 : r.heatDemand.ts = r.ts.dischargingTotal
  c8 : r.heatDemand.hpEs = r.hp.heatFromEsToDemand
  c9 : r.es.dischargingToHp = r.hp.elecFromEsToDemand
  c10 : r.res.hpToTs = r.hp.elecFromResToTs
  c11 : r.ts.hpFromResToTs = r.hp.heatFromResToTs
  c12 : r.ts.auxToTs = r.aux.resToTs
  c13 : r.grid.importForHeatPumpToTs = r.hp.elecFromImportToTs
  c14 : r.ts.hpFromImportToTs = r.hp.heatFromImportToTs
  c15 : r.res.es = r.es.chargingFromRes
  c16 : r.grid.importForEs = r.es.chargingFromImport
  c17 : r.res.exp = r.grid.totalExport

/-- A process that returns a plain number has `h = e`. -/
def isScalar : Process → Bool
  | .hpResToDemand | .hpImportToDemand | .esToHpToDemand | .hpResToTs | .hpImportToTs => false
  | _ => true

theorem amount_scalar {P : Plant N} {i : StepIn N} {c : Checks} {p : Process} {a : Amt}
    (h : amount P i c p = .ok a) (hp : isScalar p = true) : a.h = a.e := by
  cases p <;> simp [isScalar] at hp <;> simp only [amount] at h <;>
    first
    | (cases h; rfl)
    | (simp only [except_bind_ok, except_pure_ok] at h; obtain ⟨m, _, h⟩ := h; cases h; rfl)
    | (split_ifs at h
       · simp only [except_bind_ok, except_pure_ok] at h; obtain ⟨m, _, h⟩ := h; cases h; rfl
       · cases h; rfl)

theorem frame_record {P : Plant N} {i : StepIn N} {b : Bool} {r : Results N} (p : Process)
    (a : Amt) (h : Frame P i b r) : Frame P i b (record p a r) := by
  cases p <;> exact ⟨h.1, h.2, h.3, h.4, h.5, h.6, h.7⟩

theorem copies_record {r : Results N} (p : Process) (a : Amt) (h : Copies r) : Copies (record p a r) := by
  obtain ⟨c1, c2, c3, c4, c5, c6, c7, c8, c9, c10, c11, c12, c13, c14, c15, c16, c17⟩ := h
  cases p <;> constructor <;> first | assumption | rfl

/-- Energy accounts between the checks and the results. -/
structure Bal (P : Plant N) (i : StepIn N) (c : Checks) (r : Results N) : Prop where
  elec : c.elecUnmet + r.elecDemand.es + r.elecDemand.imp = i.deficit
  res : c.resLeft + r.res.hpToHeatDemand + r.res.hpToTs + r.aux.resToDemand + r.aux.resToTs
    + r.res.es + r.res.exp = i.surplus
  heat : c.heatUnmet + r.heatDemand.hpRes + r.heatDemand.hpImport + r.heatDemand.hpEs
    + r.heatDemand.ts + r.heatDemand.aux + r.aux.resToDemand = i.heatDemand
  hp : c.hpUsage = r.hp.heatFromResToDemand + r.hp.heatFromImportToDemand
    + r.hp.heatFromResToTs + r.hp.heatFromImportToTs
  dis : c.tsDischarge = r.ts.dischargingTotal
  ch : c.tsCharge = r.ts.hpFromResToTs + r.ts.hpFromImportToTs + r.ts.auxToTs
  aux : c.auxLeft + r.aux.resToDemand + r.aux.resToTs + r.heatDemand.aux = P.peakHeatDemand
  soc : c.soc + r.es.dischargingToDemand + r.es.dischargingToHp
    = i.soc + r.es.chargingFromRes + r.es.chargingFromImport

theorem bal_step {P : Plant N} {i : StepIn N} {c : Checks} {r : Results N} {p : Process} {a : Amt}
    (ha : amount P i c p = .ok a) (hf : Fresh p r) (h : Bal P i c r) :
    Bal P i (update p a c) (record p a r) := by
  have hs := amount_scalar ha
  obtain ⟨b1, b2, b3, b4, b5, b6, b7, b8⟩ := h
  cases p <;> simp only [Fresh] at hf <;>
    constructor <;> simp only [update, record] <;>
    first
    | assumption
    | linarith
    | (have := hs rfl; linarith)

/-- Nothing already met becomes unmet, and no renewable energy is spent twice: whatever the
process, the amount is at most what is left. -/
structure Base (c : Checks) : Prop where
  e0 : 0 ≤ c.elecUnmet
  h0 : 0 ≤ c.heatUnmet
  r0 : 0 ≤ c.resLeft

theorem maxCharging_le_offer {b : Battery} {m s : ℚ} (hm : 0 ≤ m) :
    b.maxCharging m s ≤ m := by
  unfold Battery.maxCharging
  dsimp only
  split_ifs with h1 h2
  · exact min_le_left _ _
  · exact (min_le_left _ _).trans h2.2
  · exact (min_le_left _ _).trans hm

theorem maxCharging_le_room {b : Battery} {m s : ℚ} : b.maxCharging m s ≤ b.capacity - s := by
  unfold Battery.maxCharging
  exact min_le_right _ _

theorem maxCharging_le_rating {b : Battery} {m s : ℚ} (hb : 0 ≤ b.chargeMax) :
    b.maxCharging m s ≤ b.chargeMax := by
  unfold Battery.maxCharging
  dsimp only
  split_ifs with h1 h2
  · exact (min_le_left _ _).trans h1.2
  · exact min_le_left _ _
  · exact (min_le_left _ _).trans hb

theorem maxCharging_nonneg {b : Battery} {m s : ℚ} (hb : 0 ≤ b.chargeMax) (hs : s ≤ b.capacity) :
    0 ≤ b.maxCharging m s := by
  unfold Battery.maxCharging
  dsimp only
  refine le_min ?_ (by linarith)
  split_ifs with h1 h2
  · exact h1.1
  · exact hb
  · exact le_rfl

theorem base_step {P : Plant N} {i : StepIn N} (H : StepOk P i) {c : Checks} {p : Process}
    {a : Amt} (ha : amount P i c p = .ok a) (h : Base c) : Base (update p a c) := by
  obtain ⟨e0, h0, r0⟩ := h
  have hc := H.cop_pos
  cases p <;> simp only [amount, Except.ok.injEq] at ha
  case resToDemand => exact ⟨e0, h0, r0⟩
  case esToDemand =>
    subst ha
    refine ⟨?_, h0, r0⟩
    have : min c.elecUnmet c.soc ≤ c.elecUnmet := min_le_left _ _
    simp only [update, Amt.scalar, esToDemand]; linarith
  case importToDemand =>
    subst ha; refine ⟨?_, h0, r0⟩; simp [update, Amt.scalar]
  case hpResToDemand =>
    subst ha
    have h1 : (hpResToDemand P.hp c.hpUsage c.resLeft i.perf c.heatUnmet).h
        ≤ (P.hp.thermalOutput c.resLeft i.perf c.heatUnmet).demand := min_le_left _ _
    refine ⟨e0, ?_, ?_⟩
    · have := thermalOutput_demand_le_heat (hp := P.hp) (p := i.perf) (x := c.resLeft) h0
      simp only [update]; linarith
    · have h2 := thermalOutput_demand_le_supply (hp := P.hp) hc (d := c.heatUnmet) r0
      have : (hpResToDemand P.hp c.hpUsage c.resLeft i.perf c.heatUnmet).e ≤ c.resLeft :=
        elecUsage_le hc r0 (h1.trans h2)
      simp only [update]; linarith
  case eauxResToDemand =>
    subst ha
    have h1 : eauxResToDemand P.aux c.auxLeft c.resLeft c.heatUnmet ≤ c.heatUnmet := by
      unfold eauxResToDemand; split_ifs
      · exact min_le_right _ _
      · exact h0
    have h2 : eauxResToDemand P.aux c.auxLeft c.resLeft c.heatUnmet ≤ c.resLeft := by
      unfold eauxResToDemand; split_ifs
      · exact (min_le_left _ _).trans (min_le_right _ _)
      · exact r0
    exact ⟨e0, by simp only [update, Amt.scalar]; linarith,
      by simp only [update, Amt.scalar]; linarith⟩
  case hpImportToDemand =>
    subst ha
    have h1 : (hpImportToDemand P.hp c.hpUsage c.heatUnmet i.perf).h ≤ c.heatUnmet := by
      simp only [hpImportToDemand]; split_ifs
      · exact h0
      · exact min_le_left _ _
    exact ⟨e0, by simp only [update]; linarith, r0⟩
  case tsToDemand =>
    simp only [except_bind_ok, except_pure_ok] at ha
    obtain ⟨m, _, rfl⟩ := ha
    have : tsToDemand m c.heatUnmet c.tsDischarge c.tsCharge ≤ c.heatUnmet := min_le_left _ _
    exact ⟨e0, by simp only [update, Amt.scalar]; linarith, r0⟩
  case esToHpToDemand =>
    subst ha
    have h1 : (esToHpToDemand P.hp c.soc i.perf c.heatUnmet c.hpUsage).h
        ≤ (P.hp.thermalOutput c.soc i.perf c.heatUnmet).demand := min_le_left _ _
    have := thermalOutput_demand_le_heat (hp := P.hp) (p := i.perf) (x := c.soc) h0
    exact ⟨e0, by simp only [update]; linarith, r0⟩
  case auxToDemand =>
    subst ha; exact ⟨e0, by simp [update, Amt.scalar], r0⟩
  case hpResToTs =>
    simp only [except_bind_ok, except_pure_ok] at ha
    obtain ⟨m, _, rfl⟩ := ha
    have : (hpResToTs P.hp m c.resLeft i.perf c.hpUsage c.tsDischarge c.tsCharge).e ≤ c.resLeft :=
      elecUsage_le hc r0 ((min_le_left _ _).trans (min_le_right _ _))
    exact ⟨e0, h0, by simp only [update]; linarith⟩
  case eauxResToTs =>
    split_ifs at ha
    · simp only [except_bind_ok, except_pure_ok] at ha
      obtain ⟨m, _, rfl⟩ := ha
      have : min (min c.auxLeft c.resLeft) (m + c.tsDischarge - c.tsCharge) ≤ c.resLeft :=
        (min_le_left _ _).trans (min_le_right _ _)
      exact ⟨e0, h0, by simp only [update, Amt.scalar]; linarith⟩
    · cases ha; exact ⟨e0, h0, by simpa [update, Amt.scalar] using r0⟩
  case hpImportToTs =>
    simp only [except_bind_ok, except_pure_ok] at ha
    obtain ⟨m, _, rfl⟩ := ha
    exact ⟨e0, h0, r0⟩
  case resToEs =>
    subst ha
    have := maxCharging_le_offer (b := P.es) (s := c.soc) r0
    exact ⟨e0, h0, by simp only [update, Amt.scalar]; linarith⟩
  case importToEs => subst ha; exact ⟨e0, h0, r0⟩
  case resToExport => subst ha; exact ⟨e0, h0, by simp [update, Amt.scalar]⟩

/-! ### Orders that keep every flow non-negative -/

/-- History (most recent first) without: electric heater to store, boiler, electric heater to
demand, in this sequence. -/
def Safe1 (done : List Process) : Prop :=
  ¬ [Process.eauxResToDemand, .auxToDemand, .eauxResToTs].Sublist done

/-- History without heat pump or store charging after 'HP import to TS', and without 'RES to ES'
after 'Import to ES'. -/
def Safe2 (done : List Process) : Prop :=
  (∀ q ∈ [Process.hpResToDemand, .hpImportToDemand, .esToHpToDemand, .hpResToTs, .eauxResToTs],
    ¬ [q, Process.hpImportToTs].Sublist done) ∧
  ¬ [Process.resToEs, .importToEs].Sublist done

theorem Safe1.tail {p : Process} {done : List Process} (h : Safe1 (p :: done)) : Safe1 done :=
  fun hs => h (hs.cons _)

theorem Safe2.tail {p : Process} {done : List Process} (h : Safe2 (p :: done)) : Safe2 done :=
  ⟨fun q hq hs => h.1 q hq (hs.cons _), fun hs => h.2 (hs.cons _)⟩

theorem Safe2.hp {p : Process} {done : List Process} (h : Safe2 (p :: done))
    (hp : p ∈ [Process.hpResToDemand, .hpImportToDemand, .esToHpToDemand, .hpResToTs,
      .eauxResToTs]) : Process.hpImportToTs ∉ done :=
  fun hm => h.1 p hp ((List.singleton_sublist.mpr hm).cons_cons _)

theorem Safe2.es {done : List Process} (h : Safe2 (Process.resToEs :: done)) :
    Process.importToEs ∉ done :=
  fun hm => h.2 ((List.singleton_sublist.mpr hm).cons_cons _)

/-- Remaining capacities of pump, tank, battery and boiler. -/
structure Caps (P : Plant N) (i : StepIn N) (done : List Process) (c : Checks) : Prop where
  s0 : 0 ≤ c.soc
  scap : Process.importToEs ∉ done → c.soc ≤ P.es.capacity
  u0 : 0 ≤ c.hpUsage
  u1 : Process.hpImportToTs ∉ done → c.hpUsage ≤ i.perf.duty
  u2 : c.hpUsage ≤ i.perf.duty + 1 / 200
  d0 : 0 ≤ c.tsDischarge
  c0 : 0 ≤ c.tsCharge
  room : ∀ m, P.tank.maxInOut i.hour .charging i.nodes = .ok m →
    Process.hpImportToTs ∉ done → c.tsCharge ≤ m + c.tsDischarge
  room2 : ∀ m, P.tank.maxInOut i.hour .charging i.nodes = .ok m →
    c.tsCharge ≤ m + c.tsDischarge + 1 / 200
  avail : ∀ m, P.tank.maxInOut i.hour .discharging i.nodes = .ok m →
    c.tsDischarge ≤ m + c.tsCharge
  a0 : Process.eauxResToTs ∉ done → c.heatUnmet ≤ c.auxLeft
  a1 : 0 ≤ c.auxLeft ∨ [Process.auxToDemand, .eauxResToTs].Sublist done

/-- Amounts are non-negative for safe orders. -/
theorem amount_nonneg {P : Plant N} {i : StepIn N} (H : StepOk P i) {done : List Process}
    {c : Checks} {p : Process} {a : Amt} (ha : amount P i c p = .ok a) (hb : Base c)
    (hc : Caps P i done c) (hn : p ∉ done) (h2 : Safe2 (p :: done))
    (h1 : p = .eauxResToDemand → Safe1 (p :: done)) : 0 ≤ a.h ∧ 0 ≤ a.e := by
  obtain ⟨e0, h0, r0⟩ := hb
  have hcop := H.cop_pos
  have hdu := H.duty_nonneg
  have key : ∀ x : ℚ, 0 ≤ x → 0 ≤ P.hp.elecUsage x i.perf :=
    fun x hx => elecUsage_nonneg hcop hdu hx
  cases p <;> simp only [amount, Except.ok.injEq] at ha
  case resToDemand => subst ha; exact ⟨le_rfl, le_rfl⟩
  case esToDemand => subst ha; exact ⟨le_min e0 hc.s0, le_min e0 hc.s0⟩
  case importToDemand => subst ha; exact ⟨e0, e0⟩
  case hpResToDemand =>
    subst ha
    have hs := hc.u1 (h2.hp (by simp))
    have : 0 ≤ (hpResToDemand P.hp c.hpUsage c.resLeft i.perf c.heatUnmet).h :=
      le_min (thermalOutput_demand_nonneg hcop hdu r0 h0) (by linarith)
    exact ⟨this, key _ this⟩
  case eauxResToDemand =>
    subst ha
    have : 0 ≤ eauxResToDemand P.aux c.auxLeft c.resLeft c.heatUnmet := by
      unfold eauxResToDemand; split_ifs
      · refine le_min (le_min ?_ r0) h0
        rcases hc.a1 with h | h
        · exact h
        · exact absurd (h.cons_cons _) (h1 rfl)
      · exact le_rfl
    exact ⟨this, this⟩
  case hpImportToDemand =>
    subst ha
    have hs := hc.u1 (h2.hp (by simp))
    have : 0 ≤ (hpImportToDemand P.hp c.hpUsage c.heatUnmet i.perf).h := by
      simp only [hpImportToDemand]; split_ifs
      · exact le_rfl
      · exact le_min h0 (by linarith)
    exact ⟨this, key _ this⟩
  case tsToDemand =>
    simp only [except_bind_ok, except_pure_ok] at ha
    obtain ⟨m, hm, rfl⟩ := ha
    have := hc.avail m hm
    have : 0 ≤ tsToDemand m c.heatUnmet c.tsDischarge c.tsCharge := le_min h0 (by linarith)
    exact ⟨this, this⟩
  case esToHpToDemand =>
    subst ha
    have hs := hc.u1 (h2.hp (by simp))
    have : 0 ≤ (esToHpToDemand P.hp c.soc i.perf c.heatUnmet c.hpUsage).h :=
      le_min (thermalOutput_demand_nonneg hcop hdu hc.s0 h0) (by linarith)
    exact ⟨this, key _ this⟩
  case auxToDemand => subst ha; exact ⟨h0, h0⟩
  case hpResToTs =>
    simp only [except_bind_ok, except_pure_ok] at ha
    obtain ⟨m, hm, rfl⟩ := ha
    have hni := h2.hp (by simp)
    have hs := hc.u1 hni
    have hr := hc.room m hm hni
    have : 0 ≤ (hpResToTs P.hp m c.resLeft i.perf c.hpUsage c.tsDischarge c.tsCharge).h :=
      le_min (le_min (by linarith) (mul_nonneg r0 hcop.le)) (by linarith)
    exact ⟨this, key _ this⟩
  case eauxResToTs =>
    split_ifs at ha
    · simp only [except_bind_ok, except_pure_ok] at ha
      obtain ⟨m, hm, rfl⟩ := ha
      have hr := hc.room m hm (h2.hp (by simp))
      have ha0 := hc.a0 hn
      have : 0 ≤ min (min c.auxLeft c.resLeft) (m + c.tsDischarge - c.tsCharge) :=
        le_min (le_min (by linarith) r0) (by linarith)
      exact ⟨this, this⟩
    · cases ha; exact ⟨le_rfl, le_rfl⟩
  case hpImportToTs =>
    simp only [except_bind_ok, except_pure_ok] at ha
    obtain ⟨m, hm, rfl⟩ := ha
    have hs := hc.u1 hn
    have hr := hc.room m hm hn
    have : 0 ≤ (hpImportToTs P.hp m i.perf c.hpUsage c.tsDischarge c.tsCharge).h := by
      simp only [hpImportToTs]; split_ifs
      · exact le_rfl
      · exact pyRound_nonneg (le_min (by linarith) (by linarith)) 2
    exact ⟨this, key _ this⟩
  case resToEs =>
    subst ha
    have := maxCharging_nonneg (m := c.resLeft) H.es.chargeMax_nonneg (hc.scap h2.es)
    exact ⟨this, this⟩
  case importToEs =>
    subst ha
    have hs := hc.scap hn
    have : 0 ≤ P.es.chargeToCapacity c.soc := by
      unfold Battery.chargeToCapacity Battery.selfLoss
      have h1 := mul_nonneg hc.s0 H.es.selfDischarge_nonneg
      have h2 := mul_nonneg (sub_nonneg.mpr hs) H.es.chargeEff_nonneg
      exact le_min (by linarith) H.es.chargeMax_nonneg
    exact ⟨this, this⟩
  case resToExport => subst ha; exact ⟨r0, r0⟩

theorem caps_step {P : Plant N} {i : StepIn N} (H : StepOk P i) {done : List Process}
    {c : Checks} {p : Process} {a : Amt} (ha : amount P i c p = .ok a) (hb : Base c)
    (hc : Caps P i done c) (hn : p ∉ done) (h2 : Safe2 (p :: done)) :
    Caps P i (p :: done) (update p a c) := by
  have hnn := amount_nonneg H ha hb hc hn h2
  obtain ⟨e0, h0, r0⟩ := hb
  have hcop := H.cop_pos
  have hdu := H.duty_nonneg
  obtain ⟨s0, scap, u0, u1, u2, d0, c0, room, room2, avail, a0, a1⟩ := hc
  have a1' : 0 ≤ c.auxLeft ∨ [Process.auxToDemand, .eauxResToTs].Sublist (p :: done) :=
    a1.imp id (fun h => h.cons _)
  have hscap : Process.importToEs ∉ p :: done → c.soc ≤ P.es.capacity :=
    fun h => scap (fun h' => h (List.mem_cons_of_mem _ h'))
  have hu1 : Process.hpImportToTs ∉ p :: done → c.hpUsage ≤ i.perf.duty :=
    fun h => u1 (fun h' => h (List.mem_cons_of_mem _ h'))
  have hroom : ∀ m, P.tank.maxInOut i.hour .charging i.nodes = .ok m →
      Process.hpImportToTs ∉ p :: done → c.tsCharge ≤ m + c.tsDischarge :=
    fun m hm h => room m hm (fun h' => h (List.mem_cons_of_mem _ h'))
  have ha0 : Process.eauxResToTs ∉ p :: done → c.heatUnmet ≤ c.auxLeft :=
    fun h => a0 (fun h' => h (List.mem_cons_of_mem _ h'))
  cases p <;> simp only [amount, Except.ok.injEq] at ha
  case resToDemand =>
    exact ⟨s0, hscap, u0, hu1, u2, d0, c0, hroom, room2, avail, ha0, a1'⟩
  case esToDemand =>
    have h := (hnn (by simp)).2
    have hle : a.e ≤ c.soc := by subst ha; exact min_le_right _ _
    exact ⟨by simp only [update]; linarith, fun hh => by have := hscap hh; simp only [update]; linarith,
      u0, hu1, u2, d0, c0, hroom, room2, avail, ha0, a1'⟩
  case importToDemand =>
    exact ⟨s0, hscap, u0, hu1, u2, d0, c0, hroom, room2, avail, ha0, a1'⟩
  case hpResToDemand =>
    have h := (hnn (by simp)).1
    have hle : a.h ≤ i.perf.duty - c.hpUsage := by subst ha; exact min_le_right _ _
    exact ⟨s0, hscap, by simp only [update]; linarith, fun _ => by simp only [update]; linarith,
      by simp only [update]; linarith, d0, c0, hroom, room2, avail,
      fun hh => by have := ha0 hh; simp only [update]; linarith, a1'⟩
  case eauxResToDemand =>
    have hsc : a.h = a.e := by subst ha; rfl
    have hle : a.e ≤ c.auxLeft ∨ [Process.auxToDemand, .eauxResToTs].Sublist done := by
      rcases a1 with h | h
      · left
        subst ha
        simp only [Amt.scalar, eauxResToDemand]; split_ifs
        · exact (min_le_left _ _).trans (min_le_left _ _)
        · exact h
      · exact Or.inr h
    refine ⟨s0, hscap, u0, hu1, u2, d0, c0, hroom, room2, avail,
      fun hh => by have := ha0 hh; simp only [update]; linarith, ?_⟩
    rcases hle with h | h
    · left; simp only [update]; linarith
    · right; exact h.cons _
  case hpImportToDemand =>
    have h := (hnn (by simp)).1
    have hs := u1 (h2.hp (by simp))
    have hle : a.h ≤ i.perf.duty - c.hpUsage := by
      subst ha; simp only [hpImportToDemand]; split_ifs
      · linarith
      · exact min_le_right _ _
    exact ⟨s0, hscap, by simp only [update]; linarith, fun _ => by simp only [update]; linarith,
      by simp only [update]; linarith, d0, c0, hroom, room2, avail,
      fun hh => by have := ha0 hh; simp only [update]; linarith, a1'⟩
  case tsToDemand =>
    have h := (hnn (by simp)).1
    simp only [except_bind_ok, except_pure_ok] at ha
    obtain ⟨m, hm, rfl⟩ := ha
    have hle : tsToDemand m c.heatUnmet c.tsDischarge c.tsCharge
        ≤ m - c.tsDischarge + c.tsCharge := min_le_right _ _
    simp only [Amt.scalar] at h
    refine ⟨s0, hscap, u0, hu1, u2, by simp only [update, Amt.scalar]; linarith, c0,
      fun m' hm' hh => by have := hroom m' hm' hh; simp only [update, Amt.scalar]; linarith,
      fun m' hm' => by have := room2 m' hm'; simp only [update, Amt.scalar]; linarith,
      fun m' hm' => ?_,
      fun hh => by have := ha0 hh; simp only [update, Amt.scalar]; linarith, a1'⟩
    rw [hm] at hm'; cases hm'
    simp only [update, Amt.scalar]; linarith
  case esToHpToDemand =>
    have hh := hnn (by simp)
    have hle : a.e ≤ c.soc := by
      subst ha
      refine elecUsage_le hcop s0 ((min_le_left _ _).trans ?_)
      exact thermalOutput_demand_le_supply hcop s0
    exact ⟨by simp only [update]; linarith,
      fun hh' => by have := hscap hh'; simp only [update]; linarith [hh.2],
      u0, hu1, u2, d0, c0, hroom, room2, avail,
      fun hh' => by have := ha0 hh'; simp only [update]; linarith [hh.1], a1'⟩
  case auxToDemand =>
    subst ha
    refine ⟨s0, hscap, u0, hu1, u2, d0, c0, hroom, room2, avail,
      fun hh => by have := ha0 hh; simp only [update, Amt.scalar]; linarith, ?_⟩
    by_cases hm : Process.eauxResToTs ∈ done
    · right; exact (List.singleton_sublist.mpr hm).cons_cons _
    · left; have := a0 hm; simp only [update, Amt.scalar]; linarith
  case hpResToTs =>
    have h := (hnn (by simp)).1
    simp only [except_bind_ok, except_pure_ok] at ha
    obtain ⟨m, hm, rfl⟩ := ha
    have hle1 : (hpResToTs P.hp m c.resLeft i.perf c.hpUsage c.tsDischarge c.tsCharge).h
        ≤ i.perf.duty - c.hpUsage := (min_le_left _ _).trans (min_le_left _ _)
    have hle2 : (hpResToTs P.hp m c.resLeft i.perf c.hpUsage c.tsDischarge c.tsCharge).h
        ≤ m + c.tsDischarge - c.tsCharge := min_le_right _ _
    refine ⟨s0, hscap, by simp only [update]; linarith, fun _ => by simp only [update]; linarith,
      by simp only [update]; linarith, d0, by simp only [update]; linarith,
      fun m' hm' _ => ?_, fun m' hm' => ?_,
      fun m' hm' => by have := avail m' hm'; simp only [update]; linarith, ha0, a1'⟩
    · rw [hm] at hm'; cases hm'; simp only [update]; linarith
    · rw [hm] at hm'; cases hm'; simp only [update]; linarith
  case eauxResToTs =>
    have h := (hnn (by simp)).1
    have hal := a0 hn
    split_ifs at ha
    · simp only [except_bind_ok, except_pure_ok] at ha
      obtain ⟨m, hm, rfl⟩ := ha
      simp only [Amt.scalar] at h
      have hle1 : min (min c.auxLeft c.resLeft) (m + c.tsDischarge - c.tsCharge) ≤ c.auxLeft :=
        (min_le_left _ _).trans (min_le_left _ _)
      have hle2 : min (min c.auxLeft c.resLeft) (m + c.tsDischarge - c.tsCharge)
        ≤ m + c.tsDischarge - c.tsCharge := min_le_right _ _
      refine ⟨s0, hscap, u0, hu1, u2, d0, by simp only [update, Amt.scalar]; linarith,
        fun m' hm' _ => ?_, fun m' hm' => ?_,
        fun m' hm' => by have := avail m' hm'; simp only [update, Amt.scalar]; linarith,
        fun hh => absurd List.mem_cons_self hh, ?_⟩
      · rw [hm] at hm'; cases hm'; simp only [update, Amt.scalar]; linarith
      · rw [hm] at hm'; cases hm'; simp only [update, Amt.scalar]; linarith
      · left; simp only [update, Amt.scalar]; linarith
    · cases ha
      refine ⟨s0, hscap, u0, hu1, u2, d0, by simpa [update, Amt.scalar] using c0,
        fun m' hm' hh => by have := hroom m' hm' hh; simpa [update, Amt.scalar] using this,
        fun m' hm' => by have := room2 m' hm'; simpa [update, Amt.scalar] using this,
        fun m' hm' => by have := avail m' hm'; simpa [update, Amt.scalar] using this,
        fun hh => absurd List.mem_cons_self hh, ?_⟩
      left; simp only [update, Amt.scalar]; linarith
  case hpImportToTs =>
    have h := (hnn (by simp)).1
    have hs := u1 hn
    simp only [except_bind_ok, except_pure_ok] at ha
    obtain ⟨m, hm, rfl⟩ := ha
    have hr := room m hm hn
    have hle : (hpImportToTs P.hp m i.perf c.hpUsage c.tsDischarge c.tsCharge).h
        ≤ min (i.perf.duty - c.hpUsage) (m + c.tsDischarge - c.tsCharge) + 1 / 200 := by
      simp only [hpImportToTs]; split_ifs
      · have : 0 ≤ min (i.perf.duty - c.hpUsage) (m + c.tsDischarge - c.tsCharge) :=
          le_min (by linarith) (by linarith)
        linarith
      · have := (pyRound_bounds (min (i.perf.duty - c.hpUsage)
          (m + c.tsDischarge - c.tsCharge)) 2).1
        norm_num at this ⊢
        linarith
    have hle1 := min_le_left (i.perf.duty - c.hpUsage) (m + c.tsDischarge - c.tsCharge)
    have hle2 := min_le_right (i.perf.duty - c.hpUsage) (m + c.tsDischarge - c.tsCharge)
    refine ⟨s0, hscap, by simp only [update]; linarith, fun hh => absurd List.mem_cons_self hh,
      by simp only [update]; linarith, d0, by simp only [update]; linarith,
      fun m' hm' hh => absurd List.mem_cons_self hh, fun m' hm' => ?_,
      fun m' hm' => by have := avail m' hm'; simp only [update]; linarith, ha0, a1'⟩
    rw [hm] at hm'; cases hm'; simp only [update]; linarith
  case resToEs =>
    have h := (hnn (by simp)).2
    have hle : a.e ≤ P.es.capacity - c.soc := by subst ha; exact maxCharging_le_room
    exact ⟨by simp only [update]; linarith, fun _ => by simp only [update]; linarith, u0, hu1, u2,
      d0, c0, hroom, room2, avail, ha0, a1'⟩
  case importToEs =>
    have h := (hnn (by simp)).2
    exact ⟨by simp only [update]; linarith, fun hh => absurd List.mem_cons_self hh, u0, hu1, u2,
      d0, c0, hroom, room2, avail, ha0, a1'⟩
  case resToExport =>
    exact ⟨s0, hscap, u0, hu1, u2, d0, c0, hroom, room2, avail, ha0, a1'⟩

/-! ### Everything together -/

/-- All recorded amounts are non-negative. -/
structure NonNeg (r : Results N) : Prop where
  edEs : 0 ≤ r.elecDemand.es
  edImp : 0 ≤ r.elecDemand.imp
  hResD : 0 ≤ r.hp.heatFromResToDemand
  eResD : 0 ≤ r.hp.elecFromResToDemand
  hImpD : 0 ≤ r.hp.heatFromImportToDemand
  eImpD : 0 ≤ r.hp.elecFromImportToDemand
  hEsD : 0 ≤ r.hp.heatFromEsToDemand
  eEsD : 0 ≤ r.hp.elecFromEsToDemand
  hResTs : 0 ≤ r.hp.heatFromResToTs
  eResTs : 0 ≤ r.hp.elecFromResToTs
  hImpTs : 0 ≤ r.hp.heatFromImportToTs
  eImpTs : 0 ≤ r.hp.elecFromImportToTs
  ts : 0 ≤ r.ts.dischargingTotal
  aux : 0 ≤ r.heatDemand.aux
  auxResD : 0 ≤ r.aux.resToDemand
  auxResTs : 0 ≤ r.aux.resToTs
  esRes : 0 ≤ r.es.chargingFromRes
  esImp : 0 ≤ r.es.chargingFromImport
  exp : 0 ≤ r.grid.totalExport

theorem nonNeg_init (P : Plant N) (i : StepIn N) (b : Bool) : NonNeg (initResults P i b) := by
  constructor <;> simp [initResults]

theorem nonNeg_record {r : Results N} (p : Process) {a : Amt} (h : NonNeg r) (h1 : 0 ≤ a.h)
    (h2 : 0 ≤ a.e) : NonNeg (record p a r) := by
  obtain ⟨c1, c2, c3, c4, c5, c6, c7, c8, c9, c10, c11, c12, c13, c14, c15, c16, c17, c18, c19⟩ := h
  cases p <;> constructor <;> dsimp only [record] <;> assumption

/-- The state after the loop over the order. -/
structure LoopOk (P : Plant N) (i : StepIn N) (b : Bool) (done : List Process) (c : Checks)
    (r : Results N) : Prop where
  fresh : ∀ q, q ∉ done → Fresh q r
  frame : Frame P i b r
  copies : Copies r
  bal : Bal P i c r
  base : Base c
  caps : Safe2 done → Caps P i done c
  impD : Safe2 done → Process.importToDemand ∈ done → c.elecUnmet = 0
  nonneg : Safe2 done → Safe1 done → NonNeg r
  auxD : Safe2 done → Safe1 done → Process.auxToDemand ∈ done → c.heatUnmet = 0
  exp : Safe2 done → Safe1 done → Process.resToExport ∈ done → c.resLeft = 0

theorem loop_init {P : Plant N} {i : StepIn N} (H : StepOk P i) (b : Bool) :
    LoopOk P i b [] (initChecks P i) (initResults P i b) where
  fresh := fun q _ => fresh_init P i b q
  frame := by constructor <;> simp [initResults]
  copies := by constructor <;> simp [initResults]
  bal := by constructor <;> simp [initResults, initChecks]
  base := ⟨H.deficit_nonneg, H.heat_nonneg, H.surplus_nonneg⟩
  caps := fun _ => by
    constructor
    · exact H.soc_nonneg
    · exact fun _ => H.soc_le
    · exact le_rfl
    · exact fun _ => H.duty_nonneg
    · have := H.duty_nonneg; simp only [initChecks]; linarith
    · exact le_rfl
    · exact le_rfl
    · intro m hm _; have := H.tank_nonneg _ m hm; simp only [initChecks]; linarith
    · intro m hm; have := H.tank_nonneg _ m hm; simp only [initChecks]; linarith
    · intro m hm; have := H.tank_nonneg _ m hm; simp only [initChecks]; linarith
    · exact fun _ => H.heat_le_peak
    · left; exact H.heat_nonneg.trans H.heat_le_peak
  impD := fun _ h => absurd h List.not_mem_nil
  nonneg := fun _ _ => nonNeg_init P i b
  auxD := fun _ _ h => absurd h List.not_mem_nil
  exp := fun _ _ h => absurd h List.not_mem_nil

theorem loop_step {P : Plant N} {i : StepIn N} (H : StepOk P i) {b : Bool} {done : List Process}
    {p : Process} {c : Checks} {r : Results N} {a : Amt} (ha : amount P i c p = .ok a)
    (hn : p ∉ done) (h : LoopOk P i b done c r) :
    LoopOk P i b (p :: done) (update p a c) (record p a r) := by
  have hb' := base_step H ha h.base
  constructor
  · intro q hq
    rw [List.mem_cons, not_or] at hq
    exact fresh_record (Ne.symm hq.1) a (h.fresh q hq.2)
  · exact frame_record p a h.frame
  · exact copies_record p a h.copies
  · exact bal_step ha (h.fresh p hn) h.bal
  · exact hb'
  · exact fun hs => caps_step H ha h.base (h.caps hs.tail) hn hs
  · intro hs hm
    rw [List.mem_cons] at hm
    rcases hm with rfl | hm
    · simp only [amount, Except.ok.injEq] at ha
      subst ha; simp [update, Amt.scalar]
    · have h0 := h.impD hs.tail hm
      by_cases hp : p = .esToDemand
      · subst hp
        simp only [amount, Except.ok.injEq] at ha
        subst ha
        have := (h.caps hs.tail).s0
        simp only [update, Amt.scalar, esToDemand, h0, min_eq_left this, sub_zero]
      · have hne : p ≠ .importToDemand := fun he => hn (he ▸ hm)
        cases p <;> first | exact absurd rfl hp | exact absurd rfl hne | exact h0
  · intro hs hs1
    have := amount_nonneg H ha h.base (h.caps hs.tail) hn hs (fun _ => hs1)
    exact nonNeg_record p (h.nonneg hs.tail hs1.tail) this.1 this.2
  · intro hs hs1 hm
    have hnn := amount_nonneg H ha h.base (h.caps hs.tail) hn hs (fun _ => hs1)
    rw [List.mem_cons] at hm
    rcases hm with rfl | hm
    · simp only [amount, Except.ok.injEq] at ha
      subst ha; simp [update, Amt.scalar]
    · have h0 := h.auxD hs.tail hs1.tail hm
      refine le_antisymm ?_ hb'.h0
      cases p <;> simp only [update] <;> linarith
  · intro hs hs1 hm
    have hnn := amount_nonneg H ha h.base (h.caps hs.tail) hn hs (fun _ => hs1)
    rw [List.mem_cons] at hm
    rcases hm with rfl | hm
    · simp only [amount, Except.ok.injEq] at ha
      subst ha; simp [update, Amt.scalar]
    · have h0 := h.exp hs.tail hs1.tail hm
      refine le_antisymm ?_ hb'.r0
      cases p <;> simp only [update] <;> linarith

/-- The loop over an order without repeats, with the processes it ran. -/
theorem loop_ok {P : Plant N} {i : StepIn N} (H : StepOk P i) {b : Bool} {order : List ℤ}
    (hnd : order.Nodup) {s : Checks × Results N}
    (h : runOrder P i (keyOf b) order (initChecks P i, initResults P i b) = .ok s) :
    ∃ ps, List.Forall₂ (fun n p => keyOf b n = .ok p) order ps ∧
      LoopOk P i b ps.reverse s.1 s.2 := by
  obtain ⟨ps, hf, hr⟩ := runOrder_ok h
  refine ⟨ps, hf, ?_⟩
  have := runProcs_induct (P := P) (i := i)
    (Inv := fun done s => done.Nodup → LoopOk P i b done s.1 s.2)
    (fun done p c r a ha hi hd => by
      rw [List.nodup_cons] at hd
      exact loop_step H ha hd.1 (hi hd.2)) ps [] _ _ hr (fun _ => loop_init H b)
  rw [List.append_nil] at this
  exact this (List.nodup_reverse.mpr (nodup_procs hf hnd))

theorem mem_done {b : Bool} {order : List ℤ} {ps : List Process}
    (hf : List.Forall₂ (fun n p => keyOf b n = .ok p) order ps) {n : ℤ} {p : Process}
    (hk : keyOf b n = .ok p) : p ∈ ps.reverse ↔ n ∈ order := by
  rw [List.mem_reverse]
  constructor
  · intro h
    obtain ⟨m, hm, hr⟩ := forall₂_mem_right hf h
    exact keyOf_inj hk hr ▸ hm
  · intro h
    obtain ⟨q, hq, hr⟩ := forall₂_mem_left hf h
    have hr' : keyOf b n = .ok q := hr
    rw [hk] at hr'; cases hr'; exact hq

theorem safe1_done {b : Bool} {order : List ℤ} {ps : List Process}
    (hf : List.Forall₂ (fun n p => keyOf b n = .ok p) order ps)
    (hs : ¬ ([11, 9, 5] : List ℤ).Sublist order) : Safe1 ps.reverse := by
  intro h
  have h' := List.reverse_sublist.mpr h
  rw [List.reverse_reverse] at h'
  refine hs (sublist_of_procs hf ?_ h')
  cases b <;> exact .cons rfl (.cons rfl (.cons rfl .nil))

theorem forall₂_noTwelve {order : List ℤ} {ps : List Process}
    (hf : List.Forall₂ (fun n p => keyOf false n = .ok p) order ps) :
    Process.hpImportToTs ∉ ps ∧ Process.importToEs ∉ ps := by
  constructor <;> intro h <;> obtain ⟨m, _, hr⟩ := forall₂_mem_right hf h <;>
    (change keyAbove m = _ at hr; unfold keyAbove at hr; split at hr <;> cases hr)

theorem safe2_done {b : Bool} {order : List ℤ} {ps : List Process}
    (hf : List.Forall₂ (fun n p => keyOf b n = .ok p) order ps)
    (hs : NoOvershoot b order) : Safe2 ps.reverse := by
  cases b with
  | false =>
    obtain ⟨h1, h2⟩ := forall₂_noTwelve hf
    refine ⟨fun q _ h => h1 ?_, fun h => h2 ?_⟩
    · exact List.mem_reverse.mp (h.subset (by simp))
    · exact List.mem_reverse.mp (h.subset (by simp))
  | true =>
    obtain ⟨h1, h2⟩ := hs rfl
    constructor
    · intro q hq h
      have h' := List.reverse_sublist.mpr h
      rw [List.reverse_reverse] at h'
      simp only [List.mem_cons, List.not_mem_nil, or_false] at hq
      rcases hq with rfl | rfl | rfl | rfl | rfl
      · exact h1 4 (by simp) (sublist_of_procs hf (.cons rfl (.cons rfl .nil)) h')
      · exact h1 6 (by simp) (sublist_of_procs hf (.cons rfl (.cons rfl .nil)) h')
      · exact h1 8 (by simp) (sublist_of_procs hf (.cons rfl (.cons rfl .nil)) h')
      · exact h1 10 (by simp) (sublist_of_procs hf (.cons rfl (.cons rfl .nil)) h')
      · exact h1 11 (by simp) (sublist_of_procs hf (.cons rfl (.cons rfl .nil)) h')
    · intro h
      have h' := List.reverse_sublist.mpr h
      rw [List.reverse_reverse] at h'
      exact h2 (sublist_of_procs hf (.cons rfl (.cons rfl .nil)) h')

/-! ### Heat pump: total output, and heat against electricity -/

/-- No heat pump process after 'ES to HP to demand'. -/
def Safe3 (done : List Process) : Prop :=
  ∀ q ∈ [Process.hpResToDemand, .hpImportToDemand, .hpResToTs, .hpImportToTs],
    ¬ [q, Process.esToHpToDemand].Sublist done

theorem Safe3.tail {p : Process} {done : List Process} (h : Safe3 (p :: done)) : Safe3 done :=
  fun q hq hs => h q hq (hs.cons _)

theorem Safe3.hp {p : Process} {done : List Process} (h : Safe3 (p :: done))
    (hp : p ∈ [Process.hpResToDemand, .hpImportToDemand, .hpResToTs, .hpImportToTs]) :
    Process.esToHpToDemand ∉ done :=
  fun hm => h p hp ((List.singleton_sublist.mpr hm).cons_cons _)

/-- Total heat pump output including heat driven by the battery. -/
structure Tot (i : StepIn N) (done : List Process) (c : Checks) (r : Results N) : Prop where
  exact' : Process.hpImportToTs ∉ done → c.hpUsage + r.hp.heatFromEsToDemand ≤ i.perf.duty
  slack : c.hpUsage + r.hp.heatFromEsToDemand ≤ i.perf.duty + 1 / 200

theorem tot_step {P : Plant N} {i : StepIn N} (H : StepOk P i) {b : Bool} {done : List Process}
    {p : Process} {c : Checks} {r : Results N} {a : Amt} (ha : amount P i c p = .ok a)
    (hn : p ∉ done) (h : LoopOk P i b done c r) (h2 : Safe2 (p :: done)) (h3 : Safe3 (p :: done))
    (ht : Tot i done c r) : Tot i (p :: done) (update p a c) (record p a r) := by
  have hc' := caps_step H ha h.base (h.caps h2.tail) hn h2
  have hc := h.caps h2.tail
  have hhp : p ∈ [Process.hpResToDemand, .hpImportToDemand, .hpResToTs, .hpImportToTs] →
      r.hp.heatFromEsToDemand = 0 := fun hp => (h.fresh _ (h3.hp hp)).2.2.1
  have hex : Process.hpImportToTs ∉ p :: done → Process.hpImportToTs ∉ done :=
    fun hh h' => hh (List.mem_cons_of_mem _ h')
  by_cases hp : p ∈ [Process.hpResToDemand, .hpImportToDemand, .hpResToTs, .hpImportToTs]
  · have h0 := hhp hp
    have hr : (record p a r).hp.heatFromEsToDemand = 0 := by
      simp only [List.mem_cons, List.not_mem_nil, or_false] at hp
      rcases hp with rfl | rfl | rfl | rfl <;> exact h0
    constructor
    · intro hh; rw [hr, add_zero]; exact hc'.u1 hh
    · rw [hr, add_zero]; exact hc'.u2
  · by_cases he : p = .esToHpToDemand
    · subst he
      simp only [amount, Except.ok.injEq] at ha
      have hle : a.h ≤ i.perf.duty - c.hpUsage := by subst ha; exact min_le_right _ _
      constructor
      · intro _; simp only [update, record]; linarith
      · simp only [update, record]; linarith
    · have h1 : (update p a c).hpUsage = c.hpUsage := by
        cases p <;> first | rfl | (exfalso; simp at hp)
      have h2' : (record p a r).hp.heatFromEsToDemand = r.hp.heatFromEsToDemand := by
        cases p <;> first | rfl | exact absurd rfl he
      constructor
      · intro hh; rw [h1, h2']; exact ht.exact' (hex hh)
      · rw [h1, h2']; exact ht.slack

/-- Heat of each heat pump flow is COP times its electricity. The import-to-store flow is
rounded, so its heat may exceed it by the rounding. -/
structure CopRel (i : StepIn N) (r : Results N) : Prop where
  resD : r.hp.heatFromResToDemand = i.perf.cop * r.hp.elecFromResToDemand
  impD : r.hp.heatFromImportToDemand = i.perf.cop * r.hp.elecFromImportToDemand
  esD : r.hp.heatFromEsToDemand = i.perf.cop * r.hp.elecFromEsToDemand
  resTs : r.hp.heatFromResToTs = i.perf.cop * r.hp.elecFromResToTs
  impTs : i.perf.cop * r.hp.elecFromImportToTs ≤ r.hp.heatFromImportToTs ∧
    r.hp.heatFromImportToTs ≤ i.perf.cop * r.hp.elecFromImportToTs + 1 / 200

theorem copRel_usage {P : Plant N} {i : StepIn N} (H : StepOk P i) {h : ℚ} (hle : h ≤ i.perf.duty)
    (h0 : P.hp.capacity = 0 → h = 0) : h = i.perf.cop * P.hp.elecUsage h i.perf := by
  have hc := H.cop_pos
  by_cases hcap : P.hp.capacity = 0
  · rw [elecUsage_zero hcap, mul_zero]; exact h0 hcap
  · rw [elecUsage_eq hcap hc hle, mul_div_cancel₀ _ hc.ne']

theorem copRel_step {P : Plant N} {i : StepIn N} (H : StepOk P i) {b : Bool} {done : List Process}
    {p : Process} {c : Checks} {r : Results N} {a : Amt} (ha : amount P i c p = .ok a)
    (hn : p ∉ done) (h : LoopOk P i b done c r) (h2 : Safe2 (p :: done))
    (ht : CopRel i r) : CopRel i (record p a r) := by
  have hc := h.caps h2.tail
  have hnn := amount_nonneg H ha h.base hc hn h2
  have hcop := H.cop_pos
  have hdu := H.duty_nonneg
  have hz := H.zero_cap
  have hu0 := hc.u0
  obtain ⟨t1, t2, t3, t4, t5⟩ := ht
  cases p <;> simp only [amount, Except.ok.injEq] at ha
  case hpResToDemand =>
    have h1 := (hnn (by simp)).1
    subst ha
    have h3 : (hpResToDemand P.hp c.hpUsage c.resLeft i.perf c.heatUnmet).h
        ≤ i.perf.duty - c.hpUsage := min_le_right _ _
    refine ⟨copRel_usage H
      (h := (hpResToDemand P.hp c.hpUsage c.resLeft i.perf c.heatUnmet).h) (by linarith) ?_,
      t2, t3, t4, t5⟩
    intro hcap
    have := hz hcap
    linarith
  case hpImportToDemand =>
    have h1 := (hnn (by simp)).1
    have hs := hc.u1 (h2.hp (by simp))
    subst ha
    have h3 : (hpImportToDemand P.hp c.hpUsage c.heatUnmet i.perf).h
        ≤ i.perf.duty - c.hpUsage := by
      simp only [hpImportToDemand]; split_ifs
      · linarith
      · exact min_le_right _ _
    refine ⟨t1, copRel_usage H (h := (hpImportToDemand P.hp c.hpUsage c.heatUnmet i.perf).h)
      (by linarith) ?_, t3, t4, t5⟩
    intro hcap
    have := hz hcap
    linarith
  case esToHpToDemand =>
    have h1 := (hnn (by simp)).1
    subst ha
    have h3 : (esToHpToDemand P.hp c.soc i.perf c.heatUnmet c.hpUsage).h
        ≤ i.perf.duty - c.hpUsage := min_le_right _ _
    refine ⟨t1, t2, copRel_usage H
      (h := (esToHpToDemand P.hp c.soc i.perf c.heatUnmet c.hpUsage).h) (by linarith) ?_, t4, t5⟩
    intro hcap
    have := hz hcap
    linarith
  case hpResToTs =>
    have h1 := (hnn (by simp)).1
    simp only [except_bind_ok, except_pure_ok] at ha
    obtain ⟨m, hm, rfl⟩ := ha
    have h3 : (hpResToTs P.hp m c.resLeft i.perf c.hpUsage c.tsDischarge c.tsCharge).h
        ≤ i.perf.duty - c.hpUsage := (min_le_left _ _).trans (min_le_left _ _)
    refine ⟨t1, t2, t3, copRel_usage H
      (h := (hpResToTs P.hp m c.resLeft i.perf c.hpUsage c.tsDischarge c.tsCharge).h)
      (by linarith) ?_, t5⟩
    intro hcap
    have := hz hcap
    linarith
  case hpImportToTs =>
    have h1 := (hnn (by simp)).1
    simp only [except_bind_ok, except_pure_ok] at ha
    obtain ⟨m, hm, rfl⟩ := ha
    refine ⟨t1, t2, t3, t4, ?_⟩
    have hu := (caps_step H (by simp only [amount, hm]; rfl) h.base hc hn h2).u2
    simp only [update] at hu
    simp only [record]
    set x := (hpImportToTs P.hp m i.perf c.hpUsage c.tsDischarge c.tsCharge).h with hx
    have he : (hpImportToTs P.hp m i.perf c.hpUsage c.tsDischarge c.tsCharge).e
        = P.hp.elecUsage x i.perf := rfl
    rw [he]
    by_cases hcap : P.hp.capacity = 0
    · have hx0 : x = 0 := by simp [hx, hpImportToTs, hcap]
      rw [elecUsage_zero hcap, hx0]; norm_num
    · unfold HeatPump.elecUsage
      rw [if_neg hcap]
      dsimp only
      rcases le_total x i.perf.duty with hle | hle
      · rw [min_eq_left (div_le_div_of_nonneg_right hle hcop.le), mul_div_cancel₀ _ hcop.ne']
        constructor <;> linarith
      · rw [min_eq_right (div_le_div_of_nonneg_right hle hcop.le), mul_div_cancel₀ _ hcop.ne']
        constructor <;> linarith
  all_goals exact ⟨t1, t2, t3, t4, t5⟩

/-- As `loop_ok`, with the heat pump facts. -/
theorem loop_ok_hp {P : Plant N} {i : StepIn N} (H : StepOk P i) {b : Bool} {order : List ℤ}
    (hnd : order.Nodup) {s : Checks × Results N}
    (h : runOrder P i (keyOf b) order (initChecks P i, initResults P i b) = .ok s) :
    ∃ ps, List.Forall₂ (fun n p => keyOf b n = .ok p) order ps ∧
      LoopOk P i b ps.reverse s.1 s.2 ∧
      (Safe2 ps.reverse → CopRel i s.2) ∧
      (Safe2 ps.reverse → Safe3 ps.reverse → Tot i ps.reverse s.1 s.2) := by
  obtain ⟨ps, hf, hr⟩ := runOrder_ok h
  refine ⟨ps, hf, ?_⟩
  have := runProcs_induct (P := P) (i := i)
    (Inv := fun done s => done.Nodup → LoopOk P i b done s.1 s.2 ∧
      (Safe2 done → CopRel i s.2) ∧ (Safe2 done → Safe3 done → Tot i done s.1 s.2))
    (fun done p c r a ha hi hd => by
      rw [List.nodup_cons] at hd
      obtain ⟨h1, h2, h3⟩ := hi hd.2
      exact ⟨loop_step H ha hd.1 h1, fun hs => copRel_step H ha hd.1 h1 hs (h2 hs.tail),
        fun hs hs3 => tot_step H ha hd.1 h1 hs hs3 (h3 hs.tail hs3.tail)⟩) ps [] _ _ hr
    (fun _ => ⟨loop_init H b,
      fun _ => by constructor <;> simp [initResults],
      fun _ _ => by
        have := H.duty_nonneg
        constructor
        · intro _; simpa [initResults, initChecks] using this
        · simp only [initResults, initChecks]; linarith⟩)
  rw [List.append_nil] at this
  exact this (List.nodup_reverse.mpr (nodup_procs hf hnd))

theorem safe3_done {b : Bool} {order : List ℤ} {ps : List Process}
    (hf : List.Forall₂ (fun n p => keyOf b n = .ok p) order ps) (hs : EsPumpLast b order) :
    Safe3 ps.reverse := by
  intro q hq h
  have h' := List.reverse_sublist.mpr h
  rw [List.reverse_reverse] at h'
  simp only [List.mem_cons, List.not_mem_nil, or_false] at hq
  cases b with
  | false =>
    simp only [EsPumpLast, Bool.false_eq_true, if_false] at hs
    rcases hq with rfl | rfl | rfl | rfl
    · exact hs 4 (by simp) (sublist_of_procs hf (.cons rfl (.cons rfl .nil)) h')
    · exact hs 8 (by simp) (sublist_of_procs hf (.cons rfl (.cons rfl .nil)) h')
    · exact hs 10 (by simp) (sublist_of_procs hf (.cons rfl (.cons rfl .nil)) h')
    · exact (forall₂_noTwelve hf).1 (h'.subset (by simp))
  | true =>
    simp only [EsPumpLast, if_true] at hs
    rcases hq with rfl | rfl | rfl | rfl
    · exact hs 4 (by simp) (sublist_of_procs hf (.cons rfl (.cons rfl .nil)) h')
    · exact hs 6 (by simp) (sublist_of_procs hf (.cons rfl (.cons rfl .nil)) h')
    · exact hs 10 (by simp) (sublist_of_procs hf (.cons rfl (.cons rfl .nil)) h')
    · exact hs 12 (by simp) (sublist_of_procs hf (.cons rfl (.cons rfl .nil)) h')

/-! ### Heat pump of capacity zero -/

/-- No heat pump flow at all. -/
structure PumpZero (r : Results N) : Prop where
  h1 : r.hp.heatFromResToDemand = 0
  h2 : r.hp.heatFromImportToDemand = 0
  h3 : r.hp.heatFromEsToDemand = 0
  h4 : r.hp.heatFromResToTs = 0
  h5 : r.hp.heatFromImportToTs = 0
  e1 : r.hp.elecFromResToDemand = 0
  e2 : r.hp.elecFromImportToDemand = 0
  e3 : r.hp.elecFromEsToDemand = 0
  e4 : r.hp.elecFromResToTs = 0
  e5 : r.hp.elecFromImportToTs = 0

/-- The state of the loop with a heat pump of capacity zero, for any order, repeats included. -/
structure PumpInv (P : Plant N) (i : StepIn N) (c : Checks) (r : Results N) : Prop where
  base : Base c
  usage : c.hpUsage = 0
  zero : PumpZero r
  copies : Copies r
  room : ∀ m, P.tank.maxInOut i.hour .charging i.nodes = .ok m → c.tsCharge ≤ m + c.tsDischarge

theorem pumpInv_step {P : Plant N} {i : StepIn N} (H : StepOk P i) (hcap : P.hp.capacity = 0)
    {p : Process} {c : Checks} {r : Results N} {a : Amt} (ha : amount P i c p = .ok a)
    (h : PumpInv P i c r) : PumpInv P i (update p a c) (record p a r) := by
  have hb' := base_step H ha h.base
  have hc' := copies_record p a h.copies
  obtain ⟨hb, hu, hz, -, room⟩ := h
  have hd := H.zero_cap hcap
  have ht : ∀ x d, (P.hp.thermalOutput x i.perf d).demand = 0 := fun x d => by
    unfold HeatPump.thermalOutput; simp [hcap]
  obtain ⟨z1, z2, z3, z4, z5, y1, y2, y3, y4, y5⟩ := hz
  cases p <;> simp only [amount, Except.ok.injEq] at ha
  case hpResToDemand =>
    subst ha
    have h0 : (hpResToDemand P.hp c.hpUsage c.resLeft i.perf c.heatUnmet).h = 0 := by
      simp only [hpResToDemand, ht, hu, hd, sub_zero, min_self]
    exact ⟨hb', by simp only [update]; rw [h0, hu, add_zero], ⟨h0, z2, z3, z4, z5,
      elecUsage_zero hcap _, y2, y3, y4, y5⟩, hc', room⟩
  case hpImportToDemand =>
    subst ha
    have h0 : (hpImportToDemand P.hp c.hpUsage c.heatUnmet i.perf).h = 0 := by
      simp [hpImportToDemand, hcap]
    exact ⟨hb', by simp only [update]; rw [h0, hu, add_zero], ⟨z1, h0, z3, z4, z5, y1,
      elecUsage_zero hcap _, y3, y4, y5⟩, hc', room⟩
  case esToHpToDemand =>
    subst ha
    have h0 : (esToHpToDemand P.hp c.soc i.perf c.heatUnmet c.hpUsage).h = 0 := by
      simp only [esToHpToDemand, ht, hu, hd, sub_zero, min_self]
    exact ⟨hb', hu, ⟨z1, z2, h0, z4, z5, y1, y2, elecUsage_zero hcap _, y4, y5⟩, hc', room⟩
  case hpResToTs =>
    simp only [except_bind_ok, except_pure_ok] at ha
    obtain ⟨m, hm, rfl⟩ := ha
    have hr := room m hm
    have h0 : (hpResToTs P.hp m c.resLeft i.perf c.hpUsage c.tsDischarge c.tsCharge).h = 0 := by
      simp only [hpResToTs, hu, hd, sub_zero]
      rw [min_eq_left (mul_nonneg hb.r0 H.cop_pos.le), min_eq_left (by linarith)]
    exact ⟨hb', by simp only [update]; rw [h0, hu, add_zero], ⟨z1, z2, z3, h0, z5, y1, y2, y3,
      elecUsage_zero hcap _, y5⟩, hc', by simp only [update]; rw [h0, add_zero]; exact room⟩
  case hpImportToTs =>
    simp only [except_bind_ok, except_pure_ok] at ha
    obtain ⟨m, hm, rfl⟩ := ha
    have h0 : (hpImportToTs P.hp m i.perf c.hpUsage c.tsDischarge c.tsCharge).h = 0 := by
      simp [hpImportToTs, hcap]
    exact ⟨hb', by simp only [update]; rw [h0, hu, add_zero], ⟨z1, z2, z3, z4, h0, y1, y2, y3, y4,
      elecUsage_zero hcap _⟩, hc', by simp only [update]; rw [h0, add_zero]; exact room⟩
  case tsToDemand =>
    simp only [except_bind_ok, except_pure_ok] at ha
    obtain ⟨m, hm, rfl⟩ := ha
    refine ⟨hb', hu, ⟨z1, z2, z3, z4, z5, y1, y2, y3, y4, y5⟩, hc', fun m' hm' => ?_⟩
    have h1 := room m' hm'
    have h2 := H.tank_nonneg _ _ hm
    have h3 := H.tank_nonneg _ _ hm'
    have h4 := hb.h0
    simp only [update, Amt.scalar, tsToDemand]
    rcases min_cases c.heatUnmet (m - c.tsDischarge + c.tsCharge) with ⟨e, _⟩ | ⟨e, _⟩ <;>
      rw [e] <;> linarith
  case eauxResToTs =>
    split_ifs at ha
    · simp only [except_bind_ok, except_pure_ok] at ha
      obtain ⟨m, hm, rfl⟩ := ha
      refine ⟨hb', hu, ⟨z1, z2, z3, z4, z5, y1, y2, y3, y4, y5⟩, hc', fun m' hm' => ?_⟩
      rw [hm] at hm'; cases hm'
      have := min_le_right (min c.auxLeft c.resLeft) (m + c.tsDischarge - c.tsCharge)
      simp only [update, Amt.scalar]; linarith
    · cases ha
      exact ⟨hb', hu, ⟨z1, z2, z3, z4, z5, y1, y2, y3, y4, y5⟩, hc',
        fun m' hm' => by have := room m' hm'; simpa [update, Amt.scalar] using this⟩
  all_goals exact ⟨hb', hu, ⟨z1, z2, z3, z4, z5, y1, y2, y3, y4, y5⟩, hc', room⟩

theorem pumpZero_ok {P : Plant N} {i : StepIn N} (H : StepOk P i) (hcap : P.hp.capacity = 0)
    {b : Bool} {order : List ℤ} {s : Checks × Results N}
    (h : runOrder P i (keyOf b) order (initChecks P i, initResults P i b) = .ok s) :
    PumpInv P i s.1 s.2 := by
  obtain ⟨ps, hf, hr⟩ := runOrder_ok h
  refine runProcs_induct (P := P) (i := i) (Inv := fun _ s => PumpInv P i s.1 s.2)
    (fun done p c r a ha hi => pumpInv_step H hcap ha hi) ps [] _ _ hr ?_
  refine ⟨⟨H.deficit_nonneg, H.heat_nonneg, H.surplus_nonneg⟩, rfl,
    by constructor <;> simp [initResults], by constructor <;> simp [initResults], fun m hm => ?_⟩
  have := H.tank_nonneg _ m hm
  simp only [initChecks]; linarith

/-! ### Battery: charging rating -/

theorem rating_ok {P : Plant N} {i : StepIn N} (H : StepOk P i) {b : Bool} {order : List ℤ}
    {s : Checks × Results N}
    (h : runOrder P i (keyOf b) order (initChecks P i, initResults P i b) = .ok s) :
    s.2.es.chargingFromRes ≤ P.es.chargeMax ∧ s.2.es.chargingFromImport ≤ P.es.chargeMax := by
  obtain ⟨ps, hf, hr⟩ := runOrder_ok h
  refine runProcs_induct (P := P) (i := i)
    (Inv := fun _ s => s.2.es.chargingFromRes ≤ P.es.chargeMax ∧
      s.2.es.chargingFromImport ≤ P.es.chargeMax)
    (fun done p c r a ha hi => ?_) ps [] _ _ hr ⟨H.es.chargeMax_nonneg, H.es.chargeMax_nonneg⟩
  by_cases h1 : p = .resToEs
  · subst h1
    simp only [amount, Except.ok.injEq] at ha
    subst ha
    exact ⟨maxCharging_le_rating H.es.chargeMax_nonneg, hi.2⟩
  · by_cases h2 : p = .importToEs
    · subst h2
      simp only [amount, Except.ok.injEq] at ha
      subst ha
      exact ⟨hi.1, min_le_right _ _⟩
    · cases p <;> first | exact hi | exact absurd rfl h1 | exact absurd rfl h2

theorem newSoc_charge {b : Battery} (hb : BatteryOk b) {m soc : ℚ} (hs : 0 ≤ soc) (hm : 0 ≤ m)
    (hr : m ≤ b.chargeMax) (hroom : soc + m ≤ b.capacity) :
    b.newSoc m soc = clampSoc b.capacity (soc + m - soc * b.selfDischarge) := by
  have h1 : b.maxCharging m soc = m := by
    unfold Battery.maxCharging
    dsimp only
    rw [if_pos ⟨hm, hr⟩, min_eq_left]; linarith
  have h2 : b.maxDischarging m soc = 0 := by
    have hp : 0 ≤ m * b.dischargeEff := mul_nonneg hm hb.dischargeEff_nonneg
    unfold Battery.maxDischarging
    dsimp only
    rw [if_neg (fun h => absurd h.1 (not_lt.mpr hp))]
    split_ifs with h
    · have := hb.dischargeMax_nonneg
      rw [min_eq_left (by linarith)]; linarith
    · exact min_eq_left hs
  have hc := hb.capacity_nonneg
  unfold Battery.newSoc Battery.selfLoss clampSoc
  rw [h1, h2, add_zero]
  dsimp only
  split_ifs with h3 h4
  · rw [min_eq_left h3, max_eq_right hc]
  · rw [min_eq_right (by linarith), max_eq_left h4]
  · rw [min_eq_right (by linarith), max_eq_right (by linarith)]

theorem newSoc_discharge {b : Battery} (hb : BatteryOk b) {m soc : ℚ} (hs : 0 ≤ soc)
    (hcap : soc ≤ b.capacity) (hm : m ≤ 0) (he : b.dischargeEff = 1)
    (hr : -m ≤ b.dischargeMax) :
    b.newSoc m soc = clampSoc b.capacity (soc + m - soc * b.selfDischarge) := by
  rcases hm.eq_or_lt with rfl | hm
  · exact newSoc_charge hb hs le_rfl hb.chargeMax_nonneg (by linarith)
  have h1 : b.maxCharging m soc = 0 := by
    unfold Battery.maxCharging
    dsimp only
    rw [if_neg (fun h => absurd h.1 (not_le.mpr hm)),
      if_neg (fun h => absurd h.1 (not_le.mpr hm)), min_eq_left]; linarith
  have h2 : b.maxDischarging m soc = m := by
    unfold Battery.maxDischarging
    dsimp only
    rw [he, mul_one, if_pos ⟨hm, by linarith⟩, min_eq_left (by linarith)]
  have hc := hb.capacity_nonneg
  unfold Battery.newSoc Battery.selfLoss clampSoc
  rw [h1, h2, add_zero]
  dsimp only
  split_ifs with h3 h4
  · rw [min_eq_left h3, max_eq_right hc]
  · rw [min_eq_right (by linarith), max_eq_left h4]
  · rw [min_eq_right (by linarith), max_eq_right (by linarith)]

/-! ### From the loop to the reported results -/

theorem dispatch_ok {P : Plant N} {i : StepIn N} {b : Bool} {order : List ℤ}
    {s : Checks × Results N} (h : dispatch P i b order = .ok s) :
    ∃ r0 nodes, runOrder P i (keyOf b) order (initChecks P i, initResults P i b) = .ok (s.1, r0) ∧
      s.2 = totals2 P i b nodes (totals1 P b r0) := by
  simp only [dispatch, except_bind_ok, except_pure_ok] at h
  obtain ⟨s0, h0, nodes, _, rfl⟩ := h
  exact ⟨s0.2, nodes, h0, rfl⟩

theorem step_ok {P : Plant N} {i : StepIn N} {b : Bool} {order : List ℤ} {r : Results N}
    (h : step P i b order = .ok r) :
    ∃ c r1, dispatch P i b order = .ok (c, r1) ∧ minOutputRule P i b c r1 = .ok r := by
  simp only [step, except_bind_ok] at h
  obtain ⟨s, hs, hr⟩ := h
  exact ⟨s.1, s.2, hs, hr⟩

/-- What the minimum output rule can do to the results. -/
inductive RuleOutcome (P : Plant N) (i : StepIn N) (b : Bool) (r r' : Results N) : Prop
  | same (h : r' = r) (hu : ¬ (r.hp.heatTotalOutput < minOut P i ∧
      r.hp.heatTotalOutput > minTrigger b))
  | raise (nodes : Option N)
      (hu : r.hp.heatTotalOutput < minOut P i ∧ r.hp.heatTotalOutput > minTrigger b)
      (h : r' = { r with
        hp := { r.hp with
          heatFromImportToTs := r.hp.heatFromImportToTs + (minOut P i - r.hp.heatTotalOutput)
          heatToTs := r.hp.heatToTs + (minOut P i - r.hp.heatTotalOutput)
          heatTotalOutput := r.hp.heatTotalOutput + (minOut P i - r.hp.heatTotalOutput)
          elecTotalUsage := r.hp.elecTotalUsage
            + (minOut P i - r.hp.heatTotalOutput) / r.hp.cop
          elecImportUsage := r.hp.elecImportUsage
            + (minOut P i - r.hp.heatTotalOutput) / r.hp.cop
          elecFromImportToTs := r.hp.elecFromImportToTs
            + (minOut P i - r.hp.heatTotalOutput) / r.hp.cop }
        ts := { r.ts with
          hpToTs := r.ts.hpToTs + (minOut P i - r.hp.heatTotalOutput)
          hpFromImportToTs := r.ts.hpFromImportToTs + (minOut P i - r.hp.heatTotalOutput)
          finalNodesTemp := nodes } })
  | offAbove (nodes : Option N)
      (hu : r.hp.heatTotalOutput < minOut P i ∧ r.hp.heatTotalOutput > minTrigger b)
      (hb : b = false)
      (h : r' = { zeroHp r with
        ts := { (zeroHp r).ts with finalNodesTemp := nodes }
        aux := { r.aux with demand := i.heatDemand - r.ts.dischargingTotal } })
  | offBelow (nodes : Option N) (dis : ℚ)
      (hu : r.hp.heatTotalOutput < minOut P i ∧ r.hp.heatTotalOutput > minTrigger b)
      (hb : b = true)
      (hd : ∃ m, P.tank.maxInOut i.hour .discharging i.nodes = .ok m ∧ dis = min m i.heatDemand)
      (h : r' = { zeroHp r with
        ts := { (zeroHp r).ts with
          chargingTotal := 0, dischargingTotal := dis, finalNodesTemp := nodes }
        aux := { r.aux with
          demand := (if P.tank.capacity = 0 then i.heatDemand else dis) - dis } })

theorem rule_outcome {P : Plant N} {i : StepIn N} {b : Bool} {c : Checks} {r r' : Results N}
    (h : minOutputRule P i b c r = .ok r') : RuleOutcome P i b r r' := by
  simp only [minOutputRule] at h
  by_cases hu : r.hp.heatTotalOutput < minOut P i ∧ r.hp.heatTotalOutput > minTrigger b
  · rw [if_pos hu, except_bind_ok] at h
    obtain ⟨m, hm, h⟩ := h
    by_cases hinc : minOut P i - r.hp.heatTotalOutput > m + c.tsDischarge - c.tsCharge
    · rw [if_pos hinc] at h
      cases b with
      | true =>
        simp only [if_true, hpOffBelow, except_bind_ok] at h
        obtain ⟨m', hm', h⟩ := h
        by_cases hcap : P.tank.capacity = 0
        · rw [if_pos hcap, except_pure_ok] at h
          subst h
          exact .offBelow _ _ hu rfl ⟨m', hm', rfl⟩ (by rw [if_pos hcap]; rfl)
        · rw [if_neg hcap] at h
          simp only [except_bind_ok, except_pure_ok] at h
          obtain ⟨nodes, _, rfl⟩ := h
          exact .offBelow (some nodes) _ hu rfl ⟨m', hm', rfl⟩ (by rw [if_neg hcap]; rfl)
      | false =>
        simp only [Bool.false_eq_true, if_false, hpOffAbove] at h
        by_cases hcap : P.tank.capacity = 0
        · simp only [if_pos hcap, except_bind_ok, except_pure_ok] at h
          obtain ⟨nodes, _, rfl⟩ := h
          exact .offAbove _ hu rfl rfl
        · simp only [if_neg hcap, except_bind_ok, except_pure_ok] at h
          obtain ⟨nodes, _, rfl⟩ := h
          exact .offAbove _ hu rfl rfl
    · rw [if_neg hinc] at h
      simp only [hpRaise] at h
      by_cases hcap : P.tank.capacity = 0
      · rw [if_pos hcap, except_pure_ok] at h
        subst h
        exact .raise _ hu rfl
      · rw [if_neg hcap] at h
        simp only [except_bind_ok, except_pure_ok] at h
        obtain ⟨nodes, _, rfl⟩ := h
        exact .raise _ hu rfl
  · rw [if_neg hu] at h
    cases h
    exact .same rfl hu

end FixedOrder
end Verif
