import Verif.Lemmas.Run
import Verif.Spec.Compare

/-!
# A timestep without stores, run twice with different surplus
-/

set_option autoImplicit false

namespace Verif.FixedOrder
open Spec
variable {N : Type}

/-- What the checks satisfy throughout a timestep without stores. -/
structure Idle (P : Plant N) (i : StepIn N) (c : Checks) : Prop where
  e0 : 0 ≤ c.elecUnmet
  h0 : 0 ≤ c.heatUnmet
  r0 : 0 ≤ c.resLeft
  g0 : 0 ≤ c.hpUsage
  g1 : c.hpUsage ≤ i.perf.duty
  a0 : c.heatUnmet ≤ c.auxLeft
  soc : c.soc = 0
  dis : c.tsDischarge = 0
  ch : c.tsCharge = 0

/-- The amounts of a timestep without stores. -/
def plain (P : Plant N) (i : StepIn N) (c : Checks) : Process → Amt
  | .importToDemand => ⟨c.elecUnmet, c.elecUnmet⟩
  | .hpResToDemand =>
      ⟨min (c.resLeft * i.perf.cop) (min c.heatUnmet (i.perf.duty - c.hpUsage)),
       min (c.resLeft * i.perf.cop) (min c.heatUnmet (i.perf.duty - c.hpUsage)) / i.perf.cop⟩
  | .eauxResToDemand =>
      if P.aux.electric then ⟨min c.resLeft c.heatUnmet, min c.resLeft c.heatUnmet⟩ else ⟨0, 0⟩
  | .hpImportToDemand =>
      ⟨min c.heatUnmet (i.perf.duty - c.hpUsage),
       min c.heatUnmet (i.perf.duty - c.hpUsage) / i.perf.cop⟩
  | .auxToDemand => ⟨c.heatUnmet, c.heatUnmet⟩
  | .resToExport => ⟨c.resLeft, c.resLeft⟩
  | _ => ⟨0, 0⟩

theorem elecUsage_div {P : Plant N} {i : StepIn N} (H : StepOk P i) {h : ℚ} (h0 : 0 ≤ h)
    (h1 : h ≤ i.perf.duty) : P.hp.elecUsage h i.perf = h / i.perf.cop := by
  by_cases hc : P.hp.capacity = 0
  · have := H.zero_cap hc
    have : h = 0 := by linarith
    rw [elecUsage_zero hc, this, zero_div]
  · exact elecUsage_eq hc H.cop_pos h1

theorem thermalOutput_min {P : Plant N} {i : StepIn N} (H : StepOk P i) {x u : ℚ} (hx : 0 ≤ x)
    (hu : 0 ≤ u) : (P.hp.thermalOutput x i.perf u).demand
      = min (min (x * i.perf.cop) u) i.perf.duty := by
  unfold HeatPump.thermalOutput
  split_ifs with hc
  · rw [H.zero_cap hc]
    exact (min_eq_right (le_min (mul_nonneg hx H.cop_pos.le) hu)).symm
  · rfl

theorem pyRound_zero_two : pyRound 0 2 = 0 := by decide +kernel

theorem amount_plain {P : Plant N} {i : StepIn N} (H : StepOk P i) (hn : NoStores P i) {c : Checks}
    (I : Idle P i c) {p : Process} {a : Amt} (ha : amount P i c p = .ok a) : a = plain P i c p := by
  obtain ⟨e0, h0, r0, g0, g1, a0, soc, dis, ch⟩ := I
  have hd := H.duty_nonneg
  have hc := H.cop_pos
  have hsp : 0 ≤ i.perf.duty - c.hpUsage := by linarith
  have hz : P.hp.elecUsage 0 i.perf = 0 := by rw [elecUsage_div H le_rfl hd, zero_div]
  cases p <;> simp only [amount, Except.ok.injEq] at ha
  case resToDemand => exact ha.symm
  case esToDemand =>
    rw [← ha, soc]
    simp only [Amt.scalar, esToDemand, plain, min_eq_right e0]
  case importToDemand => exact ha.symm
  case hpResToDemand =>
    rw [← ha]
    have hm : 0 ≤ c.resLeft * i.perf.cop := mul_nonneg r0 hc.le
    have e : min (P.hp.thermalOutput c.resLeft i.perf c.heatUnmet).demand
        (i.perf.duty - c.hpUsage)
        = min (c.resLeft * i.perf.cop) (min c.heatUnmet (i.perf.duty - c.hpUsage)) := by
      rw [thermalOutput_min H r0 h0, min_assoc, min_eq_right (by linarith : _ ≤ i.perf.duty),
        min_assoc]
    simp only [hpResToDemand, plain, e]
    rw [elecUsage_div H (le_min hm (le_min h0 hsp))
      ((min_le_right _ _).trans ((min_le_right _ _).trans (by linarith)))]
  case eauxResToDemand =>
    rw [← ha]
    simp only [eauxResToDemand, plain, Amt.scalar]
    split_ifs with h
    · have : min (min c.auxLeft c.resLeft) c.heatUnmet = min c.resLeft c.heatUnmet := by
        rw [min_comm c.auxLeft, min_assoc, min_eq_right a0]
      rw [this]
    · rfl
  case hpImportToDemand =>
    rw [← ha]
    have e : (if P.hp.capacity = 0 then 0 else min c.heatUnmet (i.perf.duty - c.hpUsage))
        = min c.heatUnmet (i.perf.duty - c.hpUsage) := by
      split_ifs with hcap
      · have := H.zero_cap hcap
        rw [min_eq_right (by linarith)]
        linarith
      · rfl
    simp only [hpImportToDemand, plain, e]
    rw [elecUsage_div H (le_min h0 hsp) ((min_le_right _ _).trans (by linarith))]
  case tsToDemand =>
    simp only [except_bind_ok, except_pure_ok] at ha
    obtain ⟨m, hm, rfl⟩ := ha
    rw [hn.tank _ _ hm, dis, ch]
    simp [Amt.scalar, tsToDemand, plain, h0]
  case esToHpToDemand =>
    rw [← ha, soc]
    have e : min (P.hp.thermalOutput 0 i.perf c.heatUnmet).demand (i.perf.duty - c.hpUsage) = 0 := by
      rw [thermalOutput_min H le_rfl h0, zero_mul, min_eq_left h0, min_eq_left hd, min_eq_left hsp]
    simp only [esToHpToDemand, plain, e, hz]
  case auxToDemand => exact ha.symm
  case hpResToTs =>
    simp only [except_bind_ok, except_pure_ok] at ha
    obtain ⟨m, hm, rfl⟩ := ha
    have hmn : 0 ≤ c.resLeft * i.perf.cop := mul_nonneg r0 hc.le
    rw [hn.tank _ _ hm, dis, ch]
    simp only [hpResToTs, plain, add_zero, sub_zero, min_eq_right (le_min hsp hmn), hz]
  case eauxResToTs =>
    split_ifs at ha
    · simp only [except_bind_ok, except_pure_ok] at ha
      obtain ⟨m, hm, rfl⟩ := ha
      rw [hn.tank _ _ hm, dis, ch]
      simp only [Amt.scalar, plain, add_zero, sub_zero,
        min_eq_right (le_min (h0.trans a0) r0)]
    · cases ha; rfl
  case hpImportToTs =>
    simp only [except_bind_ok, except_pure_ok] at ha
    obtain ⟨m, hm, rfl⟩ := ha
    rw [hn.tank _ _ hm, dis, ch]
    simp only [hpImportToTs, plain, add_zero, sub_zero, min_eq_right hsp, pyRound_zero_two,
      ite_self, hz]
  case resToEs =>
    rw [← ha, soc]
    have : P.es.maxCharging c.resLeft 0 = 0 := by
      refine le_antisymm ?_ (maxCharging_nonneg H.es.chargeMax_nonneg (by rw [hn.battery]))
      have := maxCharging_le_room (b := P.es) (m := c.resLeft) (s := 0)
      rwa [hn.battery, sub_zero] at this
    simp only [Amt.scalar, plain, this]
  case importToEs =>
    rw [← ha, soc]
    have : P.es.chargeToCapacity 0 = 0 := by
      simp [Battery.chargeToCapacity, Battery.selfLoss, hn.battery, H.es.chargeMax_nonneg]
    simp only [Amt.scalar, plain, this]
  case resToExport => exact ha.symm

theorem idle_step {P : Plant N} {i : StepIn N} (H : StepOk P i) {c : Checks}
    (I : Idle P i c) (p : Process) : Idle P i (update p (plain P i c p) c) := by
  obtain ⟨e0, h0, r0, g0, g1, a0, soc, dis, ch⟩ := I
  have hd := H.duty_nonneg
  have hc := H.cop_pos
  have hsp : 0 ≤ i.perf.duty - c.hpUsage := by linarith
  have hm : 0 ≤ c.resLeft * i.perf.cop := mul_nonneg r0 hc.le
  cases p
  case hpResToDemand =>
    simp only [plain, update]
    set h := min (c.resLeft * i.perf.cop) (min c.heatUnmet (i.perf.duty - c.hpUsage)) with hh
    have h1 : 0 ≤ h := le_min hm (le_min h0 hsp)
    have h2 : h ≤ c.heatUnmet := (min_le_right _ _).trans (min_le_left _ _)
    have h3 : h ≤ i.perf.duty - c.hpUsage := (min_le_right _ _).trans (min_le_right _ _)
    have h4 : h / i.perf.cop ≤ c.resLeft := (div_le_iff₀ hc).mpr (min_le_left _ _)
    constructor <;> dsimp only <;> first | assumption | linarith
  case eauxResToDemand =>
    simp only [plain, update]
    have h2 : min c.resLeft c.heatUnmet ≤ c.heatUnmet := min_le_right _ _
    have h3 : min c.resLeft c.heatUnmet ≤ c.resLeft := min_le_left _ _
    split_ifs <;> constructor <;> dsimp only <;> first | assumption | linarith
  case hpImportToDemand =>
    simp only [plain, update]
    have h1 : 0 ≤ min c.heatUnmet (i.perf.duty - c.hpUsage) := le_min h0 hsp
    have h2 : min c.heatUnmet (i.perf.duty - c.hpUsage) ≤ c.heatUnmet := min_le_left _ _
    have h3 : min c.heatUnmet (i.perf.duty - c.hpUsage) ≤ i.perf.duty - c.hpUsage :=
      min_le_right _ _
    constructor <;> dsimp only <;> first | assumption | linarith
  all_goals
    simp only [plain, update]
    constructor <;> (try dsimp only) <;> first | assumption | linarith

theorem idle_init {P : Plant N} {i : StepIn N} (H : StepOk P i) (hn : NoStores P i) :
    Idle P i (initChecks P i) where
  e0 := H.deficit_nonneg
  h0 := H.heat_nonneg
  r0 := H.surplus_nonneg
  g0 := le_rfl
  g1 := H.duty_nonneg
  a0 := H.heat_le_peak
  soc := le_antisymm (hn.battery ▸ H.soc_le) H.soc_nonneg
  dis := rfl
  ch := rfl

/-- The checks of a timestep and of the same timestep with more generation, `done` being the
processes already run. -/
def Richer (done : List Process) (c c' : Checks) : Prop :=
  (c'.elecUnmet = c.elecUnmet ∧ c'.heatUnmet = c.heatUnmet ∧ c'.hpUsage = c.hpUsage ∧
    c.resLeft ≤ c'.resLeft) ∨
  (c.resLeft = 0 ∧ c'.elecUnmet ≤ c.elecUnmet ∧ c'.heatUnmet ≤ c.heatUnmet ∧
    (Process.hpImportToDemand ∉ done → c.hpUsage ≤ c'.hpUsage) ∧
    (c'.heatUnmet = 0 ∨ c'.heatUnmet + c'.hpUsage ≤ c.heatUnmet + c.hpUsage))

theorem richer_step {P : Plant N} {i i' : StepIn N} (H : StepOk P i) (hperf : i'.perf = i.perf)
    {done : List Process} {c c' : Checks} (I : Idle P i c) (I' : Idle P i' c') {p : Process}
    (hp : p ∉ done) (h : Richer done c c') :
    Richer (p :: done) (update p (plain P i c p) c) (update p (plain P i' c' p) c') := by
  have hd := H.duty_nonneg
  have hc := H.cop_pos
  have hsp : 0 ≤ i.perf.duty - c.hpUsage := by linarith [I.g1]
  have hsp' : 0 ≤ i.perf.duty - c'.hpUsage := by have := I'.g1; rw [hperf] at this; linarith
  have mem : ∀ {q : Process}, Process.hpImportToDemand ∉ q :: done →
      Process.hpImportToDemand ∉ done := fun hq hm => hq (List.mem_cons_of_mem _ hm)
  cases p
  case hpResToDemand =>
    simp only [plain, hperf, update]
    rcases h with ⟨x1, x2, x3, x4⟩ | ⟨x1, x2, x3, x4, x5⟩
    · rw [x1, x2, x3]
      have hle : c.resLeft * i.perf.cop ≤ c'.resLeft * i.perf.cop :=
        mul_le_mul_of_nonneg_right x4 hc.le
      set m := min c.heatUnmet (i.perf.duty - c.hpUsage) with hm
      rcases le_total m (c.resLeft * i.perf.cop) with hl | hl
      · left
        dsimp only
        rw [min_eq_right hl, min_eq_right (hl.trans hle)]
        exact ⟨rfl, rfl, rfl, by linarith⟩
      · right
        have hmm : c.resLeft * i.perf.cop ≤ min (c'.resLeft * i.perf.cop) m := le_min hle hl
        dsimp only
        rw [min_eq_left hl, mul_div_assoc, div_self hc.ne', mul_one]
        refine ⟨by linarith, le_rfl, by linarith, fun _ => by linarith, Or.inr (by linarith)⟩
    · right
      have e : min (c.resLeft * i.perf.cop) (min c.heatUnmet (i.perf.duty - c.hpUsage)) = 0 := by
        rw [x1, zero_mul]
        exact min_eq_left (le_min I.h0 hsp)
      set h' := min (c'.resLeft * i.perf.cop) (min c'.heatUnmet (i.perf.duty - c'.hpUsage))
        with hh'
      have h1 : 0 ≤ h' := le_min (mul_nonneg I'.r0 hc.le) (le_min I'.h0 hsp')
      have h2 : h' ≤ c'.heatUnmet := (min_le_right _ _).trans (min_le_left _ _)
      dsimp only
      rw [e, zero_div]
      refine ⟨by linarith, x2, by linarith, fun hq => by linarith [x4 (mem hq)], ?_⟩
      rcases x5 with x5 | x5
      · left; linarith
      · right; linarith
  case eauxResToDemand =>
    simp only [plain, update]
    split_ifs with hel
    · dsimp only
      rcases h with ⟨x1, x2, x3, x4⟩ | ⟨x1, x2, x3, x4, x5⟩
      · rw [x1, x2, x3]
        rcases le_total c.heatUnmet c.resLeft with hl | hl
        · left
          rw [min_eq_right hl, min_eq_right (hl.trans x4)]
          exact ⟨rfl, rfl, rfl, by linarith⟩
        · right
          have : c.resLeft ≤ min c'.resLeft c.heatUnmet := le_min x4 hl
          rw [min_eq_left hl]
          exact ⟨by linarith, le_rfl, by linarith, fun _ => le_rfl, Or.inr (by linarith)⟩
      · right
        have e : min c.resLeft c.heatUnmet = 0 := by rw [x1]; exact min_eq_left I.h0
        have h1 : 0 ≤ min c'.resLeft c'.heatUnmet := le_min I'.r0 I'.h0
        have h2 : min c'.resLeft c'.heatUnmet ≤ c'.heatUnmet := min_le_right _ _
        rw [e]
        refine ⟨by linarith, x2, by linarith, fun hq => x4 (mem hq), ?_⟩
        rcases x5 with x5 | x5
        · left; linarith
        · right; linarith
    · rcases h with ⟨x1, x2, x3, x4⟩ | ⟨x1, x2, x3, x4, x5⟩
      · left; exact ⟨x1, by dsimp only; linarith, x3, by dsimp only; linarith⟩
      · right
        refine ⟨by dsimp only; linarith, x2, by dsimp only; linarith, fun hq => x4 (mem hq), ?_⟩
        dsimp only
        rcases x5 with x5 | x5
        · left; linarith
        · right; linarith
  case hpImportToDemand =>
    simp only [plain, hperf, update]
    rcases h with ⟨x1, x2, x3, x4⟩ | ⟨x1, x2, x3, x4, x5⟩
    · left
      dsimp only
      rw [x2, x3]
      exact ⟨x1, rfl, rfl, x4⟩
    · right
      have hg := x4 hp
      dsimp only
      refine ⟨x1, x2, ?_, fun hq => absurd List.mem_cons_self hq, ?_⟩
      · rcases x5 with x5 | x5
        · rw [x5, min_eq_left hsp']
          have := min_le_left c.heatUnmet (i.perf.duty - c.hpUsage)
          linarith
        · rcases le_total c'.heatUnmet (i.perf.duty - c'.hpUsage) with hl | hl
          · rw [min_eq_left hl]
            have := min_le_left c.heatUnmet (i.perf.duty - c.hpUsage)
            linarith
          · rw [min_eq_right hl]
            have := min_le_right c.heatUnmet (i.perf.duty - c.hpUsage)
            linarith
      · rcases x5 with x5 | x5
        · left; rw [x5, min_eq_left hsp', sub_zero]
        · right; linarith
  case importToDemand =>
    simp only [plain, update]
    rcases h with ⟨x1, x2, x3, x4⟩ | ⟨x1, x2, x3, x4, x5⟩
    · left; exact ⟨by simp, x2, x3, x4⟩
    · right; exact ⟨x1, by simp, x3, fun hq => x4 (mem hq), x5⟩
  case auxToDemand =>
    simp only [plain, update]
    rcases h with ⟨x1, x2, x3, x4⟩ | ⟨x1, x2, x3, x4, x5⟩
    · left; exact ⟨x1, by simp, x3, x4⟩
    · right; exact ⟨x1, x2, by simp, fun hq => x4 (mem hq), Or.inl (by simp)⟩
  case resToExport =>
    simp only [plain, update]
    rcases h with ⟨x1, x2, x3, x4⟩ | ⟨x1, x2, x3, x4, x5⟩
    · left; exact ⟨x1, x2, x3, by simp⟩
    · right; exact ⟨by simp, x2, x3, fun hq => x4 (mem hq), x5⟩
  all_goals
    simp only [plain, update]
    try simp only [sub_zero, add_zero]
    rcases h with ⟨x1, x2, x3, x4⟩ | ⟨x1, x2, x3, x4, x5⟩
    · left; exact ⟨x1, x2, x3, x4⟩
    · right; exact ⟨x1, x2, x3, fun hq => x4 (mem hq), x5⟩

/-- The results of the two timesteps: `r'` has more generation. -/
structure Cheaper (r r' : Results N) : Prop where
  elec : r'.grid.importForElecDemand ≤ r.grid.importForElecDemand
  pump : r'.grid.importForHeatPumpToHeatDemand ≤ r.grid.importForHeatPumpToHeatDemand
  aux : r'.heatDemand.aux ≤ r.heatDemand.aux
  exp : r.grid.totalExport ≤ r'.grid.totalExport
  ts : r.grid.importForHeatPumpToTs = 0 ∧ r'.grid.importForHeatPumpToTs = 0
  es : r.grid.importForEs = 0 ∧ r'.grid.importForEs = 0

theorem cheaper_step {P : Plant N} {i i' : StepIn N} (H : StepOk P i) (hperf : i'.perf = i.perf)
    {done : List Process} {c c' : Checks} (I' : Idle P i' c') {p : Process}
    (hp : p ∉ done) (h : Richer done c c') {r r' : Results N} (hr : Cheaper r r') :
    Cheaper (record p (plain P i c p) r) (record p (plain P i' c' p) r') := by
  obtain ⟨y1, y2, y3, y4, y5, y6⟩ := hr
  cases p
  case importToDemand =>
    refine ⟨?_, y2, y3, y4, y5, y6⟩
    simp only [plain, record]
    rcases h with ⟨x1, x2, x3, x4⟩ | ⟨x1, x2, x3, x4, x5⟩
    · rw [x1]
    · exact x2
  case hpImportToDemand =>
    refine ⟨y1, ?_, y3, y4, y5, y6⟩
    simp only [plain, record, hperf]
    refine div_le_div_of_nonneg_right ?_ H.cop_pos.le
    rcases h with ⟨x1, x2, x3, x4⟩ | ⟨x1, x2, x3, x4, x5⟩
    · rw [x2, x3]
    · exact min_le_min x3 (by linarith [x4 hp])
  case auxToDemand =>
    refine ⟨y1, y2, ?_, y4, y5, y6⟩
    simp only [plain, record]
    rcases h with ⟨x1, x2, x3, x4⟩ | ⟨x1, x2, x3, x4, x5⟩
    · rw [x2]
    · exact x3
  case resToExport =>
    refine ⟨y1, y2, y3, ?_, y5, y6⟩
    simp only [plain, record]
    rcases h with ⟨x1, x2, x3, x4⟩ | ⟨x1, x2, x3, x4, x5⟩
    · exact x4
    · rw [x1]; exact I'.r0
  case hpImportToTs => exact ⟨y1, y2, y3, y4, ⟨rfl, rfl⟩, y6⟩
  case importToEs => exact ⟨y1, y2, y3, y4, y5, ⟨rfl, rfl⟩⟩
  all_goals exact ⟨y1, y2, y3, y4, y5, y6⟩

theorem cheaper_loop {P : Plant N} {i i' : StepIn N} (H : StepOk P i) (H' : StepOk P i')
    (hn : NoStores P i) (hn' : NoStores P i') (hperf : i'.perf = i.perf) :
    ∀ (ps done : List Process) (s t s' t' : Checks × Results N), ps.Nodup →
      (∀ p ∈ ps, p ∉ done) → runProcs P i ps s = .ok t → runProcs P i' ps s' = .ok t' →
      Idle P i s.1 → Idle P i' s'.1 → Richer done s.1 s'.1 → Cheaper s.2 s'.2 →
      Cheaper t.2 t'.2 := by
  intro ps
  induction ps with
  | nil => intro done s t s' t' _ _ h h' _ _ _ hr; cases h; cases h'; exact hr
  | cons p ps ih =>
    intro done s t s' t' hnd hdone h h' I I' hR hr
    simp only [runProcs, except_bind_ok] at h h'
    obtain ⟨s1, h1, h2⟩ := h
    obtain ⟨s1', h1', h2'⟩ := h'
    obtain ⟨a, ha, rfl⟩ := runProcess_ok h1
    obtain ⟨a', ha', rfl⟩ := runProcess_ok h1'
    have ea := amount_plain H hn I ha
    have ea' := amount_plain H' hn' I' ha'
    subst ea ea'
    have hp : p ∉ done := hdone p List.mem_cons_self
    obtain ⟨hp1, hnd'⟩ := List.nodup_cons.mp hnd
    refine ih (p :: done) _ t _ t' hnd' ?_ h2 h2' (idle_step H I p) (idle_step H' I' p)
      (richer_step H hperf I I' hp hR) (cheaper_step H hperf I' hp hR hr)
    intro q hq hqd
    rcases List.mem_cons.mp hqd with rfl | hqd
    · exact hp1 hq
    · exact hdone q (List.mem_cons_of_mem _ hq) hqd

/-- The same numbers name the same processes. -/
theorem procs_unique {key : ℤ → Except PyErr Process} {order : List ℤ} : ∀ {ps qs : List Process},
    List.Forall₂ (fun n p => key n = .ok p) order ps →
    List.Forall₂ (fun n p => key n = .ok p) order qs → ps = qs := by
  induction order with
  | nil => intro ps qs h1 h2; cases h1; cases h2; rfl
  | cons n ns ih =>
    intro ps qs h1 h2
    cases h1 with
    | cons a1 b1 =>
      cases h2 with
      | cons a2 b2 =>
        rw [a1] at a2
        rw [ih b1 b2, Except.ok.inj a2]

/-- The minimum output rule changes no entry of the grid. -/
theorem rule_grid {P : Plant N} {i : StepIn N} {b : Bool} {c : Checks} {r r' : Results N}
    (h : minOutputRule P i b c r = .ok r') : r'.grid = r.grid ∧ r'.aux.cost = r.aux.cost := by
  cases rule_outcome h with
  | same h _ => subst h; exact ⟨rfl, rfl⟩
  | raise nodes _ h => subst h; exact ⟨rfl, rfl⟩
  | offAbove nodes _ _ h => subst h; exact ⟨rfl, rfl⟩
  | offBelow nodes dis _ _ _ h => subst h; exact ⟨rfl, rfl⟩

end Verif.FixedOrder
