import Verif.Lemmas.RoundedLoop
import Verif.Lemmas.Rounding
import Verif.Lemmas.Run
import Mathlib.Tactic.IntervalCases

/-!
# Hours and runs with rounding
-/

set_option autoImplicit false

namespace Verif
open Spec FixedOrder Tools
namespace Rounded
variable {N : Type} {R : Rounding}

theorem dispatch_ok {P : Plant N} {i : StepIn N} {b : Bool} {order : List ℤ} {s : Checks × Results N}
    (h : dispatch R P i b order = .ok s) :
    ∃ r0 nodes, runOrder R P i (keyOf b) order (initChecks P i, initResults P i b) = .ok (s.1, r0) ∧
      s.2 = totals2 R P i b nodes (totals1 R P b r0) := by
  simp only [dispatch, except_bind_ok, except_pure_ok] at h
  obtain ⟨s0, h0, nodes, _, rfl⟩ := h
  exact ⟨s0.2, nodes, h0, rfl⟩

theorem step_ok {P : Plant N} {i : StepIn N} {b : Bool} {order : List ℤ} {r : Results N}
    (h : step R P i b order = .ok r) :
    ∃ c r1, dispatch R P i b order = .ok (c, r1) ∧ minOutputRule R P i b c r1 = .ok r := by
  simp only [step, except_bind_ok] at h
  obtain ⟨s, hs, hr⟩ := h
  exact ⟨s.1, s.2, hs, hr⟩

/-- The minimum output rule leaves the supply of the electric demand, the battery, the surplus used for heaters,
battery and export, and the grid's account alone. -/
theorem rule_keeps {P : Plant N} {i : StepIn N} {b : Bool} {c : Checks} {r r' : Results N}
    (h : minOutputRule R P i b c r = .ok r') :
    r'.elecDemand = r.elecDemand ∧ r'.es = r.es ∧ r'.grid = r.grid ∧ r'.res.es = r.res.es ∧
      r'.res.exp = r.res.exp := by
  simp only [minOutputRule] at h
  by_cases hu : r.hp.heatTotalOutput < minOut R P i ∧ r.hp.heatTotalOutput > minTrigger R b
  · rw [if_pos hu, except_bind_ok] at h
    obtain ⟨m, hm, h⟩ := h
    split_ifs at h with hinc hb
    · simp only [hpOffBelow, except_bind_ok] at h
      obtain ⟨m', hm', h⟩ := h
      by_cases hcap : P.tank.capacity = 0
      · rw [if_pos hcap, except_pure_ok] at h
        subst h
        exact ⟨rfl, rfl, rfl, rfl, rfl⟩
      · simp only [if_neg hcap, except_bind_ok, except_pure_ok] at h
        obtain ⟨n, _, h⟩ := h
        subst h
        exact ⟨rfl, rfl, rfl, rfl, rfl⟩
    · simp only [hpOffAbove] at h
      split_ifs at h <;> rw [except_bind_ok] at h <;> obtain ⟨n, _, h⟩ := h <;> rw [except_pure_ok] at h <;>
        subst h <;> exact ⟨rfl, rfl, rfl, rfl, rfl⟩
    · simp only [hpRaise] at h
      by_cases hcap : P.tank.capacity = 0
      · rw [if_pos hcap, except_pure_ok] at h
        subst h
        exact ⟨rfl, rfl, rfl, rfl, rfl⟩
      · simp only [if_neg hcap, except_bind_ok, except_pure_ok] at h
        obtain ⟨n, _, h⟩ := h
        subst h
        exact ⟨rfl, rfl, rfl, rfl, rfl⟩
  · rw [if_neg hu] at h
    cases h
    exact ⟨rfl, rfl, rfl, rfl, rfl⟩

theorem newSoc_within (R : Rounding) {b : Battery} (hb : 0 ≤ b.capacity) (m soc : ℚ) :
    0 ≤ newSoc R b m soc ∧ newSoc R b m soc ≤ b.capacity := by
  unfold newSoc
  dsimp only
  split_ifs with h1 h2
  · exact ⟨hb, le_rfl⟩
  · exact ⟨le_rfl, hb⟩
  · exact ⟨by linarith, by linarith⟩

theorem step_soc {P : Plant N} {i : StepIn N} {b : Bool} {order : List ℤ} {r : Results N}
    (hb : 0 ≤ P.es.capacity) (h : step R P i b order = .ok r) :
    0 ≤ r.es.finalSoc ∧ r.es.finalSoc ≤ P.es.capacity := by
  obtain ⟨c, r1, hd, hm⟩ := step_ok h
  obtain ⟨r0, nodes, -, hr⟩ := dispatch_ok hd
  rw [(rule_keeps hm).2.1]
  change r1 = _ at hr
  rw [hr]
  exact newSoc_within R hb _ _

/-- Everything one pass of the loop reads and does. -/
structure HourOk (R : Rounding) (S : RunIn N) (rows : List Row) (t : ℕ) (nodes : N) (soc : ℚ) (r : Results N)
    (heat price : ℚ) (row : Row) (perf : Perf) (gen wnd pv elec : ℚ) (r0 : Results N) : Prop where
  heatEq : S.heatDemand[t]? = some heat
  rowEq : rows[t]? = some row
  perfEq : S.perf[t]? = some perf
  genEq : (generation R S)[t]? = some gen
  elecEq : S.elecDemand[t]? = some elec
  priceEq : S.importPrice[t]? = some price
  wndEq : (wind R S)[t]? = some wnd
  pvEq : S.pv[t]? = some pv
  stepEq : step R (plant S) (hourIn t heat price row perf nodes soc)
    (decide (price ≤ S.setpoint)) (if price > S.setpoint then S.orderAbove else S.orderBelow)
      = .ok r0
  resultEq : r = complete R row gen wnd pv elec heat r0

theorem hourStep_ok {S : RunIn N} {rows : List Row} {t : ℕ} {nodes : N} {soc : ℚ}
    {r : Results N} (h : hourStep R S rows t nodes soc = .ok r) :
      ∃ heat price row perf gen wnd pv elec r0,
        HourOk R S rows t nodes soc r heat price row perf gen wnd pv elec r0 := by
  unfold hourStep at h
  simp only [except_bind_ok, lookup_ok, lookupPerf_ok] at h
  obtain ⟨heat, h1, price, h2, row, h3, perf, h4, h5⟩ := h
  by_cases hp : price > S.setpoint
  · simp only [if_pos hp, except_bind_ok, lookup_ok, except_pure_ok] at h5
    obtain ⟨r0, h5, gen, h6, wnd, h7, pv, h8, elec, h9, h10⟩ := h5
    refine ⟨heat, price, row, perf, gen, wnd, pv, elec, r0,
      h1, h3, h4, h6, h9, h2, h7, h8, ?_, h10.symm⟩
    rw [if_pos hp, decide_eq_false (not_le.mpr hp)]
    exact h5
  · simp only [if_neg hp, except_bind_ok, lookup_ok, except_pure_ok] at h5
    obtain ⟨r0, h5, gen, h6, wnd, h7, pv, h8, elec, h9, h10⟩ := h5
    refine ⟨heat, price, row, perf, gen, wnd, pv, elec, r0,
      h1, h3, h4, h6, h9, h2, h7, h8, ?_, h10.symm⟩
    rw [if_neg hp, decide_eq_true (not_lt.mp hp)]
    exact h5

theorem hourStep_soc {S : RunIn N} {rows : List Row} {t : ℕ} {nodes : N} {soc : ℚ} {r : Results N}
    (hb : 0 ≤ S.es.capacity) (h : hourStep R S rows t nodes soc = .ok r) :
    0 ≤ r.es.finalSoc ∧ r.es.finalSoc ≤ S.es.capacity := by
  obtain ⟨heat, price, row, perf, gen, wnd, pv, elec, r0, ho⟩ := hourStep_ok h
  have := step_soc (P := plant S) hb ho.stepEq
  rw [ho.resultEq]
  exact this

/-- Every result of a run is that of an hour that started with a state of charge of which `Q` is true, if `Q` is true
of the first one and of all a battery can have. -/
theorem runFrom_mem {S : RunIn N} {rows : List Row} {Q : ℚ → Prop}
    (hQ : ∀ t nodes soc r, hourStep R S rows t nodes soc = .ok r → Q r.es.finalSoc) :
    ∀ {n t : ℕ} {nodes : N} {soc : ℚ} {rs : List (Results N)}, Q soc → runFrom R S rows t n nodes soc = .ok rs →
      ∀ r ∈ rs, ∃ t' nodes' soc', Q soc' ∧ hourStep R S rows t' nodes' soc' = .ok r := by
  intro n
  induction n with
  | zero => intro t nodes soc rs _ h r hr; cases h; cases hr
  | succ n ih =>
    intro t nodes soc rs hs h r hr
    simp only [runFrom, except_bind_ok, except_pure_ok] at h
    obtain ⟨r', h1, rest, h2, h3⟩ := h
    subst h3
    rcases List.mem_cons.mp hr with rfl | hr
    · exact ⟨t, nodes, soc, hs, h1⟩
    · exact ih (hQ _ _ _ _ h1) h2 r hr

theorem runTimesteps_ok {S : RunIn N} {first n : ℕ} {rs : List (Results N)}
    (h : runTimesteps R S first n = .ok rs) :
    runFrom R S (List.zipWith (splitHour R) (generation R S) S.elecDemand) first n S.tank.initTemps
      (initState R S.es) = .ok rs := by
  unfold runTimesteps at h
  simp only [except_bind_ok] at h
  obtain ⟨rows, h1, h2⟩ := h
  split_ifs at h2 with h3
  unfold surplusDeficit at h1
  split_ifs at h1 with h4 h5
  cases h1
  exact h2

theorem fl_of (hr : Rounds R) {u η : ℚ} (hu : 0 ≤ u) (hη : 0 ≤ η) (ha : Accurate R u η) {B : ℚ} (hB : 0 ≤ B) :
    Fl R B (8 * u * B + η) where
  mono := hr.mono
  zero := by have := hr.neg 0; simp only [neg_zero] at this; linarith
  err := fun x hx => by
    have h1 := ha x
    have h2 : u * |x| ≤ u * (8 * B) := mul_le_mul_of_nonneg_left hx hu
    linarith
  pos := by positivity

/-- What the loop leaves after an hour before the minimum output rule. -/
structure HourNear (P : Plant N) (i : StepIn N) (b : Bool) (order : List ℤ) (ε : ℚ) (r : Results N) : Prop where
  cop : r.hp.cop = i.perf.cop
  elec : r.elecDemand.es + r.elecDemand.imp ≤ i.deficit + 64 * ε
  elecMet : (numbers b).importToDemand ∈ order → |r.elecDemand.es + r.elecDemand.imp - i.deficit| ≤ 64 * ε
  res : resSpent r ≤ i.surplus + 64 * ε
  resMet : (numbers b).resToExport ∈ order → |resSpent r - i.surplus| ≤ 2 ^ 18 * i.perf.cop * ε
  heat : heatDelivered b r ≤ i.heatDemand + 64 * ε
  heatMet : (numbers b).auxToDemand ∈ order → |heatDelivered b r - i.heatDemand| ≤ 2 ^ 18 * i.perf.cop * ε
  flows : FlowsAbove (184320 * i.perf.cop * ε) r
  pump : r.hp.elecResUsage ≤ r.res.hpToHeatDemand + r.res.hpToTs + ε

theorem dispatch_near {B ε : ℚ} {P : Plant N} {i : StepIn N} (F : Fl R B ε) (H : StepOk P i) (Z : Sized P i B)
    (hsm : 2 ^ 41 * ε ≤ B) {b : Bool} {order : List ℤ} (hnd : order.Nodup) (ht : TidyOrder b order)
    {s : Checks × Results N} (h : dispatch R P i b order = .ok s) : HourNear P i b order ε s.2 := by
  obtain ⟨r0, nodes, h0, h1⟩ := dispatch_ok h
  have hc1 := Z.cop_ge
  have hc2 := Z.cop_le
  have hB := Z.one_le
  have e0 := F.pos
  have hce : i.perf.cop * i.perf.cop ≤ 1000000 := by nlinarith
  have hceε := mul_le_mul_of_nonneg_right hce e0
  obtain ⟨ps, hf, hps, L⟩ := loop_near F H Z hnd ht (E := 64 * i.perf.cop * ε) rfl (by nlinarith) h0
  have hlen : ((ps.reverse.length : ℕ) : ℚ) ≤ 15 := by
    exact_mod_cast length_le (List.nodup_reverse.mpr hps)
  have hE0 : 0 ≤ 64 * i.perf.cop * ε := by positivity
  have hsl := slack_le hE0 (List.nodup_reverse.mpr hps)
  have hsl0 := slack_nonneg hE0 ps.reverse
  have hcε : ε ≤ i.perf.cop * ε := by nlinarith
  have hlε : ε * ps.reverse.length ≤ 15 * ε := by nlinarith
  have hcεB : i.perf.cop * ε ≤ 1000 * ε := by nlinarith
  have hslB : slack (64 * i.perf.cop * ε) ps.reverse ≤ B / 2 := by linarith
  have fr := L.frame
  have C := L.copies
  have W := L.flows
  have bal := L.bal
  have near := L.near
  obtain ⟨c, r⟩ := s
  clear L
  dsimp only at h1 near bal C W fr ⊢
  generalize slack (64 * i.perf.cop * ε) ps.reverse = σ at *
  subst h1
  have g := fun {x : ℚ} (h : -σ ≤ x ∧ x ≤ 2 * B) => (show -(184320 * i.perf.cop * ε) ≤ x by linarith [h.1])
  have kr := abs_le.mp bal.res
  have ke := abs_le.mp bal.elec
  have kh := abs_le.mp bal.heat
  have k0 := near.e0
  have k1 := near.h0
  have k2 := near.r0
  have w1 := W.hResD
  have w2 := W.hImpD
  have w3 := W.hEsD
  have w4 := W.aux
  have w5 := W.auxResD
  have w6 := W.eResD
  have w7 := W.eResTs
  rw [← C.c3] at w1
  rw [← C.c5] at w2
  rw [← C.c8] at w3
  have q1 := F.near (x := r0.heatDemand.hpRes + r0.heatDemand.hpImport) (by linarith [w1.1, w2.1])
    (by linarith [w1.2, w2.2])
  have q2 := F.near (x := R.rnd (r0.heatDemand.hpRes + r0.heatDemand.hpImport) + r0.heatDemand.hpEs)
    (by linarith [w1.1, w2.1, w3.1, q1.1]) (by linarith [w1.2, w2.2, w3.2, q1.2])
  have q3 := F.near (x := r0.heatDemand.aux + r0.aux.resToDemand) (by linarith [w4.1, w5.1])
    (by linarith [w4.2, w5.2])
  have hheat : |c.heatUnmet + heatDelivered b (totals2 R P i b nodes (totals1 R P b r0)) - i.heatDemand| ≤ 18 * ε := by
    cases b with
    | true =>
      show |c.heatUnmet + (R.rnd (R.rnd (r0.heatDemand.hpRes + r0.heatDemand.hpImport) + r0.heatDemand.hpEs)
        + r0.heatDemand.ts + r0.heatDemand.aux + r0.aux.resToDemand) - i.heatDemand| ≤ _
      rw [abs_le]
      constructor <;> linarith [kh.1, kh.2, q1.1, q1.2, q2.1, q2.2]
    | false =>
      show |c.heatUnmet + (R.rnd (R.rnd (r0.heatDemand.hpRes + r0.heatDemand.hpImport) + r0.heatDemand.hpEs)
        + r0.heatDemand.ts + R.rnd (r0.heatDemand.aux + r0.aux.resToDemand) + 0) - i.heatDemand| ≤ _
      rw [abs_le]
      constructor <;> linarith [kh.1, kh.2, q1.1, q1.2, q2.1, q2.2, q3.1, q3.2]
  rw [abs_le] at hheat
  refine ⟨fr.cop, ?_, fun hm => ?_, ?_, fun hm => ?_, ?_, fun hm => ?_, ?_, ?_⟩
  · show r0.elecDemand.es + r0.elecDemand.imp ≤ _
    linarith [ke.1, ke.2]
  · have hmem : Process.importToDemand ∈ ps.reverse := (mem_done hf (by cases b <;> rfl)).mpr hm
    have k1 := near.emet hmem
    show |r0.elecDemand.es + r0.elecDemand.imp - i.deficit| ≤ _
    rw [abs_le]
    constructor <;> linarith [ke.1, ke.2]
  · show r0.res.hpToHeatDemand + r0.res.hpToTs + r0.aux.resToDemand + r0.aux.resToTs + r0.res.es + r0.res.exp ≤ _
    linarith [kr.1, kr.2]
  · have hmem : Process.resToExport ∈ ps.reverse := (mem_done hf (by cases b <;> rfl)).mpr hm
    have k1 := near.rmet hmem
    show |r0.res.hpToHeatDemand + r0.res.hpToTs + r0.aux.resToDemand + r0.aux.resToTs + r0.res.es + r0.res.exp
      - i.surplus| ≤ _
    rw [abs_le]
    constructor <;> linarith [kr.1, kr.2]
  · linarith [hheat.1, hheat.2]
  · have hmem : Process.auxToDemand ∈ ps.reverse := (mem_done hf (by cases b <;> rfl)).mpr hm
    have k3 := near.hmet hmem
    rw [abs_le]
    constructor <;> linarith [hheat.1, hheat.2]
  · exact
      { elecDemand := ⟨g W.es, g W.imp⟩
        heatDemand := ⟨C.c3 ▸ g W.hResD, C.c5 ▸ g W.hImpD, C.c8 ▸ g W.hEsD, C.c7 ▸ g W.ts⟩
        res := ⟨C.c4 ▸ g W.eResD, C.c10 ▸ g W.eResTs, C.c15 ▸ g W.esRes, C.c17 ▸ g W.exp⟩
        hpHeat := ⟨g W.hResD, g W.hResTs, g W.hImpD, g W.hImpTs, g W.hEsD⟩
        hpElec := ⟨g W.eResD, g W.eResTs, g W.eImpD, g W.eImpTs, g W.eEsD⟩
        ts := ⟨g W.ts, C.c11 ▸ g W.hResTs, C.c14 ▸ g W.hImpTs, C.c12 ▸ g W.auxResTs⟩
        aux := ⟨g W.auxResD, g W.auxResTs⟩
        es := ⟨C.c1 ▸ g W.es, C.c9 ▸ g W.eEsD, g W.esRes, g W.esImp⟩
        grid := ⟨C.c2 ▸ g W.imp, C.c6 ▸ g W.eImpD, C.c13 ▸ g W.eImpTs, C.c16 ▸ g W.esImp, g W.exp⟩ }
  · have q4 := F.near (x := r0.hp.elecFromResToDemand + r0.hp.elecFromResToTs) (by linarith [w6.1, w7.1])
      (by linarith [w6.2, w7.2])
    show R.rnd (r0.hp.elecFromResToDemand + r0.hp.elecFromResToTs) ≤ r0.res.hpToHeatDemand + r0.res.hpToTs + ε
    rw [C.c4, C.c10]
    exact q4.2

theorem flowsAbove_weaken {σ σ' : ℚ} (h : σ ≤ σ') {r : Results N} (hf : FlowsAbove σ r) : FlowsAbove σ' r := by
  have k : ∀ {x : ℚ}, -σ ≤ x → -σ' ≤ x := fun hx => by linarith
  obtain ⟨⟨a1, a2⟩, ⟨b1, b2, b3, b4⟩, ⟨c1, c2, c3, c4⟩, ⟨d1, d2, d3, d4, d5⟩, ⟨e1, e2, e3, e4, e5⟩, ⟨f1, f2, f3, f4⟩,
    ⟨g1, g2⟩, ⟨h1, h2, h3, h4⟩, ⟨i1, i2, i3, i4, i5⟩⟩ := hf
  exact ⟨⟨k a1, k a2⟩, ⟨k b1, k b2, k b3, k b4⟩, ⟨k c1, k c2, k c3, k c4⟩, ⟨k d1, k d2, k d3, k d4, k d5⟩,
    ⟨k e1, k e2, k e3, k e4, k e5⟩, ⟨k f1, k f2, k f3, k f4⟩, ⟨k g1, k g2⟩, ⟨k h1, k h2, k h3, k h4⟩,
    ⟨k i1, k i2, k i3, k i4, k i5⟩⟩

/-- The minimum output rule keeps flows above a level, but for one more rounding. -/
theorem rule_flows {P : Plant N} {i : StepIn N} (H : StepOk P i) {B ε σ : ℚ} (F : Fl R B ε) (h0 : 0 ≤ σ)
    (hσ : σ ≤ 8 * B) {b : Bool} {c : Checks} {r r' : Results N} (hcop : r.hp.cop = i.perf.cop)
    (hf : FlowsAbove σ r) (h : minOutputRule R P i b c r = .ok r') : FlowsAbove (σ + ε) r' := by
  have e0 := F.pos
  have hw := flowsAbove_weaken (show σ ≤ σ + ε by linarith) hf
  have z : -(σ + ε) ≤ 0 := by linarith
  simp only [minOutputRule] at h
  by_cases hu : r.hp.heatTotalOutput < minOut R P i ∧ r.hp.heatTotalOutput > minTrigger R b
  · rw [if_pos hu, except_bind_ok] at h
    obtain ⟨m, hm, h⟩ := h
    have hoff : ∀ {dis : ℚ} {nodes : Option N} {ct d : ℚ}, -(σ + ε) ≤ dis →
        FlowsAbove (σ + ε) { zeroHp r with
          ts := { (zeroHp r).ts with chargingTotal := ct, dischargingTotal := dis, finalNodesTemp := nodes }
          aux := { r.aux with demand := d } } := by
      intro dis nodes ct d hd
      obtain ⟨a1, ⟨b1, b2, b3, b4⟩, ⟨c1, c2, c3, c4⟩, -, -, ⟨f1, f2, f3, f4⟩, g1, h1, i1⟩ := hw
      exact ⟨a1, ⟨z, z, z, b4⟩, ⟨z, z, c3, c4⟩, ⟨z, z, z, z, z⟩, ⟨z, z, z, z, z⟩, ⟨hd, z, z, f4⟩, g1, h1, i1⟩
    split_ifs at h with hinc hb
    · simp only [hpOffBelow, except_bind_ok] at h
      obtain ⟨m', hm', h⟩ := h
      have hd : -(σ + ε) ≤ min m' i.heatDemand :=
        z.trans (le_min (H.tank_nonneg _ _ hm') H.heat_nonneg)
      by_cases hcap : P.tank.capacity = 0
      · rw [if_pos hcap, except_pure_ok] at h
        subst h
        exact hoff hd
      · simp only [if_neg hcap, except_bind_ok, except_pure_ok] at h
        obtain ⟨n, _, h⟩ := h
        subst h
        exact hoff hd
    · simp only [hpOffAbove] at h
      split_ifs at h <;> rw [except_bind_ok] at h <;> obtain ⟨n, _, h⟩ := h <;> rw [except_pure_ok] at h <;>
        subst h <;> exact hoff hw.ts.1
    · have hi : 0 ≤ R.sub (minOut R P i) r.hp.heatTotalOutput :=
        F.nonneg (by linarith [hu.1])
      have he : 0 ≤ R.div (R.sub (minOut R P i) r.hp.heatTotalOutput) r.hp.cop :=
        F.nonneg (div_nonneg hi (by rw [hcop]; exact H.cop_pos.le))
      have hadd : ∀ {x y : ℚ}, -σ ≤ x → 0 ≤ y → -(σ + ε) ≤ R.add x y := by
        intro x y hx hy
        have h1 := F.mono (-σ) (x + y) (by linarith)
        have h2 := F.near (x := -σ) (by linarith) (by linarith)
        show _ ≤ R.rnd (x + y)
        linarith [h2.1]
      have hup : ∀ {nodes : Option N} {x1 x2 x3 x4 x5 : ℚ}, FlowsAbove (σ + ε) { r with
          hp := { r.hp with
            heatFromImportToTs := R.add r.hp.heatFromImportToTs (R.sub (minOut R P i) r.hp.heatTotalOutput)
            heatToTs := x1
            heatTotalOutput := x2
            elecTotalUsage := x3
            elecImportUsage := x4
            elecFromImportToTs := R.add r.hp.elecFromImportToTs
              (R.div (R.sub (minOut R P i) r.hp.heatTotalOutput) r.hp.cop) }
          ts := { r.ts with
            hpToTs := x5
            hpFromImportToTs := R.add r.ts.hpFromImportToTs (R.sub (minOut R P i) r.hp.heatTotalOutput)
            finalNodesTemp := nodes } } := by
        intro nodes x1 x2 x3 x4 x5
        obtain ⟨a1, b1, c1, ⟨d1, d2, d3, d4, d5⟩, ⟨e1, e2, e3, e4, e5⟩, ⟨f1, f2, f3, f4⟩, g1, h1, i1⟩ := hw
        exact ⟨a1, b1, c1, ⟨d1, d2, d3, hadd hf.hpHeat.2.2.2.1 hi, d5⟩,
          ⟨e1, e2, e3, hadd hf.hpElec.2.2.2.1 he, e5⟩, ⟨f1, f2, hadd hf.ts.2.2.1 hi, f4⟩, g1, h1, i1⟩
      simp only [hpRaise] at h
      by_cases hcap : P.tank.capacity = 0
      · rw [if_pos hcap, except_pure_ok] at h
        subst h
        exact hup
      · simp only [if_neg hcap, except_bind_ok, except_pure_ok] at h
        obtain ⟨n, _, h⟩ := h
        subst h
        exact hup
  · rw [if_neg hu] at h
    cases h
    exact hw

/-- The minimum output rule leaves the surplus used by the heat pump alone or sets it to zero. -/
theorem rule_res {P : Plant N} {i : StepIn N} {b : Bool} {c : Checks} {r r' : Results N}
    (h : minOutputRule R P i b c r = .ok r') : r'.hp.cop = r.hp.cop ∧ r'.aux.resToDemand = r.aux.resToDemand ∧
      r'.aux.resToTs = r.aux.resToTs ∧ (r'.hp.elecResUsage = r.hp.elecResUsage ∨ r'.hp.elecResUsage = 0) := by
  simp only [minOutputRule] at h
  by_cases hu : r.hp.heatTotalOutput < minOut R P i ∧ r.hp.heatTotalOutput > minTrigger R b
  · rw [if_pos hu, except_bind_ok] at h
    obtain ⟨m, hm, h⟩ := h
    split_ifs at h with hinc hb
    · simp only [hpOffBelow, except_bind_ok] at h
      obtain ⟨m', hm', h⟩ := h
      by_cases hcap : P.tank.capacity = 0
      · rw [if_pos hcap, except_pure_ok] at h
        subst h
        exact ⟨rfl, rfl, rfl, Or.inr rfl⟩
      · simp only [if_neg hcap, except_bind_ok, except_pure_ok] at h
        obtain ⟨n, _, h⟩ := h
        subst h
        exact ⟨rfl, rfl, rfl, Or.inr rfl⟩
    · simp only [hpOffAbove] at h
      split_ifs at h <;> rw [except_bind_ok] at h <;> obtain ⟨n, _, h⟩ := h <;> rw [except_pure_ok] at h <;>
        subst h <;> exact ⟨rfl, rfl, rfl, Or.inr rfl⟩
    · simp only [hpRaise] at h
      by_cases hcap : P.tank.capacity = 0
      · rw [if_pos hcap, except_pure_ok] at h
        subst h
        exact ⟨rfl, rfl, rfl, Or.inl rfl⟩
      · simp only [if_neg hcap, except_bind_ok, except_pure_ok] at h
        obtain ⟨n, _, h⟩ := h
        subst h
        exact ⟨rfl, rfl, rfl, Or.inl rfl⟩
  · rw [if_neg hu] at h
    cases h
    exact ⟨rfl, rfl, rfl, Or.inl rfl⟩

/-- Known processes with a tank that never raises yield a result. -/
theorem step_accepts {P : Plant N} {i : StepIn N} {b : Bool} {order : List ℤ}
    (htank : ∀ s, ∃ m, P.tank.maxInOut i.hour s i.nodes = .ok m)
    (hnew : ∀ s q d, ∃ n, P.tank.newNodes i.hour s i.nodes q d = .ok n)
    (hok : ∀ n ∈ order, 1 ≤ n ∧ n ≤ (if b then 15 else 13)) :
    ∃ r, step R P i b order = .ok r := by
  have hkey : ∀ m ∈ order, ∃ p, keyOf b m = .ok p := by
    intro m hm
    have h := hok m hm
    cases b
    · simp only [Bool.false_eq_true, if_false] at h
      obtain ⟨h1, h2⟩ := h
      interval_cases m <;> exact ⟨_, rfl⟩
    · simp only [if_true] at h
      obtain ⟨h1, h2⟩ := h
      interval_cases m <;> exact ⟨_, rfl⟩
  obtain ⟨mc, hmc⟩ := htank .charging
  obtain ⟨md, hmd⟩ := htank .discharging
  have hamt : ∀ c p, ∃ a, amount R P i c p = .ok a := by
    intro c p
    cases p <;> simp only [amount, hmc, hmd] <;> try exact ⟨_, rfl⟩
    split_ifs <;> exact ⟨_, rfl⟩
  have hrun : ∀ (l : List ℤ) s, (∀ m ∈ l, ∃ p, keyOf b m = .ok p) →
      ∃ s', runOrder R P i (keyOf b) l s = .ok s' := by
    intro l
    induction l with
    | nil => intro s _; exact ⟨s, rfl⟩
    | cons m l ih =>
      intro s hk
      obtain ⟨p, hp⟩ := hk m (List.mem_cons_self ..)
      obtain ⟨a, ha⟩ := hamt s.1 p
      simp only [runOrder, hp, runProcess, ha, bind, Except.bind, pure, Except.pure]
      exact ih _ (fun m' hm' => hk m' (List.mem_cons_of_mem _ hm'))
  obtain ⟨s, hs⟩ := hrun order (initChecks P i, initResults P i b) hkey
  obtain ⟨nn, hnn⟩ : ∃ nn, tankUpdate R P i b s.1 (totals1 R P b s.2) = .ok nn := by
    unfold tankUpdate
    split_ifs with hc
    · exact ⟨_, rfl⟩
    · exact hnew _ _ _
  have hd : dispatch R P i b order = .ok (s.1, totals2 R P i b nn (totals1 R P b s.2)) := by
    unfold dispatch
    unfold keyOf at hs
    simp only [hs, hnn, bind, Except.bind, pure, Except.pure]
  unfold step
  simp only [hd, bind, Except.bind, minOutputRule, hmc]
  generalize totals2 R P i b nn (totals1 R P b s.2) = r
  split_ifs with h1 h2 h3
  · unfold hpOffBelow
    simp only [hmd, bind, Except.bind, pure, Except.pure]
    split_ifs with hc
    · exact ⟨_, rfl⟩
    · obtain ⟨n', hn'⟩ := hnew .discharging 0 (min md i.heatDemand)
      simp only [hn']
      exact ⟨_, rfl⟩
  · unfold hpOffAbove
    by_cases hc : P.tank.capacity = 0
    · simp only [if_pos hc, bind, Except.bind, pure, Except.pure]
      exact ⟨_, rfl⟩
    · obtain ⟨n', hn'⟩ := hnew .discharging 0 i.heatDemand
      simp only [if_neg hc, hn', Except.map, bind, Except.bind, pure, Except.pure]
      exact ⟨_, rfl⟩
  · unfold hpRaise
    simp only [bind, Except.bind, pure, Except.pure]
    split_ifs with hc
    · exact ⟨_, rfl⟩
    · obtain ⟨n', hn'⟩ := hnew (stateOf (R.add (tsMatchOf R b s.1) (R.sub (minOut R P i) r.hp.heatTotalOutput)))
        (R.add r.hp.heatTotalOutput (R.sub (minOut R P i) r.hp.heatTotalOutput)) i.heatDemand
      simp only [hn']
      exact ⟨_, rfl⟩
  · exact ⟨_, rfl⟩

theorem runFrom_accepts {S : RunIn N} (hy : FullYear S)
    (hord : (∀ n ∈ S.orderAbove, 1 ≤ n ∧ n ≤ 13) ∧ (∀ n ∈ S.orderBelow, 1 ≤ n ∧ n ≤ 15))
    (htank : ∀ hour s nodes, ∃ m, S.tank.maxInOut hour s nodes = .ok m)
    (hnew : ∀ hour s nodes q d, ∃ n, S.tank.newNodes hour s nodes q d = .ok n)
    {rows : List Row} (hl : rows.length = 8760) :
    ∀ k t nodes soc, t + k ≤ 8760 → ∃ rs, runFrom R S rows t k nodes soc = .ok rs := by
  have look : ∀ {α : Type} {l : List α} {t : ℕ}, l.length = 8760 → t < 8760 → ∃ x, lookup l t = .ok x := by
    intro α l t h1 h2
    have h3 : t < l.length := by rw [h1]; exact h2
    exact ⟨l[t], lookup_ok.mpr (List.getElem?_eq_getElem h3)⟩
  have hw : (wind R S).length = 8760 := by
    unfold wind
    rw [List.length_zipWith, hy.windUser, hy.windData, min_self]
  have hg : (generation R S).length = 8760 := by
    unfold generation
    rw [List.length_zipWith, hw, hy.pv, min_self]
  intro k
  induction k with
  | zero => intro t nodes soc _; exact ⟨[], rfl⟩
  | succ k ih =>
    intro t nodes soc hk
    have ht : t < 8760 := by omega
    obtain ⟨heat, h1⟩ := look hy.heatDemand ht
    obtain ⟨price, h2⟩ := look hy.importPrice ht
    obtain ⟨row, h3⟩ := look hl ht
    obtain ⟨pv, h5⟩ := look hy.pv ht
    obtain ⟨elec, h6⟩ := look hy.elecDemand ht
    obtain ⟨gen, h7⟩ := look hg ht
    obtain ⟨wnd, h8⟩ := look hw ht
    obtain ⟨perf, h4⟩ : ∃ p, lookupPerf S.perf t = .ok p := by
      have h3 : t < S.perf.length := by rw [hy.perf]; exact ht
      exact ⟨S.perf[t], lookupPerf_ok.mpr (List.getElem?_eq_getElem h3)⟩
    obtain ⟨r, hr⟩ : ∃ r, hourStep R S rows t nodes soc = .ok r := by
      unfold hourStep
      simp only [h1, h2, h3, h4, h5, h6, h7, h8, bind, Except.bind, pure, Except.pure]
      by_cases hp : price > S.setpoint
      · obtain ⟨r, hr⟩ := step_accepts (R := R) (P := plant S) (i := hourIn t heat price row perf nodes soc) (b := false)
          (order := S.orderAbove) (fun s => htank _ _ _) (fun s q d => hnew _ _ _ _ _) hord.1
        rw [if_pos hp, hr]
        exact ⟨_, rfl⟩
      · obtain ⟨r, hr⟩ := step_accepts (R := R) (P := plant S) (i := hourIn t heat price row perf nodes soc) (b := true)
          (order := S.orderBelow) (fun s => htank _ _ _) (fun s q d => hnew _ _ _ _ _) hord.2
        rw [if_neg hp, hr]
        exact ⟨_, rfl⟩
    obtain ⟨rest, hrest⟩ := ih (t + 1) (r.ts.finalNodesTemp.getD nodes) r.es.finalSoc (by omega)
    refine ⟨r :: rest, ?_⟩
    simp only [runFrom, hr, hrest, bind, Except.bind, pure, Except.pure]

theorem runFrom_length {S : RunIn N} {rows : List Row} : ∀ {n t : ℕ} {nodes : N} {soc : ℚ}
    {rs : List (Results N)}, runFrom R S rows t n nodes soc = .ok rs → rs.length = n := by
  intro n
  induction n with
  | zero => intro t nodes soc rs h; cases h; rfl
  | succ n ih =>
    intro t nodes soc rs h
    simp only [runFrom, except_bind_ok, except_pure_ok] at h
    obtain ⟨r, -, rest, h2, h3⟩ := h
    rw [← h3, List.length_cons, ih h2]

/-- The split of generation with at most one rounding error. -/
theorem split_near {B ε : ℚ} (hr : Rounds R) (F : Fl R B ε) (hB : IsFloat R B) {g d : ℚ} (hg : IsFloat R g)
    (h1 : 0 ≤ g) (h2 : g ≤ B) (h3 : 0 ≤ d) (h4 : d ≤ B) :
    0 ≤ (splitHour R g d).surplus ∧ 0 ≤ (splitHour R g d).deficit ∧ (splitHour R g d).surplus ≤ g ∧
    (splitHour R g d).deficit ≤ B ∧ |(splitHour R g d).resUsed + (splitHour R g d).surplus - g| ≤ ε ∧
    |(splitHour R g d).resUsed + (splitHour R g d).deficit - d| ≤ ε := by
  have e0 := F.pos
  have k := F.near (x := g - d) (by linarith) (by linarith)
  have ku := hr.mono (g - d) g (by linarith)
  have kl := hr.mono (-B) (g - d) (by linarith)
  rw [hr.neg, hB] at kl
  rw [hg] at ku
  unfold splitHour
  dsimp only [Rounding.sub]
  rcases le_total g d with hle | hle
  · have hm := hr.mono (g - d) 0 (by linarith)
    rw [F.zero] at hm
    simp only [if_pos hm, min_eq_left hle, abs_le]
    refine ⟨le_rfl, ?_, h1, ?_, ⟨?_, ?_⟩, ?_, ?_⟩ <;> linarith [k.1, k.2]
  · have hm := F.nonneg (x := g - d) (by linarith)
    simp only [min_eq_right hle, abs_le]
    split_ifs with hz
    · refine ⟨le_rfl, ?_, h1, ?_, ⟨?_, ?_⟩, ?_, ?_⟩ <;> dsimp only <;> linarith [k.1, k.2]
    · refine ⟨hm, le_rfl, ku, ?_, ⟨?_, ?_⟩, ?_, ?_⟩ <;> dsimp only <;> linarith [k.1, k.2]

theorem tidy_hour {S : RunIn N} (ho : TidyOrders S) (price : ℚ) :
    (if price > S.setpoint then S.orderAbove else S.orderBelow).Nodup ∧
    TidyOrder (decide (price ≤ S.setpoint)) (if price > S.setpoint then S.orderAbove else S.orderBelow) := by
  by_cases hp : price > S.setpoint
  · rw [if_pos hp, decide_eq_false (not_le.mpr hp)]
    exact ⟨ho.above_nodup, ho.above_tidy⟩
  · rw [if_neg hp, decide_eq_true (not_lt.mp hp)]
    exact ⟨ho.below_nodup, ho.below_tidy⟩

/-- The largest element of a list of numbers none above `B`. -/
theorem listMax_le {l : List ℚ} {B : ℚ} (hl : l ≠ []) (h : ∀ x ∈ l, x ≤ B) : listMax l ≤ B := by
  have key : ∀ (xs : List ℚ) (a : ℚ), a ≤ B → (∀ x ∈ xs, x ≤ B) → xs.foldl max a ≤ B := by
    intro xs
    induction xs with
    | nil => intro a ha _; exact ha
    | cons x xs ih =>
      intro a ha hx
      exact ih _ (max_le ha (hx x (List.mem_cons_self ..))) (fun y hy => hx y (List.mem_cons_of_mem _ hy))
  cases l with
  | nil => exact absurd rfl hl
  | cons a t => exact key t a (h a (List.mem_cons_self ..)) (fun z hz => h z (List.mem_cons_of_mem _ hz))

/-- What holds in every hour of a run. -/
theorem run_near {B ε : ℚ} (hr : Rounds R) (F : Fl R B ε) {S : RunIn N} (H : RunOk S) (ho : TidyOrders S)
    (Z : SizedRun R S B) (hB : IsFloat R B) (hcap : IsFloat R S.es.capacity) (hsm : 2 ^ 41 * ε ≤ B)
    {first n : ℕ} {rs : List (Results N)} (h : runTimesteps R S first n = .ok rs) {r : Results N} (hm : r ∈ rs) :
    (3 ∈ S.orderAbove → 2 ∈ S.orderBelow →
      |r.elecDemand.res + r.elecDemand.es + r.elecDemand.imp - r.elecDemand.elecDemand| ≤ 65 * ε) ∧
    r.res.elecDemand + r.res.hp + r.res.aux + r.res.es + r.res.exp
      ≤ r.res.generationTotal + 2 ^ 19 * r.hp.cop * ε ∧
    FlowsAbove (2 ^ 18 * r.hp.cop * ε) r ∧ 1 ≤ r.hp.cop ∧ (∃ p ∈ S.perf, r.hp.cop = p.cop) ∧
    r.res.generationTotal ∈ generation R S := by
  have e0 := F.pos
  have hB1 := Z.one_le
  have hc0 := H.es.capacity_nonneg
  have hinit : 0 ≤ initState R S.es ∧ initState R S.es ≤ S.es.capacity := by
    refine ⟨F.nonneg (mul_nonneg H.es.init_nonneg hc0), ?_⟩
    have := F.mono _ _ (mul_le_of_le_one_left hc0 H.es.init_le_one)
    rw [hcap] at this
    exact this
  obtain ⟨t, nodes, soc, hsoc, hh⟩ := runFrom_mem (Q := fun x => 0 ≤ x ∧ x ≤ S.es.capacity)
    (fun _ _ _ _ h => hourStep_soc hc0 h) hinit (runTimesteps_ok h) r hm
  obtain ⟨heat, price, row, perf, gen, wnd, pv, elec, r0, O⟩ := hourStep_ok hh
  have hperf := List.mem_of_getElem? O.perfEq
  have hgen := List.mem_of_getElem? O.genEq
  have helec := List.mem_of_getElem? O.elecEq
  have hheat := List.mem_of_getElem? O.heatEq
  obtain ⟨z1, z2, z3, z4⟩ := Z.cop _ hperf
  obtain ⟨g0, g1⟩ := Z.generation _ hgen
  have g1 := g1 _ hperf
  obtain ⟨d0, d1⟩ := Z.elecDemand _ helec
  have hgB : gen ≤ B := by nlinarith
  have hrow : row = splitHour R gen elec := by
    have := O.rowEq
    rw [List.getElem?_zipWith, O.genEq, O.elecEq] at this
    exact (Option.some.inj this).symm
  have hgf : IsFloat R gen := by
    obtain ⟨w, p, -, -, e⟩ : ∃ w p, w ∈ wind R S ∧ p ∈ S.pv ∧ R.rnd (w + p) = gen := by
      have := O.genEq
      unfold generation at this
      rw [List.getElem?_zipWith] at this
      cases h1 : (wind R S)[t]? with
      | none => rw [h1] at this; cases this
      | some w =>
        cases h2 : S.pv[t]? with
        | none => rw [h1, h2] at this; cases this
        | some p =>
          rw [h1, h2] at this
          exact ⟨w, p, List.mem_of_getElem? h1, List.mem_of_getElem? h2, Option.some.inj this⟩
    rw [← e]
    exact hr.idem _
  obtain ⟨s1, s2, s3, s4, s5, s6⟩ := split_near hr F hB hgf g0 hgB d0 d1
  rw [← hrow] at s1 s2 s3 s4 s5 s6
  have St : StepOk (plant S) (hourIn t heat price row perf nodes soc) :=
    { es := H.es
      soc_nonneg := hsoc.1
      soc_le := hsoc.2
      surplus_nonneg := s1
      deficit_nonneg := s2
      heat_nonneg := H.heat_nonneg _ hheat
      heat_le_peak := le_listMax hheat
      cop_pos := H.cop_pos _ hperf
      duty_nonneg := H.duty_nonneg _ hperf
      zero_cap := fun hc => H.zero_cap hc _ hperf
      tank_nonneg := fun s m hm => H.tank_nonneg _ s _ m (List.getElem?_eq_some_iff.mp O.heatEq).1 hm }
  have Sz : Sized (plant S) (hourIn t heat price row perf nodes soc) B :=
    { one_le := hB1
      cop_ge := z1
      cop_le := z2
      deficit := s4
      peak := listMax_le (List.ne_nil_of_mem hheat) Z.heatDemand
      duty := z3
      chargeMax := Z.chargeMax
      surplus := le_trans (mul_le_mul_of_nonneg_right s3 (by linarith)) g1
      battery := z4
      tank := fun s m hm => Z.tank _ _ _ _ hm }
  obtain ⟨hnd, htidy⟩ := tidy_hour ho price
  obtain ⟨c, r1, hd, hmin⟩ := step_ok O.stepEq
  have L := dispatch_near F St Sz hsm hnd htidy hd
  have hcop := L.cop
  dsimp only at L hcop
  obtain ⟨k1, k2, k3, k4, k5⟩ := rule_keeps hmin
  obtain ⟨j1, j2, j3, j4⟩ := rule_res hmin
  have hcε : ε ≤ perf.cop * ε := by nlinarith
  have hcεB : perf.cop * ε ≤ 1000 * ε := by nlinarith
  have hfl := rule_flows St F (by positivity) (by dsimp only; linarith) hcop L.flows hmin
  have hres := L.res
  have hpump := L.pump
  have f1 := L.flows.res
  have f2 := L.flows.aux
  simp only [resSpent] at hres
  dsimp only at hres hcop f1 f2 hfl
  have q := F.near (x := r1.aux.resToDemand + r1.aux.resToTs) (by linarith [f2.1, f2.2])
    (by linarith [f1.1, f1.2.1, f1.2.2.1, f1.2.2.2])
  have hcop' : r.hp.cop = perf.cop := by rw [O.resultEq]; exact j1.trans hcop
  rw [hcop']
  refine ⟨fun ha hb => ?_, ?_, ?_, z1, ⟨_, hperf, rfl⟩, by rw [O.resultEq]; exact hgen⟩
  · have himp : (numbers (decide (price ≤ S.setpoint))).importToDemand
        ∈ (if price > S.setpoint then S.orderAbove else S.orderBelow) := by
      by_cases hp : price > S.setpoint
      · rw [if_pos hp, decide_eq_false (not_le.mpr hp)]; exact ha
      · rw [if_neg hp, decide_eq_true (not_lt.mp hp)]; exact hb
    have he := abs_le.mp (L.elecMet himp)
    dsimp only at he
    rw [O.resultEq]
    simp only [complete, k1]
    have := abs_le.mp s6
    rw [abs_le]
    constructor <;> linarith [he.1, he.2, this.1, this.2]
  · rw [O.resultEq]
    simp only [complete, k4, k5, j2, j3]
    have := abs_le.mp s5
    show _ + R.rnd _ + _ + _ ≤ _
    rcases j4 with j4 | j4 <;> rw [j4] <;>
      linarith [this.1, this.2, q.1, q.2, f1.1, f1.2.1]
  · have hfl2 := flowsAbove_weaken (show _ ≤ 2 ^ 18 * perf.cop * ε by linarith) hfl
    rw [O.resultEq]
    obtain ⟨a1, b1, c1, d1, e1, f1, g1, h1, i1⟩ := hfl2
    exact ⟨a1, b1, c1, d1, e1, f1, g1, h1, i1⟩

end Rounded
end Verif
