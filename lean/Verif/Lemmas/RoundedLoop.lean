import Verif.Lemmas.Rounded
import Mathlib.Data.List.Perm.Subperm

/-!
# The whole process loop with rounding
-/

set_option autoImplicit false

namespace Verif
open Spec FixedOrder
namespace Rounded
variable {N : Type} {R : Rounding} {B ε : ℚ}

/-! ### Size of the errors -/

/-- All processes. -/
def allProcesses : List Process :=
  [.resToDemand, .esToDemand, .importToDemand, .hpResToDemand, .eauxResToDemand, .tsToDemand, .esToHpToDemand,
    .hpImportToDemand, .auxToDemand, .hpResToTs, .eauxResToTs, .hpImportToTs, .resToEs, .importToEs, .resToExport]

theorem weight_ge (p : Process) : 1 ≤ weight p := by cases p <;> norm_num [weight]

/-- Product of the weights. -/
def weights : List Process → ℚ
  | [] => 1
  | p :: ps => weight p * weights ps

theorem weights_ge (l : List Process) : 1 ≤ weights l := by
  induction l with
  | nil => exact le_rfl
  | cons p l ih => unfold weights; nlinarith [weight_ge p]

theorem weights_perm {l l' : List Process} (h : l.Perm l') : weights l = weights l' := by
  induction h with
  | nil => rfl
  | cons p _ ih => simp only [weights, ih]
  | swap p q l => simp only [weights]; ring
  | trans _ _ ih1 ih2 => exact ih1.trans ih2

theorem weights_sublist {l l' : List Process} (h : l.Sublist l') : weights l ≤ weights l' := by
  induction h with
  | slnil => exact le_rfl
  | @cons l₁ l₂ p hl ih =>
    have h1 := weights_ge l₂
    have h2 := weight_ge p
    show weights l₁ ≤ weight p * weights l₂
    nlinarith
  | cons_cons p hl ih =>
    unfold weights
    nlinarith [weight_ge p]

theorem subperm_all {l : List Process} (h : l.Nodup) : l.Subperm allProcesses :=
  h.subperm (fun p _ => by cases p <;> decide)

theorem length_le {l : List Process} (h : l.Nodup) : l.length ≤ 15 := (subperm_all h).length_le

theorem weights_le {l : List Process} (h : l.Nodup) : weights l ≤ 192 := by
  obtain ⟨l', hp, hs⟩ := subperm_all h
  rw [← weights_perm hp]
  refine (weights_sublist hs).trans ?_
  norm_num [weights, allProcesses, weight]

theorem slack_nonneg {E : ℚ} (hE : 0 ≤ E) (l : List Process) : 0 ≤ slack E l := by
  induction l with
  | nil => exact le_rfl
  | cons p l ih => unfold slack; nlinarith [weight_ge p]

theorem slack_le_weights {E : ℚ} (hE : 0 ≤ E) (l : List Process) : slack E l ≤ weights l * l.length * E := by
  induction l with
  | nil => simp [slack]
  | cons p l ih =>
    have h1 := weight_ge p
    have h2 := weights_ge l
    have h3 : slack E (p :: l) ≤ weight p * (weights l * l.length * E) + E := by
      unfold slack; nlinarith
    have h4 : 1 * 1 ≤ weight p * weights l := mul_le_mul h1 h2 (by norm_num) (by linarith)
    have h5 : E ≤ weight p * weights l * E := by nlinarith
    simp only [weights, List.length_cons, Nat.cast_add, Nat.cast_one]
    nlinarith

theorem slack_le {E : ℚ} (hE : 0 ≤ E) {l : List Process} (h : l.Nodup) : slack E l ≤ 2880 * E := by
  have h1 := slack_le_weights hE l
  have h2 := weights_le h
  have h3 := weights_ge l
  have h4 : (l.length : ℚ) ≤ 15 := by exact_mod_cast length_le h
  have h5 : (0 : ℚ) ≤ l.length := by positivity
  have h6 : weights l * l.length ≤ 192 * 15 := mul_le_mul h2 h4 h5 (by norm_num)
  nlinarith

theorem slack_mono {E : ℚ} (hE : 0 ≤ E) (p : Process) (l : List Process) : slack E l + E ≤ slack E (p :: l) := by
  have := slack_nonneg hE l
  show slack E l + E ≤ weight p * slack E l + E
  nlinarith [weight_ge p]

theorem slack_time {E : ℚ} (h : 3 * ε ≤ E) (hE : 0 ≤ E) (l : List Process) : 3 * ε * l.length ≤ slack E l := by
  induction l with
  | nil => simp [slack]
  | cons p l ih =>
    have := slack_mono hE p l
    simp only [List.length_cons, Nat.cast_add, Nat.cast_one]
    linarith

/-! ### Accounts -/

/-- Energy accounts between checks and results, within `δ`. -/
structure BalNear (i : StepIn N) (δ : ℚ) (c : Checks) (r : Results N) : Prop where
  elec : |c.elecUnmet + r.elecDemand.es + r.elecDemand.imp - i.deficit| ≤ δ
  res : |c.resLeft + r.res.hpToHeatDemand + r.res.hpToTs + r.aux.resToDemand + r.aux.resToTs
    + r.res.es + r.res.exp - i.surplus| ≤ δ
  heat : |c.heatUnmet + r.heatDemand.hpRes + r.heatDemand.hpImport + r.heatDemand.hpEs
    + r.heatDemand.ts + r.heatDemand.aux + r.aux.resToDemand - i.heatDemand| ≤ δ

theorem amount_scalar {P : Plant N} {i : StepIn N} {c : Checks} {p : Process} {a : Amt}
    (h : amount R P i c p = .ok a) (hp : isScalar p = true) : a.h = a.e := by
  cases p <;> simp [isScalar] at hp <;> simp only [amount] at h <;>
    first
    | (cases h; rfl)
    | (simp only [except_bind_ok, except_pure_ok] at h; obtain ⟨m, _, h⟩ := h; cases h; rfl)
    | (split_ifs at h
       · simp only [except_bind_ok, except_pure_ok] at h; obtain ⟨m, _, h⟩ := h; cases h; rfl
       · cases h; rfl)

theorem balNear_step {P : Plant N} {i : StepIn N} (F : Fl R B ε) {c : Checks} {r : Results N} {p : Process} {a : Amt}
    {δ : ℚ} (ha : amount R P i c p = .ok a) (hf : Fresh p r) (h : BalNear i δ c r) (hB : 0 ≤ B)
    (he : |c.elecUnmet| ≤ 2 * B) (hh : |c.heatUnmet| ≤ 2 * B) (hr : |c.resLeft| ≤ 2 * B)
    (h1 : |a.h| ≤ 2 * B) (h2 : |a.e| ≤ 2 * B) : BalNear i (δ + ε) (update R p a c) (record p a r) := by
  have hs := amount_scalar ha
  have e0 := F.pos
  rw [abs_le] at he hh hr h1 h2
  have k1 := F.near (x := c.elecUnmet - a.e) (by linarith) (by linarith)
  have k2 := F.near (x := c.heatUnmet - a.h) (by linarith) (by linarith)
  have k3 := F.near (x := c.resLeft - a.e) (by linarith) (by linarith)
  obtain ⟨b1, b2, b3⟩ := h
  rw [abs_le] at b1 b2 b3
  cases p <;> simp only [Fresh] at hf <;>
    constructor <;> simp only [update, record, Rounding.sub] <;> rw [abs_le] <;> constructor <;>
    first
    | linarith
    | (have := hs rfl; linarith)

/-- What the processes reported lies between `-σ` and `2 B`. -/
structure Flows (σ B : ℚ) (r : Results N) : Prop where
  es : -σ ≤ r.elecDemand.es ∧ r.elecDemand.es ≤ 2 * B
  imp : -σ ≤ r.elecDemand.imp ∧ r.elecDemand.imp ≤ 2 * B
  hResD : -σ ≤ r.hp.heatFromResToDemand ∧ r.hp.heatFromResToDemand ≤ 2 * B
  eResD : -σ ≤ r.hp.elecFromResToDemand ∧ r.hp.elecFromResToDemand ≤ 2 * B
  hImpD : -σ ≤ r.hp.heatFromImportToDemand ∧ r.hp.heatFromImportToDemand ≤ 2 * B
  eImpD : -σ ≤ r.hp.elecFromImportToDemand ∧ r.hp.elecFromImportToDemand ≤ 2 * B
  hEsD : -σ ≤ r.hp.heatFromEsToDemand ∧ r.hp.heatFromEsToDemand ≤ 2 * B
  eEsD : -σ ≤ r.hp.elecFromEsToDemand ∧ r.hp.elecFromEsToDemand ≤ 2 * B
  hResTs : -σ ≤ r.hp.heatFromResToTs ∧ r.hp.heatFromResToTs ≤ 2 * B
  eResTs : -σ ≤ r.hp.elecFromResToTs ∧ r.hp.elecFromResToTs ≤ 2 * B
  hImpTs : -σ ≤ r.hp.heatFromImportToTs ∧ r.hp.heatFromImportToTs ≤ 2 * B
  eImpTs : -σ ≤ r.hp.elecFromImportToTs ∧ r.hp.elecFromImportToTs ≤ 2 * B
  ts : -σ ≤ r.ts.dischargingTotal ∧ r.ts.dischargingTotal ≤ 2 * B
  aux : -σ ≤ r.heatDemand.aux ∧ r.heatDemand.aux ≤ 2 * B
  auxResD : -σ ≤ r.aux.resToDemand ∧ r.aux.resToDemand ≤ 2 * B
  auxResTs : -σ ≤ r.aux.resToTs ∧ r.aux.resToTs ≤ 2 * B
  esRes : -σ ≤ r.es.chargingFromRes ∧ r.es.chargingFromRes ≤ 2 * B
  esImp : -σ ≤ r.es.chargingFromImport ∧ r.es.chargingFromImport ≤ 2 * B
  exp : -σ ≤ r.grid.totalExport ∧ r.grid.totalExport ≤ 2 * B

theorem flows_init (P : Plant N) (i : StepIn N) (b : Bool) (hB : 0 ≤ B) : Flows 0 B (initResults P i b) := by
  constructor <;> simp [initResults, hB]

theorem flows_record {r : Results N} (p : Process) {a : Amt} {σ σ' : ℚ} (hσ : σ ≤ σ') (h : Flows σ B r)
    (h1 : AmtNear B σ' a) : Flows σ' B (record p a r) := by
  have key : ∀ {x : ℚ}, -σ ≤ x ∧ x ≤ 2 * B → -σ' ≤ x ∧ x ≤ 2 * B := fun h => ⟨by linarith [h.1], h.2⟩
  obtain ⟨c1, c2, c3, c4, c5, c6, c7, c8, c9, c10, c11, c12, c13, c14, c15, c16, c17, c18, c19⟩ := h
  replace c1 := key c1; replace c2 := key c2; replace c3 := key c3; replace c4 := key c4; replace c5 := key c5
  replace c6 := key c6; replace c7 := key c7; replace c8 := key c8; replace c9 := key c9; replace c10 := key c10
  replace c11 := key c11; replace c12 := key c12; replace c13 := key c13; replace c14 := key c14
  replace c15 := key c15; replace c16 := key c16; replace c17 := key c17; replace c18 := key c18
  replace c19 := key c19
  have ah : -σ' ≤ a.h ∧ a.h ≤ 2 * B := ⟨h1.h0, h1.h1⟩
  have ae : -σ' ≤ a.e ∧ a.e ≤ 2 * B := ⟨h1.e0, h1.e1⟩
  cases p <;> constructor <;> dsimp only [record] <;> assumption

/-! ### The loop -/

/-- A process loop over a list of processes. -/
theorem runOrder_procs {P : Plant N} {i : StepIn N} {key : ℤ → Except PyErr Process}
    {Inv : List Process → Checks × Results N → Prop}
    (hstep : ∀ done p c r a, amount R P i c p = .ok a → Inv done (c, r) →
      Inv (p :: done) (update R p a c, record p a r)) :
    ∀ order done s s', runOrder R P i key order s = .ok s' → Inv done s →
      ∃ ps, List.Forall₂ (fun n p => key n = .ok p) order ps ∧ Inv (ps.reverse ++ done) s' := by
  intro order
  induction order with
  | nil => intro done s s' h hi; cases h; exact ⟨[], .nil, hi⟩
  | cons n ns ih =>
    intro done s s' h hi
    simp only [runOrder, except_bind_ok] at h
    obtain ⟨p, hp, s1, h1, h2⟩ := h
    simp only [runProcess, except_bind_ok, except_pure_ok] at h1
    obtain ⟨a, ha, rfl⟩ := h1
    obtain ⟨ps, hps, hinv⟩ := ih (p :: done) _ _ h2 (hstep done p s.1 s.2 a ha hi)
    exact ⟨p :: ps, .cons hp hps, by simpa using hinv⟩

/-- State after the processes `done`. -/
structure LoopNear (P : Plant N) (i : StepIn N) (b : Bool) (B ε E : ℚ) (done : List Process) (c : Checks)
    (r : Results N) : Prop where
  fresh : ∀ q, q ∉ done → Fresh q r
  frame : Frame P i b r
  copies : Copies r
  near : Near P i B ε (slack E done) (3 * ε * done.length) done c
  bal : BalNear i (ε * done.length) c r
  flows : Flows (slack E done) B r

theorem loopNear_init {P : Plant N} {i : StepIn N} (H : StepOk P i) (Z : Sized P i B) (he : 0 ≤ ε) (b : Bool)
    (E : ℚ) : LoopNear P i b B ε E [] (initChecks P i) (initResults P i b) where
  fresh := fun q _ => fresh_init P i b q
  frame := by constructor <;> simp [initResults]
  copies := by constructor <;> simp [initResults]
  near := by
    have hB := Z.one_le
    have hpk := H.heat_le_peak
    have hp := Z.peak
    have hh := H.heat_nonneg
    constructor
    case room => intro m hm _; have := H.tank_nonneg _ m hm; simp only [initChecks, slack]; linarith
    case avail => intro m hm; have := H.tank_nonneg _ m hm; simp only [initChecks, slack]; linarith
    case a1 => left; simp only [initChecks, slack]; constructor <;> linarith
    case a0 => intro _; simp only [initChecks, slack]; linarith
    case u1 => intro _; have := H.duty_nonneg; simp [initChecks]; linarith
    case s0 => intro _; simpa [initChecks] using H.soc_nonneg
    case s1 => intro _; simpa [initChecks, slack] using H.soc_le
    case e0 => exact H.deficit_nonneg
    case h0 => exact H.heat_nonneg
    case r0 => simpa [initChecks] using H.surplus_nonneg
    case d1 => simp only [initChecks, slack]; linarith
    case c1 => simp only [initChecks, slack]; linarith
    all_goals simp [initChecks, slack]
  bal := by constructor <;> simp [initResults, initChecks]
  flows := flows_init P i b (by linarith [Z.one_le])

theorem loopNear_step {P : Plant N} {i : StepIn N} (F : Fl R B ε) (H : StepOk P i) (Z : Sized P i B) {b : Bool}
    {done : List Process} {c : Checks} {p : Process} {r : Results N} {a : Amt} (ha : amount R P i c p = .ok a)
    (hnd : (p :: done).Nodup) (h1 : Safe1 (p :: done)) (h2 : Safe2 (p :: done)) (h5 : Safe5 (p :: done)) {E : ℚ}
    (hE : E = 64 * i.perf.cop * ε) (hsm : 8 * i.perf.cop * (2880 * E) ≤ B) (h : LoopNear P i b B ε E done c r) :
    LoopNear P i b B ε E (p :: done) (update R p a c) (record p a r) := by
  have hB := Z.one_le
  have hc := Z.cop_ge
  have e0 := F.pos
  have hE0 : 64 * ε ≤ E := by rw [hE]; nlinarith
  have hE1 : 0 ≤ E := by linarith
  rw [List.nodup_cons] at hnd
  obtain ⟨hn, hd⟩ := hnd
  have hsl := slack_le hE1 (List.nodup_cons.mpr ⟨hn, hd⟩)
  have hsl0 := slack_nonneg hE1 done
  have hlen : (done.length : ℚ) ≤ 14 := by
    have := length_le (List.nodup_cons.mpr ⟨hn, hd⟩)
    simp only [List.length_cons] at this
    exact_mod_cast (by omega : done.length ≤ 14)
  have hlen0 : (0 : ℚ) ≤ done.length := by positivity
  have z : Sizes i.perf.cop B ε E (slack E done) (3 * ε * done.length) (slack E (p :: done))
      (3 * ε * (p :: done).length) (weight p) :=
    { hE := hE, hs0 := hsl0, hs' := rfl, hw := weight_ge p
      hsm := by nlinarith
      ht0 := by positivity
      ht := by nlinarith
      ht' := by simp only [List.length_cons, Nat.cast_add, Nat.cast_one]; ring
      hts := slack_time (by linarith) hE1 done
      cop1 := hc
      eps := e0 }
  obtain ⟨hnear, hamt⟩ := near_step F H Z ha hn h1 h2 h5 z h.near
  obtain ⟨e1, e2, e3, e4, e5, e6, e7, e8, e9, e10, e11, -, hdu, hdu2, -, hpk, hsu, hsu2, hcp, hcp2, hdf, hdf0, hhd⟩ :=
    z.facts H Z
  have n1 := h.near.e0
  have n2 := h.near.e1
  have n3 := h.near.h0
  have n4 := h.near.h1
  have n5 := h.near.r0
  have n6 := h.near.r1
  have am := hamt
  obtain ⟨m1, m2, m3, m4⟩ := am
  refine ⟨?_, frame_record p a h.frame, copies_record p a h.copies, hnear, ?_, ?_⟩
  · intro q hq
    rw [List.mem_cons, not_or] at hq
    exact fresh_record (Ne.symm hq.1) a (h.fresh q hq.2)
  · have := balNear_step F ha (h.fresh p hn) h.bal (by linarith)
      (abs_le.mpr ⟨by linarith, by linarith⟩) (abs_le.mpr ⟨by linarith, by linarith⟩)
      (abs_le.mpr ⟨by linarith, by linarith⟩) (abs_le.mpr ⟨by linarith, by linarith⟩)
      (abs_le.mpr ⟨by linarith, by linarith⟩)
    have hl : ε * (p :: done).length = ε * done.length + ε := by
      simp only [List.length_cons, Nat.cast_add, Nat.cast_one]; ring
    rw [hl]
    exact this
  · exact flows_record p (by linarith) h.flows hamt

theorem safe5_done {b : Bool} {order : List ℤ} {ps : List Process}
    (hf : List.Forall₂ (fun n p => keyOf b n = .ok p) order ps)
    (hs : b = true → ∀ q ∈ ([3, 8] : List ℤ), ¬ [14, q].Sublist order) : Safe5 ps.reverse := by
  intro q hq h
  have h' := List.reverse_sublist.mpr h
  rw [List.reverse_reverse] at h'
  cases b with
  | false => exact (forall₂_noTwelve hf).2 (h'.subset (by simp))
  | true =>
    simp only [List.mem_cons, List.not_mem_nil, or_false] at hq
    rcases hq with rfl | rfl
    · exact hs rfl 3 (by simp) (sublist_of_procs hf (.cons rfl (.cons rfl .nil)) h')
    · exact hs rfl 8 (by simp) (sublist_of_procs hf (.cons rfl (.cons rfl .nil)) h')

/-- The loop over a tidy order without repeats. -/
theorem loop_near {P : Plant N} {i : StepIn N} (F : Fl R B ε) (H : StepOk P i) (Z : Sized P i B) {b : Bool}
    {order : List ℤ} (hnd : order.Nodup) (ht : TidyOrder b order) {E : ℚ} (hE : E = 64 * i.perf.cop * ε)
    (hsm : 8 * i.perf.cop * (2880 * E) ≤ B) {s : Checks × Results N}
    (h : runOrder R P i (keyOf b) order (initChecks P i, initResults P i b) = .ok s) :
    ∃ ps, List.Forall₂ (fun n p => keyOf b n = .ok p) order ps ∧ ps.Nodup ∧
      LoopNear P i b B ε E ps.reverse s.1 s.2 := by
  obtain ⟨ps, hf, hi⟩ := runOrder_procs (R := R) (P := P) (i := i)
    (Inv := fun done s => done.Nodup → Safe1 done → Safe2 done → Safe5 done → LoopNear P i b B ε E done s.1 s.2)
    (fun done p c r a ha hi hd h1 h2 h5 =>
      loopNear_step F H Z ha hd h1 h2 h5 hE hsm
        (hi (List.nodup_cons.mp hd).2 h1.tail h2.tail h5.tail)) order [] _ _ h
    (fun _ _ _ _ => loopNear_init H Z F.pos b E)
  rw [List.append_nil] at hi
  have hnp := nodup_procs hf hnd
  exact ⟨ps, hf, hnp, hi (List.nodup_reverse.mpr hnp) (safe1_done hf ht.1.1) (safe2_done hf ht.1.2)
    (safe5_done hf ht.2)⟩

end Rounded
end Verif
