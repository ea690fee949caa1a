import Verif.Lemmas.NoStores

/-!
# What a timestep without stores adds up to
-/

set_option autoImplicit false

namespace Verif.FixedOrder
open Spec
variable {N : Type}

/-- The accounts of a timestep without stores, `done` being the processes already run. -/
structure Ledger (i : StepIn N) (done : List Process) (c : Checks) (r : Results N) : Prop where
  elec : r.grid.importForElecDemand + c.elecUnmet = i.deficit
  heat : r.hp.heatFromResToDemand + r.hp.heatFromImportToDemand + r.aux.resToDemand + r.heatDemand.aux
    + c.heatUnmet = i.heatDemand
  res : r.hp.heatFromResToDemand / i.perf.cop + r.aux.resToDemand + r.grid.totalExport + c.resLeft = i.surplus
  usage : r.hp.heatFromResToDemand + r.hp.heatFromImportToDemand = c.hpUsage
  pump : r.grid.importForHeatPumpToHeatDemand = r.hp.heatFromImportToDemand / i.perf.cop
  nonneg : 0 ≤ r.grid.importForElecDemand ∧ 0 ≤ r.hp.heatFromResToDemand ∧ 0 ≤ r.hp.heatFromImportToDemand ∧
    0 ≤ r.aux.resToDemand ∧ 0 ≤ r.heatDemand.aux ∧ 0 ≤ r.grid.totalExport
  none : r.grid.importForHeatPumpToTs = 0 ∧ r.grid.importForEs = 0 ∧ r.aux.resToTs = 0
  first : (Process.importToDemand ∉ done → r.grid.importForElecDemand = 0) ∧
    (Process.hpResToDemand ∉ done → r.hp.heatFromResToDemand = 0) ∧
    (Process.hpImportToDemand ∉ done → r.hp.heatFromImportToDemand = 0) ∧
    (Process.eauxResToDemand ∉ done → r.aux.resToDemand = 0) ∧
    (Process.auxToDemand ∉ done → r.heatDemand.aux = 0) ∧
    (Process.resToExport ∉ done → r.grid.totalExport = 0)
  met : (Process.importToDemand ∈ done → c.elecUnmet = 0) ∧ (Process.auxToDemand ∈ done → c.heatUnmet = 0) ∧
    (Process.resToExport ∈ done → c.resLeft = 0)

theorem ledger_step {P : Plant N} {i : StepIn N} (H : StepOk P i) {done : List Process} {c : Checks}
    (I : Idle P i c) {p : Process} (hp : p ∉ done) {r : Results N} (h : Ledger i done c r) :
    Ledger i (p :: done) (update p (plain P i c p) c) (record p (plain P i c p) r) := by
  have J := idle_step H I p
  obtain ⟨-, j1, j2, -⟩ := J
  obtain ⟨e0, h0, r0, g0, g1, a0, -⟩ := I
  obtain ⟨l1, l2, l3, l4, l5, ⟨n1, n2, n3, n4, n5, n6⟩, ⟨z1, z2, z3⟩, ⟨f1, f2, f3, f4, f5, f6⟩, ⟨m1, m2, m3⟩⟩ := h
  have hc := H.cop_pos
  have hsp : 0 ≤ i.perf.duty - c.hpUsage := by linarith
  have hm : 0 ≤ c.resLeft * i.perf.cop := mul_nonneg r0 hc.le
  have nn : ∀ {q : Process}, q ∉ p :: done → q ∉ done := fun hq hm => hq (List.mem_cons_of_mem _ hm)
  have self : p ∉ p :: done → False := fun hq => hq List.mem_cons_self
  have back : ∀ {q : Process}, q ∈ p :: done → q ≠ p → q ∈ done := fun hq hne =>
    (List.mem_cons.mp hq).resolve_left hne
  cases p
  case importToDemand =>
    have z := f1 hp
    refine ⟨?_, l2, l3, l4, l5, ⟨e0, n2, n3, n4, n5, n6⟩, ⟨z1, z2, z3⟩,
      ⟨fun hq => (self hq).elim, fun hq => f2 (nn hq), fun hq => f3 (nn hq), fun hq => f4 (nn hq), fun hq => f5 (nn hq),
        fun hq => f6 (nn hq)⟩, ⟨fun _ => ?_, fun hq => m2 (back hq (by decide)), fun hq => m3 (back hq (by decide))⟩⟩
    · simp only [plain, record, update]; linarith
    · simp only [plain, update]; ring
  case hpResToDemand =>
    have z := f2 hp
    simp only [plain, record, update] at j1 j2 ⊢
    set x := min (c.resLeft * i.perf.cop) (min c.heatUnmet (i.perf.duty - c.hpUsage)) with hx
    have x0 : 0 ≤ x := le_min hm (le_min h0 hsp)
    have xc : 0 ≤ x / i.perf.cop := div_nonneg x0 hc.le
    rw [z] at l2 l3 l4
    rw [zero_div] at l3
    refine ⟨l1, ?_, ?_, ?_, l5, ⟨n1, x0, n3, n4, n5, n6⟩, ⟨z1, z2, z3⟩,
      ⟨fun hq => f1 (nn hq), fun hq => (self hq).elim, fun hq => f3 (nn hq), fun hq => f4 (nn hq), fun hq => f5 (nn hq),
        fun hq => f6 (nn hq)⟩, ⟨fun hq => m1 (back hq (by decide)), fun hq => ?_, fun hq => ?_⟩⟩
    · dsimp only; linarith
    · dsimp only; linarith
    · dsimp only; linarith
    · have := m2 (back hq (by decide)); dsimp only; linarith
    · have := m3 (back hq (by decide)); dsimp only; linarith
  case eauxResToDemand =>
    have z := f4 hp
    have y0 : 0 ≤ min c.resLeft c.heatUnmet := le_min r0 h0
    rw [z] at l2 l3
    simp only [plain, record, update] at j1 j2 ⊢
    split_ifs at j1 j2 ⊢ with he
    · refine ⟨l1, ?_, ?_, l4, l5, ⟨n1, n2, n3, y0, n5, n6⟩, ⟨z1, z2, z3⟩,
        ⟨fun hq => f1 (nn hq), fun hq => f2 (nn hq), fun hq => f3 (nn hq), fun hq => (self hq).elim,
          fun hq => f5 (nn hq), fun hq => f6 (nn hq)⟩,
        ⟨fun hq => m1 (back hq (by decide)), fun hq => ?_, fun hq => ?_⟩⟩
      · dsimp only; linarith
      · dsimp only; linarith
      · have := m2 (back hq (by decide)); dsimp only at j1 ⊢; linarith
      · have := m3 (back hq (by decide)); dsimp only at j2 ⊢; linarith
    · refine ⟨l1, ?_, ?_, l4, l5, ⟨n1, n2, n3, le_rfl, n5, n6⟩, ⟨z1, z2, z3⟩,
        ⟨fun hq => f1 (nn hq), fun hq => f2 (nn hq), fun hq => f3 (nn hq), fun hq => (self hq).elim,
          fun hq => f5 (nn hq), fun hq => f6 (nn hq)⟩,
        ⟨fun hq => m1 (back hq (by decide)), fun hq => ?_, fun hq => ?_⟩⟩
      · dsimp only; linarith
      · dsimp only; linarith
      · have := m2 (back hq (by decide)); dsimp only at j1 ⊢; linarith
      · have := m3 (back hq (by decide)); dsimp only at j2 ⊢; linarith
  case hpImportToDemand =>
    have z := f3 hp
    simp only [plain, record, update] at j1 j2 ⊢
    set x := min c.heatUnmet (i.perf.duty - c.hpUsage) with hx
    have x0 : 0 ≤ x := le_min h0 hsp
    rw [z] at l2 l4
    refine ⟨l1, ?_, l3, ?_, rfl, ⟨n1, n2, x0, n4, n5, n6⟩, ⟨z1, z2, z3⟩,
      ⟨fun hq => f1 (nn hq), fun hq => f2 (nn hq), fun hq => (self hq).elim, fun hq => f4 (nn hq), fun hq => f5 (nn hq),
        fun hq => f6 (nn hq)⟩, ⟨fun hq => m1 (back hq (by decide)), fun hq => ?_, fun hq => m3 (back hq (by decide))⟩⟩
    · dsimp only; linarith
    · dsimp only; linarith
    · have := m2 (back hq (by decide)); dsimp only; linarith
  case auxToDemand =>
    have z := f5 hp
    rw [z] at l2
    refine ⟨l1, ?_, l3, l4, l5, ⟨n1, n2, n3, n4, h0, n6⟩, ⟨z1, z2, z3⟩,
      ⟨fun hq => f1 (nn hq), fun hq => f2 (nn hq), fun hq => f3 (nn hq), fun hq => f4 (nn hq),
        fun hq => (self hq).elim, fun hq => f6 (nn hq)⟩,
      ⟨fun hq => m1 (back hq (by decide)), fun _ => ?_, fun hq => m3 (back hq (by decide))⟩⟩
    · simp only [plain, record, update]; linarith
    · simp only [plain, update]; ring
  case resToExport =>
    have z := f6 hp
    rw [z] at l3
    refine ⟨l1, l2, ?_, l4, l5, ⟨n1, n2, n3, n4, n5, r0⟩, ⟨z1, z2, z3⟩,
      ⟨fun hq => f1 (nn hq), fun hq => f2 (nn hq), fun hq => f3 (nn hq), fun hq => f4 (nn hq),
        fun hq => f5 (nn hq), fun hq => (self hq).elim⟩,
      ⟨fun hq => m1 (back hq (by decide)), fun hq => m2 (back hq (by decide)), fun _ => ?_⟩⟩
    · simp only [plain, record, update]; linarith
    · simp only [plain, update]; ring
  all_goals
    simp only [plain, record, update, sub_zero, add_zero]
    refine ⟨l1, l2, l3, l4, l5, ⟨n1, n2, n3, n4, n5, n6⟩, ?_,
      ⟨fun hq => f1 (nn hq), fun hq => f2 (nn hq), fun hq => f3 (nn hq), fun hq => f4 (nn hq),
        fun hq => f5 (nn hq), fun hq => f6 (nn hq)⟩,
      ⟨fun hq => m1 (back hq (by decide)), fun hq => m2 (back hq (by decide)), fun hq => m3 (back hq (by decide))⟩⟩
    first | exact ⟨z1, z2, z3⟩ | exact ⟨rfl, z2, z3⟩ | exact ⟨z1, rfl, z3⟩ | exact ⟨z1, z2, rfl⟩

theorem ledger_loop {P : Plant N} {i : StepIn N} (H : StepOk P i) (hn : NoStores P i) :
    ∀ (ps done : List Process) (s t : Checks × Results N), ps.Nodup → (∀ p ∈ ps, p ∉ done) →
      runProcs P i ps s = .ok t → Idle P i s.1 → Ledger i done s.1 s.2 →
      Idle P i t.1 ∧ Ledger i (ps.reverse ++ done) t.1 t.2 := by
  intro ps
  induction ps with
  | nil => intro done s t _ _ h I L; cases h; exact ⟨I, L⟩
  | cons p ps ih =>
    intro done s t hnd hdone h I L
    simp only [runProcs, except_bind_ok] at h
    obtain ⟨s1, h1, h2⟩ := h
    obtain ⟨a, ha, rfl⟩ := runProcess_ok h1
    have ea := amount_plain H hn I ha
    subst ea
    have hp : p ∉ done := hdone p List.mem_cons_self
    obtain ⟨hp1, hnd'⟩ := List.nodup_cons.mp hnd
    have := ih (p :: done) _ t hnd' ?_ h2 (idle_step H I p) (ledger_step H I hp L)
    · simpa only [List.reverse_cons, List.append_assoc, List.singleton_append] using this
    intro q hq hqd
    rcases List.mem_cons.mp hqd with rfl | hqd
    · exact hp1 hq
    · exact hdone q (List.mem_cons_of_mem _ hq) hqd

/-- A timestep without stores, in terms of the entries before the totals. -/
theorem step_ledger {P : Plant N} {i : StepIn N} (H : StepOk P i) (hn : NoStores P i) {b : Bool} {order : List ℤ}
    (hnd : order.Nodup) {r : Results N} (h : step P i b order = .ok r) :
    ∃ ps q c n, List.Forall₂ (fun n p => keyOf b n = .ok p) order ps ∧ Idle P i c ∧ Ledger i ps.reverse c q ∧
      Frame P i b q ∧ r.grid = (totals2 P i b n (totals1 P b q)).grid := by
  obtain ⟨c, r1, hd, hr⟩ := step_ok h
  obtain ⟨q, n, hq, e1⟩ := dispatch_ok hd
  dsimp only at e1 hq
  obtain ⟨g1, -⟩ := rule_grid hr
  obtain ⟨ps, hf, hp⟩ := runOrder_ok hq
  have hfr : Frame P i b q := runProcs_induct (fun _ s => Frame P i b s.2)
    (fun _ p _ _ a _ hh => frame_record p a hh) ps [] _ _ hp ⟨rfl, rfl, rfl, rfl, rfl, rfl, rfl⟩
  have L0 : Ledger i [] (initChecks P i) (initResults P i b) := by
    constructor <;> simp [initChecks, initResults]
  obtain ⟨I, L⟩ := ledger_loop H hn ps [] _ _ (nodup_procs hf hnd) (fun _ _ hh => by cases hh) hp (idle_init H hn) L0
  rw [List.append_nil] at L
  exact ⟨ps, q, c, n, hf, I, L, hfr, by rw [g1, e1]⟩

end Verif.FixedOrder
