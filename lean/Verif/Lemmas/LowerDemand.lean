import Verif.Lemmas.NoStores
import Verif.Spec.LowerDemand

/-!
# A timestep without stores, run twice with different demands
-/

set_option autoImplicit false

namespace Verif.FixedOrder
open Spec
variable {N : Type}

/-- The checks of a timestep and of the same timestep with less demand or more generation. -/
structure Easier (c c' : Checks) : Prop where
  elec : c'.elecUnmet ≤ c.elecUnmet
  res : c.resLeft ≤ c'.resLeft
  heat : c'.heatUnmet ≤ c.heatUnmet
  pump : c'.heatUnmet = 0 ∨ (c.hpUsage ≤ c'.hpUsage ∧ c'.heatUnmet + c'.hpUsage ≤ c.heatUnmet + c.hpUsage)

theorem easier_step {P P' : Plant N} {i i' : StepIn N} (H : StepOk P i) (hperf : i'.perf = i.perf)
    (haux : P'.aux.electric = P.aux.electric) {c c' : Checks} (I : Idle P i c) (I' : Idle P' i' c') (p : Process)
    (h : Easier c c') : Easier (update p (plain P i c p) c) (update p (plain P' i' c' p) c') := by
  have hd := H.duty_nonneg
  have hc := H.cop_pos
  have hsp : 0 ≤ i.perf.duty - c.hpUsage := by linarith [I.g1]
  have hsp' : 0 ≤ i.perf.duty - c'.hpUsage := by have := I'.g1; rw [hperf] at this; linarith
  have e0 := I.e0
  have e0' := I'.e0
  have h0 := I.h0
  have h0' := I'.h0
  have r0 := I.r0
  have r0' := I'.r0
  obtain ⟨x1, x2, x3, x4⟩ := h
  cases p
  case hpResToDemand =>
    simp only [plain, hperf, update]
    have hs : c.resLeft * i.perf.cop ≤ c'.resLeft * i.perf.cop := mul_le_mul_of_nonneg_right x2 hc.le
    have hs0 : 0 ≤ c.resLeft * i.perf.cop := mul_nonneg r0 hc.le
    set m := min (c.resLeft * i.perf.cop) (min c.heatUnmet (i.perf.duty - c.hpUsage)) with hm
    set m' := min (c'.resLeft * i.perf.cop) (min c'.heatUnmet (i.perf.duty - c'.hpUsage)) with hm'
    have m0 : 0 ≤ m := le_min hs0 (le_min h0 hsp)
    have m0' : 0 ≤ m' := le_min (hs0.trans hs) (le_min h0' hsp')
    have m1 : m ≤ c.resLeft * i.perf.cop := min_le_left _ _
    have m2 : m ≤ c.heatUnmet := (min_le_right _ _).trans (min_le_left _ _)
    have m3 : m ≤ i.perf.duty - c.hpUsage := (min_le_right _ _).trans (min_le_right _ _)
    have m1' : m' ≤ c'.resLeft * i.perf.cop := min_le_left _ _
    have m2' : m' ≤ c'.heatUnmet := (min_le_right _ _).trans (min_le_left _ _)
    have m3' : m' ≤ i.perf.duty - c'.hpUsage := (min_le_right _ _).trans (min_le_right _ _)
    have which : m = c.resLeft * i.perf.cop ∨ m = c.heatUnmet ∨ m = i.perf.duty - c.hpUsage := by
      rw [hm]; rcases min_choice (c.resLeft * i.perf.cop) (min c.heatUnmet (i.perf.duty - c.hpUsage)) with e | e
      · exact Or.inl e
      · rw [e]; exact Or.inr (min_choice _ _)
    have which' : m' = c'.resLeft * i.perf.cop ∨ m' = c'.heatUnmet ∨ m' = i.perf.duty - c'.hpUsage := by
      rw [hm']; rcases min_choice (c'.resLeft * i.perf.cop) (min c'.heatUnmet (i.perf.duty - c'.hpUsage)) with e | e
      · exact Or.inl e
      · rw [e]; exact Or.inr (min_choice _ _)
    have left : c.resLeft * i.perf.cop - m ≤ c'.resLeft * i.perf.cop - m' := by
      rcases x4 with z | ⟨z1, z2⟩
      · linarith
      · rcases which with e | e | e <;> linarith
    refine ⟨x1, ?_, ?_, ?_⟩
    · dsimp only
      have k1 : c.resLeft - m / i.perf.cop = (c.resLeft * i.perf.cop - m) / i.perf.cop := by
        rw [sub_div, mul_div_assoc, div_self hc.ne', mul_one]
      have k2 : c'.resLeft - m' / i.perf.cop = (c'.resLeft * i.perf.cop - m') / i.perf.cop := by
        rw [sub_div, mul_div_assoc, div_self hc.ne', mul_one]
      rw [k1, k2]
      exact div_le_div_of_nonneg_right left hc.le
    · dsimp only
      rcases x4 with z | ⟨z1, z2⟩
      · linarith
      · rcases which' with e | e | e <;> linarith
    · dsimp only
      rcases x4 with z | ⟨z1, z2⟩
      · left; linarith
      · rcases which' with e | e | e
        · right; constructor <;> linarith
        · left; linarith
        · right; constructor <;> linarith
  case eauxResToDemand =>
    simp only [plain, update, haux]
    split_ifs with hel
    · dsimp only
      rcases le_total c.resLeft c.heatUnmet with g | g <;> rcases le_total c'.resLeft c'.heatUnmet with g' | g' <;>
        simp only [min_eq_left, min_eq_right, g, g'] <;> refine ⟨x1, by linarith, by linarith, ?_⟩ <;>
        rcases x4 with z | ⟨z1, z2⟩ <;>
        first
        | (left; linarith)
        | (right; constructor <;> linarith)
    · exact ⟨x1, by dsimp only; linarith, by dsimp only; linarith, by simpa using x4⟩
  case hpImportToDemand =>
    simp only [plain, hperf, update]
    rcases le_total c.heatUnmet (i.perf.duty - c.hpUsage) with g | g <;>
      rcases le_total c'.heatUnmet (i.perf.duty - c'.hpUsage) with g' | g' <;>
      simp only [min_eq_left, min_eq_right, g, g'] <;>
      rcases x4 with z | ⟨z1, z2⟩ <;> refine ⟨x1, x2, by linarith, ?_⟩ <;>
      first
      | (left; linarith)
      | (right; constructor <;> linarith)
  case importToDemand =>
    simp only [plain, update]
    exact ⟨by simp, x2, x3, x4⟩
  case auxToDemand =>
    simp only [plain, update]
    exact ⟨x1, x2, by simp, Or.inl (by simp)⟩
  case resToExport =>
    simp only [plain, update]
    exact ⟨x1, by simp, x3, x4⟩
  all_goals
    simp only [plain, update]
    try simp only [sub_zero, add_zero]
    exact ⟨x1, x2, x3, x4⟩

theorem less_step {P P' : Plant N} {i i' : StepIn N} (H : StepOk P i) (hperf : i'.perf = i.perf)
    {c c' : Checks} (I : Idle P i c) (p : Process) (h : Easier c c') {r r' : Results N}
    (hr : Cheaper r r') : Cheaper (record p (plain P i c p) r) (record p (plain P' i' c' p) r') := by
  obtain ⟨y1, y2, y3, y4, y5, y6⟩ := hr
  cases p
  case importToDemand => exact ⟨h.elec, y2, y3, y4, y5, y6⟩
  case hpImportToDemand =>
    refine ⟨y1, ?_, y3, y4, y5, y6⟩
    simp only [plain, record, hperf]
    refine div_le_div_of_nonneg_right ?_ H.cop_pos.le
    rcases h.pump with z | ⟨z1, -⟩
    · rw [z]
      refine (min_le_left _ _).trans (le_min I.h0 ?_)
      linarith [I.g1]
    · exact min_le_min h.heat (by linarith)
  case auxToDemand => exact ⟨y1, y2, h.heat, y4, y5, y6⟩
  case resToExport => exact ⟨y1, y2, y3, h.res, y5, y6⟩
  case hpImportToTs => exact ⟨y1, y2, y3, y4, ⟨rfl, rfl⟩, y6⟩
  case importToEs => exact ⟨y1, y2, y3, y4, y5, ⟨rfl, rfl⟩⟩
  all_goals exact ⟨y1, y2, y3, y4, y5, y6⟩

theorem less_loop {P P' : Plant N} {i i' : StepIn N} (H : StepOk P i) (H' : StepOk P' i')
    (hn : NoStores P i) (hn' : NoStores P' i') (hperf : i'.perf = i.perf)
    (haux : P'.aux.electric = P.aux.electric) :
    ∀ (ps : List Process) (s t s' t' : Checks × Results N), runProcs P i ps s = .ok t →
      runProcs P' i' ps s' = .ok t' → Idle P i s.1 → Idle P' i' s'.1 → Easier s.1 s'.1 → Cheaper s.2 s'.2 →
      Cheaper t.2 t'.2 := by
  intro ps
  induction ps with
  | nil => intro s t s' t' h h' _ _ _ hr; cases h; cases h'; exact hr
  | cons p ps ih =>
    intro s t s' t' h h' I I' hR hr
    simp only [runProcs, except_bind_ok] at h h'
    obtain ⟨s1, h1, h2⟩ := h
    obtain ⟨s1', h1', h2'⟩ := h'
    obtain ⟨a, ha, rfl⟩ := runProcess_ok h1
    obtain ⟨a', ha', rfl⟩ := runProcess_ok h1'
    have ea := amount_plain H hn I ha
    have ea' := amount_plain H' hn' I' ha'
    subst ea ea'
    exact ih _ t _ t' h2 h2' (idle_step H I p) (idle_step H' I' p)
      (easier_step H hperf haux I I' p hR) (less_step H hperf I p hR hr)

end Verif.FixedOrder
