import Verif.Lemmas.NoStores
import Mathlib.Tactic.FieldSimp

/-!
# A timestep without stores, run twice with different heat pumps
-/

set_option autoImplicit false

namespace Verif.FixedOrder
open Spec
variable {N : Type}

/-- A timestep and the same timestep with a larger or more efficient heat pump, `done` being the processes
already run. `k` is the better COP, `d` and `d'` are the duties. -/
structure Grown (k d d' : ℚ) (done : List Process) (c c' : Checks) (r r' : Results N) : Prop where
  elecU : c'.elecUnmet = c.elecUnmet
  elecI : r'.grid.importForElecDemand = r.grid.importForElecDemand
  ts : r.grid.importForHeatPumpToTs = 0 ∧ r'.grid.importForHeatPumpToTs = 0
  es : r.grid.importForEs = 0 ∧ r'.grid.importForEs = 0
  unmet : c'.heatUnmet ≤ c.heatUnmet
  pump0 : Process.hpImportToDemand ∉ done → r.grid.importForHeatPumpToHeatDemand = 0 ∧
    r'.grid.importForHeatPumpToHeatDemand = 0
  aux0 : Process.auxToDemand ∉ done → r.heatDemand.aux = 0 ∧ r'.heatDemand.aux = 0
  aux1 : Process.auxToDemand ∈ done → c.heatUnmet = 0 ∧ c'.heatUnmet = 0
  auxLe : r'.heatDemand.aux ≤ r.heatDemand.aux
  exp0 : Process.resToExport ∉ done → r.grid.totalExport = 0 ∧ r'.grid.totalExport = 0
  exp1 : Process.resToExport ∈ done → c.resLeft = 0 ∧ c'.resLeft = 0
  imp : r'.grid.importForHeatPumpToHeatDemand + r'.heatDemand.aux + c'.heatUnmet ≤
    r.grid.importForHeatPumpToHeatDemand + r.heatDemand.aux + c.heatUnmet
  net : r'.grid.importForHeatPumpToHeatDemand + r'.heatDemand.aux + c'.heatUnmet - c'.resLeft
      - r'.grid.totalExport ≤
    r.grid.importForHeatPumpToHeatDemand + r.heatDemand.aux + c.heatUnmet - c.resLeft
      - r.grid.totalExport
  spare : Process.hpImportToDemand ∉ done → c'.heatUnmet = 0 ∨
    c'.heatUnmet - (d' - c'.hpUsage) ≤ c.heatUnmet - (d - c.hpUsage)
  spareRes : Process.hpImportToDemand ∉ done → Process.resToExport ∉ done → c'.heatUnmet = 0 ∨
    c'.heatUnmet - c'.resLeft - (d' - c'.hpUsage) ≤ c.heatUnmet - c.resLeft - (d - c.hpUsage)
  full : Process.hpImportToDemand ∈ done → (c.heatUnmet = 0 ∨ c.hpUsage = d) ∧
    (c'.heatUnmet = 0 ∨ c'.hpUsage = d')
  left : Process.hpImportToDemand ∉ done → c.heatUnmet = 0 ∨
    c.resLeft + r.grid.totalExport - c'.resLeft - r'.grid.totalExport
      ≤ (c.heatUnmet - c'.heatUnmet) / k ∨
    c.resLeft + r.grid.totalExport ≤ c'.resLeft + r'.grid.totalExport
  same : Process.hpResToDemand ∉ done → Process.hpImportToDemand ∉ done →
    c'.heatUnmet = c.heatUnmet ∧ c'.resLeft = c.resLeft ∧ c'.hpUsage = c.hpUsage ∧
      r'.grid.totalExport = r.grid.totalExport

theorem not_done {p q : Process} {done : List Process} (h : q ∉ p :: done) : q ∉ done :=
  fun hq => h (List.mem_cons_of_mem _ hq)

theorem done_of {p q : Process} {done : List Process} (hne : q ≠ p) (h : q ∈ p :: done) : q ∈ done :=
  (List.mem_cons.mp h).resolve_left hne

/-- The heat pump running on surplus renewable power. -/
theorem grown_hpRes {P P' : Plant N} {i i' : StepIn N} (hk0 : 0 < i.perf.cop)
    (hk : 1 ≤ i'.perf.cop) (hcop : i.perf.cop ≤ i'.perf.cop) (hduty : i.perf.duty ≤ i'.perf.duty) {done : List Process}
    {c c' : Checks} {r r' : Results N} (I : Idle P i c) (I' : Idle P' i' c')
    (hp : Process.hpResToDemand ∉ done)
    (G : Grown i'.perf.cop i.perf.duty i'.perf.duty done c c' r r') :
    Grown i'.perf.cop i.perf.duty i'.perf.duty (.hpResToDemand :: done)
      (update .hpResToDemand (plain P i c .hpResToDemand) c)
      (update .hpResToDemand (plain P' i' c' .hpResToDemand) c')
      (record .hpResToDemand (plain P i c .hpResToDemand) r)
      (record .hpResToDemand (plain P' i' c' .hpResToDemand) r') := by
  obtain ⟨e0, h0, r0, g0, g1, -, -, -, -⟩ := I
  obtain ⟨e0', h0', r0', g0', g1', -, -, -, -⟩ := I'
  obtain ⟨y1, y2, y3, y4, y5, y6, y7, y8, y9, y10, y11, y12, y13, y14, y14r, y15, y16, y17⟩ := G
  have hk0' : 0 < i'.perf.cop := by linarith
  simp only [plain, update, record]
  set h := min (c.resLeft * i.perf.cop) (min c.heatUnmet (i.perf.duty - c.hpUsage)) with hh
  set h' := min (c'.resLeft * i'.perf.cop) (min c'.heatUnmet (i'.perf.duty - c'.hpUsage)) with hh'
  have a1 : 0 ≤ h := le_min (mul_nonneg r0 hk0.le) (le_min h0 (by linarith))
  have a1' : 0 ≤ h' := le_min (mul_nonneg r0' hk0'.le) (le_min h0' (by linarith))
  have a2 : h ≤ c.heatUnmet := (min_le_right _ _).trans (min_le_left _ _)
  have a2' : h' ≤ c'.heatUnmet := (min_le_right _ _).trans (min_le_left _ _)
  have a3 : h ≤ i.perf.duty - c.hpUsage := (min_le_right _ _).trans (min_le_right _ _)
  have a3' : h' ≤ i'.perf.duty - c'.hpUsage := (min_le_right _ _).trans (min_le_right _ _)
  have a4 : h / i.perf.cop ≤ c.resLeft := (div_le_iff₀ hk0).mpr (min_le_left _ _)
  have a4' : h' / i'.perf.cop ≤ c'.resLeft := (div_le_iff₀ hk0').mpr (min_le_left _ _)
  by_cases hi : Process.hpImportToDemand ∈ done
  · obtain ⟨f1, f2⟩ := y15 hi
    have z : h = 0 := by rcases f1 with f | f <;> linarith
    have z' : h' = 0 := by rcases f2 with f | f <;> linarith
    clear_value h h'
    subst z z'
    simp only [zero_div, sub_zero, add_zero]
    refine ⟨y1, y2, y3, y4, y5, ?_, ?_, ?_, y9, ?_, ?_, y12, y13, ?_, ?_, ?_, ?_, ?_⟩
    · intro hm; exact y6 (not_done hm)
    · intro hm; exact y7 (not_done hm)
    · intro hm; exact y8 (done_of (by decide) hm)
    · intro hm; exact y10 (not_done hm)
    · intro hm; exact y11 (done_of (by decide) hm)
    · intro hm; exact absurd hi (not_done hm)
    · intro hm; exact absurd hi (not_done hm)
    · intro _; exact y15 hi
    · intro hm; exact absurd hi (not_done hm)
    · intro hm; exact absurd List.mem_cons_self hm
  · obtain ⟨s1, s2, s3, s4⟩ := y17 hp hi
    obtain ⟨p0, p0'⟩ := y6 hi
    have hle : h ≤ h' := by
      rw [hh, hh', s1, s2, s3]
      exact min_le_min (mul_le_mul_of_nonneg_left hcop r0) (min_le_min le_rfl (by linarith))
    have d0 : h / i'.perf.cop ≤ h / i.perf.cop := div_le_div_of_nonneg_left a1 hk0 hcop
    have hsub : (h' - h) / i'.perf.cop = h' / i'.perf.cop - h / i'.perf.cop := sub_div _ _ _
    have hdiv : (h' - h) / i'.perf.cop ≤ h' - h := div_le_self (by linarith) hk
    have hgap : h' / i'.perf.cop - h / i.perf.cop ≤ i'.perf.duty - i.perf.duty := by
      have u1 : h = c.resLeft * i.perf.cop ∨ h = min c.heatUnmet (i.perf.duty - c.hpUsage) :=
        min_choice _ _
      rcases u1 with u1 | u1
      · have : h / i.perf.cop = c.resLeft := by rw [u1]; field_simp
        linarith
      · have u2 : h' - h ≤ i'.perf.duty - i.perf.duty := by
          rcases min_choice c.heatUnmet (i.perf.duty - c.hpUsage) with v | v <;> rw [v] at u1 <;>
            linarith
        linarith
    refine ⟨y1, y2, y3, y4, by linarith, ?_, ?_, ?_, y9, ?_, ?_, by linarith, by linarith, ?_, ?_, ?_,
      ?_, ?_⟩
    · intro hm; exact y6 (not_done hm)
    · intro hm; exact y7 (not_done hm)
    · intro hm
      obtain ⟨u, u'⟩ := y8 (done_of (by decide) hm)
      constructor <;> linarith
    · intro hm; exact y10 (not_done hm)
    · intro hm
      obtain ⟨u, u'⟩ := y11 (done_of (by decide) hm)
      have := div_nonneg a1 hk0.le
      have := div_nonneg a1' hk0'.le
      constructor <;> linarith
    · intro _; right; dsimp only; linarith
    · intro _ _; right; dsimp only; linarith
    · intro hm; exact absurd (done_of (by decide) hm) hi
    · intro _
      right; left
      have e : c.heatUnmet - h - (c'.heatUnmet - h') = h' - h := by linarith
      rw [e, hsub]
      linarith
    · intro hm; exact absurd List.mem_cons_self hm

/-- The electric heater running on surplus renewable power. -/
theorem grown_eaux {P P' : Plant N} {i i' : StepIn N} (hk : 1 ≤ i'.perf.cop)
    (hel : P.aux.electric = true) (hel' : P'.aux.electric = true) {done : List Process}
    {c c' : Checks} {r r' : Results N} (I : Idle P i c) (I' : Idle P' i' c')
    (hi : Process.hpImportToDemand ∉ done)
    (G : Grown i'.perf.cop i.perf.duty i'.perf.duty done c c' r r') :
    Grown i'.perf.cop i.perf.duty i'.perf.duty (.eauxResToDemand :: done)
      (update .eauxResToDemand (plain P i c .eauxResToDemand) c)
      (update .eauxResToDemand (plain P' i' c' .eauxResToDemand) c')
      (record .eauxResToDemand (plain P i c .eauxResToDemand) r)
      (record .eauxResToDemand (plain P' i' c' .eauxResToDemand) r') := by
  obtain ⟨e0, h0, r0, g0, g1, -, -, -, -⟩ := I
  obtain ⟨e0', h0', r0', g0', g1', -, -, -, -⟩ := I'
  obtain ⟨y1, y2, y3, y4, y5, y6, y7, y8, y9, y10, y11, y12, y13, y14, y14r, y15, y16, y17⟩ := G
  have hk0 : 0 < i'.perf.cop := by linarith
  obtain ⟨p0, p0'⟩ := y6 hi
  simp only [plain, update, record, hel, hel', if_true]
  set h := min c.resLeft c.heatUnmet with hh
  set h' := min c'.resLeft c'.heatUnmet with hh'
  have a1 : 0 ≤ h := le_min r0 h0
  have a1' : 0 ≤ h' := le_min r0' h0'
  have a2 : h ≤ c.heatUnmet := min_le_right _ _
  have a2' : h' ≤ c'.heatUnmet := min_le_right _ _
  have a3 : h ≤ c.resLeft := min_le_left _ _
  have a3' : h' ≤ c'.resLeft := min_le_left _ _
  have ex : h = c.resLeft ∨ h = c.heatUnmet := min_choice _ _
  have ex' : h' = c'.resLeft ∨ h' = c'.heatUnmet := min_choice _ _
  clear_value h h'
  have hdiv : (c.heatUnmet - c'.heatUnmet) / i'.perf.cop ≤ c.heatUnmet - c'.heatUnmet :=
    div_le_self (by linarith) hk
  have hd0 : 0 ≤ (c.heatUnmet - c'.heatUnmet) / i'.perf.cop := div_nonneg (by linarith) hk0.le
  have nx : (c.resLeft = 0 ∧ c'.resLeft = 0) ∨
      (r.grid.totalExport = 0 ∧ r'.grid.totalExport = 0) := by
    by_cases he : Process.resToExport ∈ done
    · exact Or.inl (y11 he)
    · exact Or.inr (y10 he)
  have hU : c'.heatUnmet - h' ≤ c.heatUnmet - h := by
    rcases nx with ⟨n1, n2⟩ | ⟨n1, n2⟩
    · linarith
    · rcases ex with ex | ex <;> rcases ex' with ex' | ex' <;>
        rcases y16 hi with w | w | w <;> linarith
  refine ⟨y1, y2, y3, y4, hU, ?_, ?_, ?_, y9, ?_, ?_, by linarith, by linarith, ?_, ?_, ?_, ?_, ?_⟩
  · intro hm; exact y6 (not_done hm)
  · intro hm; exact y7 (not_done hm)
  · intro hm
    obtain ⟨u, u'⟩ := y8 (done_of (by decide) hm)
    constructor <;> linarith
  · intro hm; exact y10 (not_done hm)
  · intro hm
    obtain ⟨u, u'⟩ := y11 (done_of (by decide) hm)
    constructor <;> linarith
  · intro _
    dsimp only
    by_cases he : Process.resToExport ∈ done
    · obtain ⟨w, w'⟩ := y11 he
      rcases y14 hi with v | v
      · left; linarith
      · right; linarith
    · rcases ex' with e' | e'
      · rcases y14r hi he with v | v
        · left; linarith
        · right; linarith
      · left; linarith
  · intro _ he
    dsimp only
    rcases y14r hi (not_done he) with v | v
    · left; linarith
    · right; linarith
  · intro hm; exact absurd (done_of (by decide) hm) hi
  · intro _
    dsimp only
    rcases ex with ex | ex
    · rcases nx with ⟨n1, n2⟩ | ⟨n1, n2⟩
      · have z : h = 0 := by linarith
        have z' : h' = 0 := by linarith
        rw [z, z']
        simp only [sub_zero]
        exact y16 hi
      · right; right; linarith
    · left; linarith
  · intro hm hm'
    obtain ⟨s1, s2, s3, s4⟩ := y17 (not_done hm) (not_done hm')
    have : h' = h := by rw [hh, hh', s1, s2]
    exact ⟨by linarith, by linarith, s3, s4⟩

/-- The heat pump running on imported power. -/
theorem grown_hpImport {P P' : Plant N} {i i' : StepIn N} (hk0 : 0 < i.perf.cop)
    (hk : 1 ≤ i'.perf.cop) (hcop : i.perf.cop ≤ i'.perf.cop) {done : List Process}
    {c c' : Checks} {r r' : Results N} (I : Idle P i c) (I' : Idle P' i' c')
    (hi : Process.hpImportToDemand ∉ done)
    (G : Grown i'.perf.cop i.perf.duty i'.perf.duty done c c' r r') :
    Grown i'.perf.cop i.perf.duty i'.perf.duty (.hpImportToDemand :: done)
      (update .hpImportToDemand (plain P i c .hpImportToDemand) c)
      (update .hpImportToDemand (plain P' i' c' .hpImportToDemand) c')
      (record .hpImportToDemand (plain P i c .hpImportToDemand) r)
      (record .hpImportToDemand (plain P' i' c' .hpImportToDemand) r') := by
  obtain ⟨e0, h0, r0, g0, g1, -, -, -, -⟩ := I
  obtain ⟨e0', h0', r0', g0', g1', -, -, -, -⟩ := I'
  obtain ⟨y1, y2, y3, y4, y5, y6, y7, y8, y9, y10, y11, y12, y13, y14, y14r, y15, y16, y17⟩ := G
  have hk0' : 0 < i'.perf.cop := by linarith
  obtain ⟨p0, p0'⟩ := y6 hi
  have sp := y14 hi
  simp only [plain, update, record]
  set h := min c.heatUnmet (i.perf.duty - c.hpUsage) with hh
  set h' := min c'.heatUnmet (i'.perf.duty - c'.hpUsage) with hh'
  have a1 : 0 ≤ h := le_min h0 (by linarith)
  have a1' : 0 ≤ h' := le_min h0' (by linarith)
  have a2 : h ≤ c.heatUnmet := min_le_left _ _
  have a2' : h' ≤ c'.heatUnmet := min_le_left _ _
  have a3 : h ≤ i.perf.duty - c.hpUsage := min_le_right _ _
  have a3' : h' ≤ i'.perf.duty - c'.hpUsage := min_le_right _ _
  have ex : h = c.heatUnmet ∨ h = i.perf.duty - c.hpUsage := min_choice _ _
  have ex' : h' = c'.heatUnmet ∨ h' = i'.perf.duty - c'.hpUsage := min_choice _ _
  clear_value h h'
  have hU : c'.heatUnmet - h' ≤ c.heatUnmet - h := by
    rcases sp with sp | sp <;> rcases ex with ex | ex <;> rcases ex' with ex' | ex' <;> linarith
  rw [p0, p0'] at y12 y13
  have d0 : h / i'.perf.cop ≤ h / i.perf.cop := div_le_div_of_nonneg_left a1 hk0 hcop
  have key : h' / i'.perf.cop + (c'.heatUnmet - h') ≤ h / i.perf.cop + (c.heatUnmet - h) ∧
      h' / i'.perf.cop + (c'.heatUnmet - h') - c'.resLeft - r'.grid.totalExport ≤
        h / i.perf.cop + (c.heatUnmet - h) - c.resLeft - r.grid.totalExport
          + (r.heatDemand.aux - r'.heatDemand.aux) := by
    rcases le_total h h' with hl | hl
    · have d1 : (h' - h) / i'.perf.cop ≤ h' - h := div_le_self (by linarith) hk
      rw [sub_div] at d1
      constructor <;> linarith
    · have d1 : h' / i'.perf.cop ≤ h / i'.perf.cop := div_le_div_of_nonneg_right hl hk0'.le
      refine ⟨by linarith, ?_⟩
      rcases y16 hi with w | w | w
      · have z : h = 0 := by linarith
        have z' : h' = 0 := by linarith
        rw [z, z']
        simp only [zero_div]
        linarith
      · have d2 : (c.heatUnmet - h - (c'.heatUnmet - h')) / i'.perf.cop
            ≤ c.heatUnmet - h - (c'.heatUnmet - h') := div_le_self (by linarith) hk
        rw [sub_div, sub_div, sub_div] at d2
        rw [sub_div] at w
        linarith
      · linarith
  refine ⟨y1, y2, y3, y4, hU, ?_, ?_, ?_, y9, ?_, ?_, by linarith [key.1], by linarith [key.2], ?_, ?_, ?_,
    ?_, ?_⟩
  · intro hm; exact absurd List.mem_cons_self hm
  · intro hm; exact y7 (not_done hm)
  · intro hm
    obtain ⟨u, u'⟩ := y8 (done_of (by decide) hm)
    constructor <;> linarith
  · intro hm; exact y10 (not_done hm)
  · intro hm; exact y11 (done_of (by decide) hm)
  · intro hm; exact absurd List.mem_cons_self hm
  · intro hm; exact absurd List.mem_cons_self hm
  · intro _
    constructor
    · rcases ex with ex | ex
      · left; linarith
      · right; linarith
    · rcases ex' with ex | ex
      · left; linarith
      · right; linarith
  · intro hm; exact absurd List.mem_cons_self hm
  · intro _ hm; exact absurd List.mem_cons_self hm

/-- The auxiliary heater. -/
theorem grown_aux {P P' : Plant N} {i i' : StepIn N} {done : List Process} {c c' : Checks}
    {r r' : Results N} (hi : Process.auxToDemand ∉ done)
    (G : Grown i'.perf.cop i.perf.duty i'.perf.duty done c c' r r') :
    Grown i'.perf.cop i.perf.duty i'.perf.duty (.auxToDemand :: done)
      (update .auxToDemand (plain P i c .auxToDemand) c)
      (update .auxToDemand (plain P' i' c' .auxToDemand) c')
      (record .auxToDemand (plain P i c .auxToDemand) r)
      (record .auxToDemand (plain P' i' c' .auxToDemand) r') := by
  obtain ⟨y1, y2, y3, y4, y5, y6, y7, y8, y9, y10, y11, y12, y13, y14, y14r, y15, y16, y17⟩ := G
  obtain ⟨p0, p0'⟩ := y7 hi
  rw [p0, p0'] at y12 y13
  simp only [plain, update, record, sub_self]
  refine ⟨y1, y2, y3, y4, le_rfl, ?_, ?_, ?_, y5, ?_, ?_, by linarith, by linarith, ?_, ?_, ?_, ?_, ?_⟩
  · intro hm; exact y6 (not_done hm)
  · intro hm; exact absurd List.mem_cons_self hm
  · intro _; exact ⟨rfl, rfl⟩
  · intro hm; exact y10 (not_done hm)
  · intro hm; exact y11 (done_of (by decide) hm)
  · intro _; exact Or.inl rfl
  · intro _ _; exact Or.inl rfl
  · intro _; exact ⟨Or.inl rfl, Or.inl rfl⟩
  · intro _; exact Or.inl rfl
  · intro hm hm'
    obtain ⟨-, s2, s3, s4⟩ := y17 (not_done hm) (not_done hm')
    exact ⟨rfl, s2, s3, s4⟩

/-- The export of what is left. -/
theorem grown_export {P P' : Plant N} {i i' : StepIn N} {done : List Process} {c c' : Checks}
    {r r' : Results N} (hi : Process.resToExport ∉ done)
    (G : Grown i'.perf.cop i.perf.duty i'.perf.duty done c c' r r') :
    Grown i'.perf.cop i.perf.duty i'.perf.duty (.resToExport :: done)
      (update .resToExport (plain P i c .resToExport) c)
      (update .resToExport (plain P' i' c' .resToExport) c')
      (record .resToExport (plain P i c .resToExport) r)
      (record .resToExport (plain P' i' c' .resToExport) r') := by
  obtain ⟨y1, y2, y3, y4, y5, y6, y7, y8, y9, y10, y11, y12, y13, y14, y14r, y15, y16, y17⟩ := G
  obtain ⟨p0, p0'⟩ := y10 hi
  rw [p0, p0'] at y13 y16
  simp only [plain, update, record, sub_self]
  refine ⟨y1, y2, y3, y4, y5, ?_, ?_, ?_, y9, ?_, ?_, y12, by linarith, ?_, ?_, ?_, ?_, ?_⟩
  · intro hm; exact y6 (not_done hm)
  · intro hm; exact y7 (not_done hm)
  · intro hm; exact y8 (done_of (by decide) hm)
  · intro hm; exact absurd List.mem_cons_self hm
  · intro _; exact ⟨rfl, rfl⟩
  · intro hm; exact y14 (not_done hm)
  · intro _ hm; exact absurd List.mem_cons_self hm
  · intro hm; exact y15 (done_of (by decide) hm)
  · intro hm
    rcases y16 (not_done hm) with w | w | w
    · exact Or.inl w
    · right; left; dsimp only; linarith
    · right; right; dsimp only; linarith
  · intro hm hm'
    obtain ⟨s1, s2, s3, s4⟩ := y17 (not_done hm) (not_done hm')
    exact ⟨s1, rfl, s3, s2⟩

/-- The remaining processes do nothing without stores, apart from imports for the electric demand. -/
theorem grown_other {P P' : Plant N} {i i' : StepIn N} {done : List Process} {c c' : Checks}
    {r r' : Results N} {p : Process} (n1 : p ≠ .hpResToDemand) (n2 : p ≠ .eauxResToDemand)
    (n3 : p ≠ .hpImportToDemand) (n4 : p ≠ .auxToDemand) (n5 : p ≠ .resToExport)
    (G : Grown i'.perf.cop i.perf.duty i'.perf.duty done c c' r r') :
    Grown i'.perf.cop i.perf.duty i'.perf.duty (p :: done)
      (update p (plain P i c p) c) (update p (plain P' i' c' p) c')
      (record p (plain P i c p) r) (record p (plain P' i' c' p) r') := by
  obtain ⟨y1, y2, y3, y4, y5, y6, y7, y8, y9, y10, y11, y12, y13, y14, y14r, y15, y16, y17⟩ := G
  have z6 := fun hm => y6 (not_done (p := p) hm)
  have z7 := fun hm => y7 (not_done (p := p) hm)
  have z8 := fun hm => y8 (done_of n4.symm hm)
  have z10 := fun hm => y10 (not_done (p := p) hm)
  have z11 := fun hm => y11 (done_of n5.symm hm)
  have z14 := fun hm => y14 (not_done (p := p) hm)
  have z14r := fun hm hm' => y14r (not_done (p := p) hm) (not_done (p := p) hm')
  have z15 := fun hm => y15 (done_of n3.symm hm)
  have z16 := fun hm => y16 (not_done (p := p) hm)
  have z17 := fun hm hm' => y17 (not_done (p := p) hm) (not_done (p := p) hm')
  cases p
  case importToDemand =>
    simp only [plain, update, record, sub_self]
    exact ⟨rfl, y1, y3, y4, y5, z6, z7, z8, y9, z10, z11, y12, y13, z14, z14r, z15, z16, z17⟩
  case hpImportToTs =>
    simp only [plain, update, record, add_zero]
    exact ⟨y1, y2, ⟨rfl, rfl⟩, y4, y5, z6, z7, z8, y9, z10, z11, y12, y13, z14, z14r, z15, z16, z17⟩
  case importToEs =>
    simp only [plain, update, record]
    exact ⟨y1, y2, y3, ⟨rfl, rfl⟩, y5, z6, z7, z8, y9, z10, z11, y12, y13, z14, z14r, z15, z16, z17⟩
  case hpResToDemand => exact absurd rfl n1
  case eauxResToDemand => exact absurd rfl n2
  case hpImportToDemand => exact absurd rfl n3
  case auxToDemand => exact absurd rfl n4
  case resToExport => exact absurd rfl n5
  all_goals
    simp only [plain, update, record, sub_zero, add_zero]
    exact ⟨y1, y2, y3, y4, y5, z6, z7, z8, y9, z10, z11, y12, y13, z14, z14r, z15, z16, z17⟩

theorem grown_loop {P P' : Plant N} {i i' : StepIn N} (H : StepOk P i) (H' : StepOk P' i')
    (hn : NoStores P i) (hn' : NoStores P' i')
    (hk : 1 ≤ i'.perf.cop) (hcop : i.perf.cop ≤ i'.perf.cop) (hduty : i.perf.duty ≤ i'.perf.duty)
    (hel : P.aux.electric = true) (hel' : P'.aux.electric = true) :
    ∀ (ps done : List Process) (s t s' t' : Checks × Results N), ps.Nodup →
      (∀ p ∈ ps, p ∉ done) →
      ¬ List.Sublist [Process.hpImportToDemand, .eauxResToDemand] ps →
      (Process.hpImportToDemand ∈ done → Process.eauxResToDemand ∉ ps) →
      runProcs P i ps s = .ok t → runProcs P' i' ps s' = .ok t' →
      Idle P i s.1 → Idle P' i' s'.1 →
      Grown i'.perf.cop i.perf.duty i'.perf.duty done s.1 s'.1 s.2 s'.2 →
      Grown i'.perf.cop i.perf.duty i'.perf.duty (ps.reverse ++ done) t.1 t'.1 t.2 t'.2 := by
  intro ps
  induction ps with
  | nil => intro done s t s' t' _ _ _ _ h h' _ _ G; cases h; cases h'; exact G
  | cons p ps ih =>
    intro done s t s' t' hnd hdone hsub hlate h h' I I' G
    simp only [runProcs, except_bind_ok] at h h'
    obtain ⟨s1, h1, h2⟩ := h
    obtain ⟨s1', h1', h2'⟩ := h'
    obtain ⟨a, ha, rfl⟩ := runProcess_ok h1
    obtain ⟨a', ha', rfl⟩ := runProcess_ok h1'
    have ea := amount_plain H hn I ha
    have ea' := amount_plain H' hn' I' ha'
    subst ea ea'
    have hp : p ∉ done := hdone p List.mem_cons_self
    obtain ⟨hp1, hnd'⟩ := List.nodup_cons.mp hnd
    have G1 : Grown i'.perf.cop i.perf.duty i'.perf.duty (p :: done)
        (update p (plain P i s.1 p) s.1) (update p (plain P' i' s'.1 p) s'.1)
        (record p (plain P i s.1 p) s.2) (record p (plain P' i' s'.1 p) s'.2) := by
      by_cases n1 : p = .hpResToDemand
      · subst n1; exact grown_hpRes H.cop_pos hk hcop hduty I I' hp G
      by_cases n2 : p = .eauxResToDemand
      · subst n2
        exact grown_eaux hk hel hel' I I' (fun hm => hlate hm List.mem_cons_self) G
      by_cases n3 : p = .hpImportToDemand
      · subst n3; exact grown_hpImport H.cop_pos hk hcop I I' hp G
      by_cases n4 : p = .auxToDemand
      · subst n4; exact grown_aux hp G
      by_cases n5 : p = .resToExport
      · subst n5; exact grown_export hp G
      exact grown_other n1 n2 n3 n4 n5 G
    have := ih (p :: done) _ t _ t' hnd' ?_ (fun hs => hsub (hs.trans (List.sublist_cons_self _ _)))
      ?_ h2 h2' (idle_step H I p) (idle_step H' I' p) G1
    · simpa using this
    · intro q hq hqd
      rcases List.mem_cons.mp hqd with rfl | hqd
      · exact hp1 hq
      · exact hdone q (List.mem_cons_of_mem _ hq) hqd
    · intro hm he
      rcases List.mem_cons.mp hm with rfl | hm
      · exact hsub ((List.singleton_sublist.mpr he).cons_cons _)
      · exact hlate hm (List.mem_cons_of_mem _ he)

end Verif.FixedOrder
