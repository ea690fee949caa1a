import Verif.Props.PlanBalance
import Verif.Props.PerfectPlan
import Verif.Props.SupplyStudy

/-!
# Predictive studies are supplied with the energy they use (C133)
-/

set_option autoImplicit false

namespace Verif
open Spec Pandas Workbook Simulation HpConfig FixedOrder Programme Mpc

variable {L : Libs} {gekko : Gekko} {wb : Pandas.Workbook}

/-- Every answer of the optimiser satisfies what is posted, with one of the capacities it is given for the store. -/
def Spec.AnswersPosted (S : MpcIn (List ℚ)) (caps : List ℚ) (g : ℕ → ℕ → Except PyErr Point) : Prop :=
  ∀ hour a p, g hour a = .ok p → ∃ cap ∈ caps, Posted S (hour + 1) cap p

/-- Without a tank the capacities posted for it are all zero. -/
theorem caps_zero {size : ℤ × ℤ} {first n : ℕ} {S : MpcIn (List ℚ)} {caps : List ℚ} (ht : TopRowsEmpty wb)
    (h0 : size.2 = 0) (h : mpcInputs L wb size first n = .ok (S, caps)) : ∀ c ∈ caps, c = 0 := by
  obtain ⟨o, hs, xs, us, ds, ps, prs, pfs, T⟩ := mpcIn_ok ht h
  obtain ⟨source, flow, ret, delta, -, -, -, -, -, hcap⟩ := T.tank
  have hc : o.tank.capacity = 0 := by
    rw [(C91_tank T.objects).1, h0]
    rfl
  unfold maxCapacity at hcap
  refine fill_zero (fun t => ?_) _ _ _ _ (fun x hx => List.eq_of_mem_replicate hx) hcap
  exact C32_no_energy hc _ _ _ (List.length_replicate ..)

/-- **C133 from the workbook.** In the results of a predictive run without stores, with an electric heater, the simple
heat pump model and a COP of at least one, over the hours from the second to any but the last of the year: the electric
demand and the export times the COP, and the heat demand, are at most the generation and the import times the COP. This is
so for any optimiser whose answers satisfy what is posted, whatever it fails to solve. -/
theorem C133_workbook (ht : TopRowsEmpty wb) (hw : Sensible wb)
    (hm : Reads wb "Heat pump" 'D' 4 ModelName.simple) (hc1 : NotBelow wb "Heat pump" 'D' 12 1)
    (hb : ∀ s row, wb "Electrical storage" = some s → FirstComplete s [5] [0, 1] row →
      Holds wb "Electrical storage" 'C' row 0)
    (hel : fuelOf (excel wb "Aux heat" 'C' 6) = .ok .electric) {size : ℤ × ℤ} (h0 : size.2 = 0) {first : ℕ}
    (hf : Holds wb "Controller" 'G' 5 first)
    (hg : ∀ n S caps, mpcInputs L wb size first n = .ok (S, caps) → AnswersPosted S caps (gekko S caps))
    {rs : List (MpcResults (List ℚ))} (h : predict L gekko wb size = .ok rs) {cop : ℚ}
    (hcop : Holds wb "Heat pump" 'D' 12 cop) {i : ℕ} (hi : i < rs.length) (h8 : first + i < 8759) :
    cop * (planTally (planned rs i) (·.elecDemand.elecDemand) + planTally (planned rs i) (·.grid.totalExport)) +
        planTally (planned rs i) (·.heatDemand.heatDemand) ≤
      cop * (planTally (planned rs i) (·.res.generationTotal) + planTally (planned rs i) (·.grid.totalImport)) := by
  obtain ⟨first', n, S, caps, hS, hf', hn, hrun⟩ := predict_ok.mp h
  have e1 : first = first' := by exact_mod_cast Sample.holds_inj hf hf'
  subst e1
  obtain ⟨o, hs, xs, us, ds, ps, prs, pfs, T⟩ := mpcIn_ok ht hS
  have hn2 : 2 ≤ n := by
    by_contra hlt
    have : rs = [] := by
      unfold movingHorizon at hrun
      split_ifs at hrun
      rw [show n - 1 = 0 by omega] at hrun
      exact (Except.ok.inj hrun).symm
    rw [this] at hi
    exact absurd hi (Nat.not_lt_zero _)
  have hz := caps_zero ht h0 hS
  obtain ⟨fuel, hfu, -, hel', -⟩ := C91_heater T.objects
  obtain ⟨s, row, hs', hrow, b1, -, -, -, -, b6, -⟩ := C91_battery ht T.objects
  obtain ⟨K1, K2⟩ := hw.battery s row hs' hrow
  simp only [List.forall_mem_cons, List.not_mem_nil, false_implies, implies_true, and_true] at K1 K2
  obtain ⟨c, hc, hrows⟩ := simple_rows (hp := size.1) (ts := size.2) hm T.objects T.performance
  cases Sample.holds_inj hcop hc
  have hc1' := hc1 cop hcop
  refine C133_without_stores hrun hn2 h8 (fun hour a p hp => ?_) ?_ ⟨?_, ?_⟩ ?_ hc1' (fun hour hlt => ?_)
  · obtain ⟨cap, hm', hp'⟩ := hg n S caps hS hour a p hp
    rwa [hz cap hm'] at hp'
  · rw [T.aux]
    exact hel'.mpr (Except.ok.inj (hfu.symm.trans hel))
  · rw [T.es]
    exact K1.2.2.2.2.2.1 _ b6
  · rw [T.es]
    exact K2.2.2.1 _ b6
  · rw [T.es]
    exact Sample.holds_inj b1 (hb s row hs' hrow)
  · rw [T.perf, hrows]
    show 0 < ((List.replicate 8760 (Perf.mk (if size.1 = 0 then 1 / 2 else cop) size.1)).getD hour ⟨0, 0⟩).cop ∧
      ((List.replicate 8760 (Perf.mk (if size.1 = 0 then 1 / 2 else cop) size.1)).getD hour ⟨0, 0⟩).cop ≤ cop
    rw [List.getD_eq_getElem?_getD, List.getElem?_replicate, if_pos hlt, Option.getD_some]
    dsimp only
    split_ifs <;> constructor <;> linarith

/-- The perfect optimiser answers with what is posted. -/
theorem perfect_posted (D : Dynamics) (first : ℕ) (S : MpcIn (List ℚ)) (caps : List ℚ) :
    AnswersPosted S caps (perfect D first S caps) := by
  intro hour a p h
  unfold perfect at h
  split_ifs at h with hex
  obtain ⟨s, plan, h1, h2, -, -, h5, h6⟩ := hex.choose_spec
  refine ⟨s.maxCap 1, List.mem_of_getElem? (h6 1 (by omega)), ?_⟩
  rw [← Except.ok.inj h, h2]
  exact h1.feasible.posted 1 (le_refl _) (by omega)

theorem Sample.storeless_pump : Reads Sample.storeless "Heat pump" 'D' 4 ModelName.simple ∧
    NotBelow Sample.storeless "Heat pump" 'D' 12 1 ∧ Holds Sample.storeless "Heat pump" 'D' 12 3 := by
  refine ⟨⟨"Simple", rfl, by decide +kernel⟩, fun y h => ?_, rfl⟩
  rw [Sample.holds_inj h (show Holds Sample.storeless "Heat pump" 'D' 12 3 from rfl)]
  norm_num

attribute [local irreducible] Sample.storeless predict

/-- Two days with a heat pump of 10 kW and an optimiser that looks 6 hours ahead: up to any of the hours. -/
example : ∃ rs, predict Sample.wallLibs (perfect euler 24) Sample.storeless (10, 0) = .ok rs ∧ rs.length = 48 ∧
    ∀ i < 48, 3 * (planTally (planned rs i) (·.elecDemand.elecDemand) + planTally (planned rs i) (·.grid.totalExport)) +
        planTally (planned rs i) (·.heatDemand.heatDemand) ≤
      3 * (planTally (planned rs i) (·.res.generationTotal) + planTally (planned rs i) (·.grid.totalImport)) := by
  obtain ⟨R, hR⟩ := Sample.storeless_run (10, 0)
  obtain ⟨c1, c2, c3⟩ := Sample.storeless_cells
  obtain ⟨rs, h, hl⟩ := perfect_predicts (size := (10, 0)) Sample.wallLibs_year Sample.storeless_top rfl hR
    (Sample.storeless_run_plain (by decide) rfl hR) euler_settles euler_linear c1 c2 c3 (Or.inl (by norm_num))
    (by norm_num) (by norm_num) (by norm_num)
  refine ⟨rs, h, hl, fun i hi => ?_⟩
  obtain ⟨d1, d2, d3⟩ := Sample.storeless_pump
  exact C133_workbook (gekko := perfect euler 24) (size := (10, 0)) Sample.storeless_top Sample.storeless_plain.sensible
    d1 d2 Sample.storeless_plain.battery Sample.storeless_plain.heater rfl c1
    (fun _ S caps _ => perfect_posted euler 24 S caps) h d3 (lt_of_lt_of_eq hi hl.symm)
    (lt_of_lt_of_le (Nat.add_lt_add_left hi 24) (by norm_num))

end Verif
