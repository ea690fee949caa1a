import Verif.Spec.Compare

/-!
# Specification vocabulary for comparing heat pumps
-/

set_option autoImplicit false

namespace Verif.Spec
open FixedOrder
variable {N : Type}

/-- The same hour of the same plant with a heat pump that has at least the same COP and at least the same
duty. -/
structure BetterPump (P P' : Plant N) (i i' : StepIn N) : Prop where
  plant : P' = { P with hp := P'.hp }
  hour : i' = { i with perf := i'.perf }
  cop : i.perf.cop ≤ i'.perf.cop
  duty : i.perf.duty ≤ i'.perf.duty

/-- Orders in which each process is listed at most once, 'aux to demand' (9) is listed, and 'electric aux
RES to demand' (5) does not come after 'HP import to demand' (8 above the setpoint, 6 below). -/
structure PumpOrder (below : Bool) (order : List ℤ) : Prop where
  nodup : order.Nodup
  aux : 9 ∈ order
  renewableFirst : ¬ [if below then 6 else 8, 5].Sublist order

/-- The same run with a heat pump that in every hour has at least the same COP and duty. -/
structure BetterPumpRun (S S' : RunIn N) : Prop where
  same : S' = { S with hp := S'.hp, perf := S'.perf }
  perf : List.Forall₂ (fun p p' => p.cop ≤ p'.cop ∧ p.duty ≤ p'.duty) S.perf S'.perf

/-- The sample year without stores, with a heat pump of 24 instead of 12 kW. -/
def doublePumpRun : RunIn Unit :=
  { bareRun with hp := { bareRun.hp with capacity := 24 }, perf := List.replicate 8760 ⟨3, 24⟩ }

theorem doublePumpRun_ok : RunOk doublePumpRun where
  es := bareRun_ok.es
  heat_nonneg := bareRun_ok.heat_nonneg
  cop_pos := fun p hp => by rw [List.eq_of_mem_replicate hp]; norm_num
  duty_nonneg := fun p hp => by rw [List.eq_of_mem_replicate hp]; norm_num
  zero_cap := fun h => by
    have h' : (24 : ℚ) = 0 := h
    norm_num at h'
  tank_nonneg := bareRun_ok.tank_nonneg

theorem doublePumpRun_better : BetterPumpRun bareRun doublePumpRun where
  same := rfl
  perf := by
    refine List.forall₂_iff_get.mpr ⟨?_, fun i h1 h2 => ?_⟩
    · exact (List.length_replicate).trans (List.length_replicate).symm
    · have e1 : bareRun.perf.get ⟨i, h1⟩ = ⟨3, 12⟩ :=
        List.eq_of_mem_replicate (List.get_mem (List.replicate 8760 (⟨3, 12⟩ : Perf)) ⟨i, h1⟩)
      have e2 : doublePumpRun.perf.get ⟨i, h2⟩ = ⟨3, 24⟩ :=
        List.eq_of_mem_replicate (List.get_mem (List.replicate 8760 (⟨3, 24⟩ : Perf)) ⟨i, h2⟩)
      rw [e1, e2]
      norm_num

end Verif.Spec
