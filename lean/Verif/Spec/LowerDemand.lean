import Verif.Spec.Compare

/-!
# Specification vocabulary: the same hour, or the same run, with lower demands
-/

set_option autoImplicit false

namespace Verif.Spec
open FixedOrder
variable {N : Type}

/-- The same plant, but for the highest heat demand of the year. -/
def OtherPeak (P P' : Plant N) : Prop := P' = { P with peakHeatDemand := P'.peakHeatDemand }

/-- The same hour with at most as much heat demand and unmet electric demand, and at least as much surplus generation. -/
structure LessToDo (i i' : StepIn N) : Prop where
  perf : i'.perf = i.perf
  importPrice : i'.importPrice = i.importPrice
  heatDemand : i'.heatDemand ≤ i.heatDemand
  surplus : i.surplus ≤ i'.surplus
  deficit : i'.deficit ≤ i.deficit

/-- The same run with other demands and other wind and solar power, everything else the same. -/
def OtherDemand (S S' : RunIn N) : Prop :=
  S' = { S with windUser := S'.windUser, windData := S'.windData, pv := S'.pv, elecDemand := S'.elecDemand,
                heatDemand := S'.heatDemand }

/-- The same run with at most as much heat demand and electric demand and at least as much wind and solar power in
every hour, everything else the same. -/
structure LowerDemand (S S' : RunIn N) : Prop where
  same : OtherDemand S S'
  heatDemand : List.Forall₂ (· ≤ ·) S'.heatDemand S.heatDemand
  elecDemand : List.Forall₂ (· ≤ ·) S'.elecDemand S.elecDemand
  windUser : List.Forall₂ (· ≤ ·) S.windUser S'.windUser
  windData : List.Forall₂ (· ≤ ·) S.windData S'.windData
  pv : List.Forall₂ (· ≤ ·) S.pv S'.pv

/-- The sample year without stores, after the houses were insulated: half the heat demand, the same electric demand. -/
def insulatedRun : RunIn Unit := { bareRun with heatDemand := List.replicate 8760 15 }

theorem bareRun_insulated : LowerDemand bareRun insulatedRun where
  same := rfl
  heatDemand := by
    show List.Forall₂ (· ≤ ·) (List.replicate 8760 (15 : ℚ)) (List.replicate 8760 (30 : ℚ))
    rw [List.forall₂_iff_get]
    refine ⟨by rw [List.length_replicate, List.length_replicate], fun k h1 h2 => ?_⟩
    rw [List.get_eq_getElem, List.get_eq_getElem, List.getElem_replicate, List.getElem_replicate]
    norm_num
  elecDemand := List.forall₂_refl _
  windUser := List.forall₂_refl _
  windData := List.forall₂_refl _
  pv := List.forall₂_refl _

end Verif.Spec
