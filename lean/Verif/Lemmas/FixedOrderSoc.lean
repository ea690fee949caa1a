import Verif.Lemmas.FixedOrderInv

/-!
# Orders in which the battery is never overdrawn
-/

set_option autoImplicit false

namespace Verif
open Spec
namespace FixedOrder
variable {N : Type}

/-- History without 'ES to HP to demand' after 'HP import to TS'. -/
def Safe4 (done : List Process) : Prop :=
  ¬ [Process.esToHpToDemand, .hpImportToTs].Sublist done

theorem Safe4.tail {p : Process} {done : List Process} (h : Safe4 (p :: done)) : Safe4 done :=
  fun hs => h (hs.cons _)

/-- The battery holds no negative charge, the pump does not exceed its duty before the rounding process,
and import meets the electric demand. -/
structure SocInv (P : Plant N) (i : StepIn N) (done : List Process) (c : Checks) : Prop where
  base : Base c
  s0 : 0 ≤ c.soc
  scap : Process.importToEs ∉ done → c.soc ≤ P.es.capacity
  u1 : Process.hpImportToTs ∉ done → c.hpUsage ≤ i.perf.duty
  met : Process.importToDemand ∈ done → c.elecUnmet = 0

theorem maxCharging_eq_room {b : Battery} {m s : ℚ} (hb : 0 ≤ b.chargeMax) (hs : b.capacity < s) :
    b.maxCharging m s = b.capacity - s := by
  unfold Battery.maxCharging
  dsimp only
  refine min_eq_right ?_
  split_ifs with h1 h2
  · linarith [h1.1]
  · linarith
  · linarith

theorem socInv_step {P : Plant N} {i : StepIn N} (H : StepOk P i) {done : List Process}
    {c : Checks} {p : Process} {a : Amt} (ha : amount P i c p = .ok a) (hn : p ∉ done)
    (h4 : Safe4 (p :: done)) (h : SocInv P i done c) : SocInv P i (p :: done) (update p a c) := by
  have hb' := base_step H ha h.base
  obtain ⟨hb, s0, scap, u1, met⟩ := h
  have hcop := H.cop_pos
  have hdu := H.duty_nonneg
  have hscap : Process.importToEs ∉ p :: done → c.soc ≤ P.es.capacity :=
    fun h => scap (fun h' => h (List.mem_cons_of_mem _ h'))
  have hu1 : Process.hpImportToTs ∉ p :: done → c.hpUsage ≤ i.perf.duty :=
    fun h => u1 (fun h' => h (List.mem_cons_of_mem _ h'))
  have hmet : Process.importToDemand ∈ p :: done → p ≠ .importToDemand → c.elecUnmet = 0 := by
    intro hm hp
    rw [List.mem_cons] at hm
    rcases hm with h' | h'
    · exact absurd h'.symm hp
    · exact met h'
  cases p <;> simp only [amount, Except.ok.injEq] at ha
  case resToDemand => exact ⟨hb', s0, hscap, hu1, fun hm => hmet hm (by decide)⟩
  case esToDemand =>
    subst ha
    have h0 : min c.elecUnmet c.soc ≤ c.soc := min_le_right _ _
    have h1 : 0 ≤ min c.elecUnmet c.soc := le_min hb.e0 s0
    refine ⟨hb', by simp only [update, Amt.scalar, esToDemand]; linarith,
      fun hh => by have := hscap hh; simp only [update, Amt.scalar, esToDemand]; linarith, hu1,
      fun hm => ?_⟩
    have := hmet hm (by decide)
    simp only [update, Amt.scalar, esToDemand, this, min_eq_left s0, sub_zero]
  case importToDemand =>
    subst ha
    exact ⟨hb', s0, hscap, hu1, fun _ => by simp [update, Amt.scalar]⟩
  case hpResToDemand =>
    have hle : a.h ≤ i.perf.duty - c.hpUsage := by subst ha; exact min_le_right _ _
    exact ⟨hb', s0, hscap, fun _ => by simp only [update]; linarith, fun hm => hmet hm (by decide)⟩
  case eauxResToDemand => exact ⟨hb', s0, hscap, hu1, fun hm => hmet hm (by decide)⟩
  case hpImportToDemand =>
    refine ⟨hb', s0, hscap, fun hh => ?_, fun hm => hmet hm (by decide)⟩
    have := hu1 hh
    subst ha
    simp only [update, hpImportToDemand]
    split_ifs
    · linarith
    · have := min_le_right c.heatUnmet (i.perf.duty - c.hpUsage); linarith
  case tsToDemand => exact ⟨hb', s0, hscap, hu1, fun hm => hmet hm (by decide)⟩
  case esToHpToDemand =>
    have hni : Process.hpImportToTs ∉ done :=
      fun hm => h4 ((List.singleton_sublist.mpr hm).cons_cons _)
    have hu := u1 hni
    have hle : a.e ≤ c.soc := by
      subst ha
      refine elecUsage_le hcop s0 ((min_le_left _ _).trans ?_)
      exact thermalOutput_demand_le_supply hcop s0
    have hnn : 0 ≤ a.e := by
      subst ha
      exact elecUsage_nonneg hcop hdu
        (le_min (thermalOutput_demand_nonneg hcop hdu s0 hb.h0) (by linarith))
    exact ⟨hb', by simp only [update]; linarith,
      fun hh => by have := hscap hh; simp only [update]; linarith, hu1,
      fun hm => hmet hm (by decide)⟩
  case auxToDemand => exact ⟨hb', s0, hscap, hu1, fun hm => hmet hm (by decide)⟩
  case hpResToTs =>
    simp only [except_bind_ok, except_pure_ok] at ha
    obtain ⟨m, hm, rfl⟩ := ha
    have hle1 : (hpResToTs P.hp m c.resLeft i.perf c.hpUsage c.tsDischarge c.tsCharge).h
        ≤ i.perf.duty - c.hpUsage := (min_le_left _ _).trans (min_le_left _ _)
    exact ⟨hb', s0, hscap, fun _ => by simp only [update]; linarith, fun hm => hmet hm (by decide)⟩
  case eauxResToTs => exact ⟨hb', s0, hscap, hu1, fun hm => hmet hm (by decide)⟩
  case hpImportToTs =>
    exact ⟨hb', s0, hscap, fun hh => absurd List.mem_cons_self hh, fun hm => hmet hm (by decide)⟩
  case resToEs =>
    subst ha
    have hcap := H.es.capacity_nonneg
    have hle : P.es.maxCharging c.resLeft c.soc ≤ P.es.capacity - c.soc := maxCharging_le_room
    refine ⟨hb', ?_, fun _ => by simp only [update, Amt.scalar]; linarith, hu1,
      fun hm => hmet hm (by decide)⟩
    simp only [update, Amt.scalar]
    by_cases hs : c.soc ≤ P.es.capacity
    · have := maxCharging_nonneg (m := c.resLeft) H.es.chargeMax_nonneg hs
      linarith
    · rw [maxCharging_eq_room H.es.chargeMax_nonneg (not_le.mp hs)]; linarith
  case importToEs =>
    subst ha
    have hs := scap hn
    have : 0 ≤ P.es.chargeToCapacity c.soc := by
      unfold Battery.chargeToCapacity Battery.selfLoss
      have h1 := mul_nonneg s0 H.es.selfDischarge_nonneg
      have h2 := mul_nonneg (sub_nonneg.mpr hs) H.es.chargeEff_nonneg
      exact le_min (by linarith) H.es.chargeMax_nonneg
    exact ⟨hb', by simp only [update, Amt.scalar]; linarith, fun hh => absurd List.mem_cons_self hh,
      hu1, fun hm => hmet hm (by decide)⟩
  case resToExport => exact ⟨hb', s0, hscap, hu1, fun hm => hmet hm (by decide)⟩

theorem loop_soc {P : Plant N} {i : StepIn N} (H : StepOk P i) {b : Bool} {order : List ℤ}
    (hnd : order.Nodup) (hs : b = true → ¬ ([12, 8] : List ℤ).Sublist order)
    {s : Checks × Results N}
    (h : runOrder P i (keyOf b) order (initChecks P i, initResults P i b) = .ok s) :
    ∃ ps, List.Forall₂ (fun n p => keyOf b n = .ok p) order ps ∧
      SocInv P i ps.reverse s.1 := by
  obtain ⟨ps, hf, hr⟩ := runOrder_ok h
  refine ⟨ps, hf, ?_⟩
  have h4 : Safe4 ps.reverse := by
    intro h
    have h' := List.reverse_sublist.mpr h
    rw [List.reverse_reverse] at h'
    cases b with
    | false => exact (forall₂_noTwelve hf).1 (h'.subset (by simp))
    | true => exact hs rfl (sublist_of_procs hf (.cons rfl (.cons rfl .nil)) h')
  have := runProcs_induct (P := P) (i := i)
    (Inv := fun done s => done.Nodup → Safe4 done → SocInv P i done s.1)
    (fun done p c r a ha hi hd hq => by
      rw [List.nodup_cons] at hd
      exact socInv_step H ha hd.1 hq (hi hd.2 hq.tail)) ps [] _ _ hr
    (fun _ _ => ⟨⟨H.deficit_nonneg, H.heat_nonneg, H.surplus_nonneg⟩, H.soc_nonneg,
      fun _ => H.soc_le, fun _ => H.duty_nonneg, fun h => absurd h List.not_mem_nil⟩)
  rw [List.append_nil] at this
  exact this (List.nodup_reverse.mpr (nodup_procs hf hnd)) h4

end FixedOrder
end Verif
