import Verif.Spec.PlanBalance
import Verif.Props.MpcBattery
import Verif.Props.MpcStore

/-!
# A predictive run passes energy on and makes none (C133)

With an electric heater. The optimiser is a parameter whose answers satisfy what is posted. The first result of a run is
left out; see C47.
-/

set_option autoImplicit false

namespace Verif
open Spec Mpc Tank
variable {N : Type}

/-- **An hour.** The electric demand, what heat pump and heater use, what the battery gets and the export are together at
most the generation, the import and what the battery gives. The heat pump makes its efficiency times what it uses. -/
theorem C133_hour {S : MpcIn N} {g : ℕ → ℕ → Except PyErr Point} {first n i : ℕ} {r : MpcResults N}
    (ho : Obeys S g) (h : FromOptimiser S g first n i r) (he : S.aux.electric = true)
    (hc : 0 < (S.perf (first + i)).cop) (hd : S.es.dischargeEff ≤ 1) :
    r.elecDemand.elecDemand + r.hp.elecTotalUsage + r.aux.demand + r.es.chargingTotal + r.grid.totalExport ≤
      r.res.generationTotal + r.grid.totalImport + r.es.dischargingTotal ∧
    r.hp.heatTotalOutput = (S.perf (first + i)).cop * r.hp.elecTotalUsage := by
  obtain ⟨cap, p, prev, f, nodes, hp, _, rfl⟩ := fromOptimiser ho h
  have hE := hp.electric he
  have hB := hp.bounds
  constructor
  · have e1 := hE.ed
    have e2 := hE.res
    have e3 : p.hptesd / (S.perf (first + i)).cop = p.esdHp * S.es.dischargeEff := by
      rw [hE.hptesd]
      field_simp
    have e4 := mul_le_mul_of_nonneg_left hd hB.esdHp
    have e5 := hB.esdAux
    dsimp only [report, hpReport, auxReport, gridReport, resReport]
    rw [he]
    simp only [if_true]
    rw [add_comm p.hptrs] at e2
    rw [e3]
    linarith
  · dsimp only [report, hpReport]
    field_simp

/-- Members of `planned` are results of later hours. -/
theorem planned_mem {rs : List (MpcResults N)} {i : ℕ} {r : MpcResults N} (hr : r ∈ planned rs i) :
    ∃ j, 1 ≤ j ∧ j ≤ i ∧ rs[j]? = some r := by
  obtain ⟨j, hj⟩ := List.mem_iff_getElem?.mp hr
  unfold planned at hj
  rw [List.getElem?_drop] at hj
  have hlt : 1 + j < (rs.take (i + 1)).length := (List.getElem?_eq_some_iff.mp hj).1
  rw [List.length_take] at hlt
  rw [List.getElem?_take_of_lt (by omega)] at hj
  exact ⟨1 + j, by omega, by omega, hj⟩

/-- Adding up inequalities between figures. -/
theorem planTally_le {part : List (MpcResults N)} {f u : MpcResults N → ℚ} (h : ∀ r ∈ part, f r ≤ u r) :
    planTally part f ≤ planTally part u := List.sum_le_sum h

theorem planTally_add (part : List (MpcResults N)) (f u : MpcResults N → ℚ) :
    planTally part (fun r => f r + u r) = planTally part f + planTally part u := by
  unfold planTally
  induction part with
  | nil => simp
  | cons r l ih => simp only [List.map_cons, List.sum_cons, ih]; ring

theorem planTally_mul (part : List (MpcResults N)) (c : ℚ) (f : MpcResults N → ℚ) :
    planTally part (fun r => c * f r) = c * planTally part f := by
  unfold planTally
  induction part with
  | nil => simp
  | cons r l ih => simp only [List.map_cons, List.sum_cons, ih]; ring

theorem planTally_nonneg {part : List (MpcResults N)} {f : MpcResults N → ℚ} (h : ∀ r ∈ part, 0 ≤ f r) :
    0 ≤ planTally part f :=
  List.sum_nonneg fun x hx => by obtain ⟨r, hr, rfl⟩ := List.mem_map.mp hx; exact h r hr

/-- What the hours of a run need, from what its stores give. -/
theorem plan_needs {S : MpcIn N} {g : ℕ → ℕ → Except PyErr Point} {first n i : ℕ} {rs : List (MpcResults N)}
    (hrun : movingHorizon S g first n = .ok rs) (hn : 2 ≤ n) (hi : first + i < 8759) (ho : Obeys S g)
    (he : S.aux.electric = true) (hd : S.es.dischargeEff ≤ 1) {best : ℚ} (h1 : 1 ≤ best)
    (hcop : ∀ hour < 8760, 0 < (S.perf hour).cop ∧ (S.perf hour).cop ≤ best) {slack : ℚ}
    (hcov : ∀ r ∈ planned rs i, Covered slack r) {heldE heldH : ℚ}
    (hbat : planTally (planned rs i) (·.es.dischargingTotal) ≤ planTally (planned rs i) (·.es.chargingTotal) + heldE)
    (hst : planTally (planned rs i) (·.ts.dischargingTotal) ≤ planTally (planned rs i) (·.ts.chargingTotal) + heldH) :
    best * (planTally (planned rs i) (·.elecDemand.elecDemand) + planTally (planned rs i) (·.grid.totalExport)) +
        planTally (planned rs i) (·.heatDemand.heatDemand) ≤
      best * (planTally (planned rs i) (·.res.generationTotal) + planTally (planned rs i) (·.grid.totalImport) + heldE) +
        heldH + planTally (planned rs i) (fun _ => slack) := by
  have hsum : planTally (planned rs i) (fun r => best * (r.elecDemand.elecDemand + r.grid.totalExport) +
      r.heatDemand.heatDemand + best * r.es.chargingTotal + r.ts.chargingTotal) ≤
      planTally (planned rs i) (fun r => best * (r.res.generationTotal + r.grid.totalImport) +
        best * r.es.dischargingTotal + r.ts.dischargingTotal + slack) := by
    refine planTally_le fun r hr => ?_
    obtain ⟨j, j1, j2, j3⟩ := planned_mem hr
    have hF : FromOptimiser S g first n j r := ⟨rs, hrun, j3, hn, j1, by omega⟩
    obtain ⟨c1, c2⟩ := hcop (first + j) (by omega)
    obtain ⟨k1, k2⟩ := C133_hour ho hF he c1 hd
    have k3 := hcov r hr
    unfold Covered at k3
    obtain ⟨cap, p, prev, f, nodes, hp, _, hrep⟩ := fromOptimiser ho hF
    have hA : 0 ≤ r.aux.demand := by
      rw [hrep]
      dsimp only [report, auxReport]
      rw [he, if_pos rfl]
      exact hp.bounds.aux
    have hU : 0 ≤ r.hp.elecTotalUsage := by
      rw [hrep]
      exact div_nonneg (mul_nonneg hp.bounds.hpStatus hp.bounds.hptVar) c1.le
    have k4 := mul_le_mul_of_nonneg_right c2 hU
    have k5 := mul_le_mul_of_nonneg_right h1 hA
    have k6 := mul_le_mul_of_nonneg_left k1 (by linarith : 0 ≤ best)
    linarith
  simp only [planTally_add, planTally_mul] at hsum
  have hb := mul_le_mul_of_nonneg_left hbat (by linarith : 0 ≤ best)
  linarith

/-- A tank without capacity gives nothing and every hour is covered. -/
theorem covered_without_tank {S : MpcIn N} {g : ℕ → ℕ → Except PyErr Point} {first n i : ℕ} {r : MpcResults N}
    (ho : ∀ hour a p, g hour a = .ok p → Posted S (hour + 1) 0 p) (h : FromOptimiser S g first n i r)
    (he : S.aux.electric = true) (hd : S.es.dischargeEff ≤ 1) :
    Covered 0 r ∧ r.ts.dischargingTotal = 0 ∧ r.ts.chargingTotal = 0 := by
  obtain ⟨rs, hr, hi, hn, h1, h8⟩ := h
  obtain ⟨_, _, _, _, hs⟩ := run_shape hn hr
  obtain ⟨hour, a, p, prev, f, nodes, ht, hg, hf, _, rfl⟩ := (hs i r h1 hi).1 (Or.inl h8)
  have hp := ho hour a p hg
  rw [← ht] at hp
  have hB := hp.bounds
  have hI := hp.ineqs
  have hsoc : p.soc = 0 := le_antisymm hI.soc hB.soc
  have htsc : p.tsc = 0 := le_antisymm (by have := hI.tsc; rw [hsoc] at this; linarith) hB.tsc
  have htsd : p.tsd = 0 := le_antisymm (by have := hI.tsd; rwa [hsoc] at this) hB.tsd
  have hfl : f = (0, 0, .standby) := by
    unfold tankFlows at hf
    rw [htsc, htsd] at hf
    dsimp only at hf
    rw [if_neg (lt_irrefl _), if_neg (lt_irrefl _)] at hf
    injection hf with hf
    exact hf.symm
  subst hfl
  refine ⟨?_, rfl, rfl⟩
  have hE := hp.electric he
  have e2 := hE.hd
  have e3 := hE.hpt
  have e4 := hE.aux
  have e5 := mul_le_mul_of_nonneg_left hd hB.esdAux
  have := hB.hptrs; have := hB.hptis; have := hB.auxRs; have := hB.auxS
  unfold Covered
  dsimp only [report, hpReport, Point.hpt, auxReport]
  rw [he, if_pos rfl]
  dsimp only
  linarith

/-- **Without stores a predictive run has to be supplied in full**, whatever the optimiser fails to solve. Over the
planned hours up to any, the electric demand, the heat demand divided by the best efficiency of the heat pump, and the
export are together at most the generation and the import (times that efficiency). -/
theorem C133_without_stores {S : MpcIn N} {g : ℕ → ℕ → Except PyErr Point} {first n i : ℕ} {rs : List (MpcResults N)}
    (hrun : movingHorizon S g first n = .ok rs) (hn : 2 ≤ n) (hi : first + i < 8759)
    (ho : ∀ hour a p, g hour a = .ok p → Posted S (hour + 1) 0 p) (he : S.aux.electric = true)
    (hd : 0 ≤ S.es.dischargeEff ∧ S.es.dischargeEff ≤ 1) (h0 : S.es.capacity = 0) {best : ℚ} (h1 : 1 ≤ best)
    (hcop : ∀ hour < 8760, 0 < (S.perf hour).cop ∧ (S.perf hour).cop ≤ best) :
    best * (planTally (planned rs i) (·.elecDemand.elecDemand) + planTally (planned rs i) (·.grid.totalExport)) +
        planTally (planned rs i) (·.heatDemand.heatDemand) ≤
      best * (planTally (planned rs i) (·.res.generationTotal) + planTally (planned rs i) (·.grid.totalImport)) := by
  have hob : Obeys S g := fun hour a p hp => ⟨0, ho hour a p hp⟩
  have hfrom : ∀ r ∈ planned rs i, ∃ j, FromOptimiser S g first n j r := fun r hr => by
    obtain ⟨j, j1, j2, j3⟩ := planned_mem hr
    exact ⟨j, rs, hrun, j3, hn, j1, by omega⟩
  have hz : ∀ (f : MpcResults N → ℚ), (∀ r ∈ planned rs i, f r = 0) → planTally (planned rs i) f = 0 := fun f hf => by
    unfold planTally
    rw [List.map_congr_left hf]
    simp
  have hw : ∀ r ∈ planned rs i, Covered 0 r ∧ r.ts.dischargingTotal = 0 ∧ r.ts.chargingTotal = 0 := fun r hr => by
    obtain ⟨j, hj⟩ := hfrom r hr
    exact covered_without_tank ho hj he hd.2
  have hbat : ∀ r ∈ planned rs i, r.es.dischargingTotal ≤ r.es.chargingTotal := fun r hr => by
    obtain ⟨j, hj⟩ := hfrom r hr
    obtain ⟨k1, k2, -, -, k5⟩ := C49_battery hob hj he hd.2
    obtain ⟨cap, p, prev, f, nodes, hp, _, hrep⟩ := fromOptimiser hob hj
    have : 0 ≤ r.es.chargingTotal := by
      rw [hrep]
      exact add_nonneg hp.bounds.escRes hp.bounds.escImp
    rw [h0] at k2
    linarith
  have := plan_needs hrun hn hi hob he hd.2 h1 hcop (slack := 0) (fun r hr => (hw r hr).1) (heldE := 0) (heldH := 0)
    (by rw [add_zero]; exact planTally_le hbat)
    (by rw [add_zero, hz _ fun r hr => (hw r hr).2.1, hz _ fun r hr => (hw r hr).2.2])
  rw [hz (fun _ => 0) fun _ _ => rfl] at this
  linarith

/-- What the battery gives in the planned hours is at most what it gets and what it held at the start, if no hour needed
a second attempt. -/
theorem plan_battery {S : MpcIn N} {g : ℕ → ℕ → Except PyErr Point} {first n i : ℕ} {rs : List (MpcResults N)}
    (hrun : movingHorizon S g first n = .ok rs) (hn : 2 ≤ n) (hi : first + i < 8759) (hin : i < n)
    (hp : PlansFrom S euler g first rs) (hob : Obeys S g) (he : S.aux.electric = true) (hd : S.es.dischargeEff ≤ 1)
    (hc : S.es.chargeEff ≤ 1) (hl : 0 ≤ S.es.selfDischarge) (hi0 : 0 ≤ S.es.initState) (h2 : ∀ hour p, g hour 1 ≠ .ok p) :
    planTally (planned rs i) (·.es.dischargingTotal) ≤
      planTally (planned rs i) (·.es.chargingTotal) + S.es.initState := by
  obtain ⟨_, hlen, h0, _, _⟩ := run_shape hn hrun
  have hri : rs[i]? = some (rs[i]'(by omega)) := List.getElem?_eq_getElem _
  have h := C115_run hrun hn hp he hd hl h2 i _ hri (by omega)
  have hcons : rs.take (i + 1) = opening S first :: planned rs i := by
    unfold planned
    cases rs with
    | nil => simp at h0
    | cons x xs =>
      simp only [List.getElem?_cons_zero, Option.some.injEq] at h0
      rw [List.take_succ_cons, h0]
      rfl
  rw [hcons] at h
  simp only [drawn, charged, List.map_cons, List.sum_cons] at h
  have z1 : (opening S first).es.dischargingTotal = 0 := rfl
  have z2 : (opening S first).es.chargingTotal = 0 := rfl
  rw [z1, z2, zero_add, zero_add] at h
  have hsoc : 0 ≤ (rs[i]'(by omega)).es.finalSoc := by
    rcases Nat.eq_zero_or_pos i with rfl | hpos
    · have : rs[0]'(by omega) = opening S first := by
        have := hri.symm.trans h0
        exact Option.some.inj this
      rw [this]
      exact hi0
    · exact (C49_battery hob ⟨rs, hrun, hri, hn, hpos, by omega⟩ he hd).1
  have hch : 0 ≤ planTally (planned rs i) (·.es.chargingTotal) := planTally_nonneg fun r hr => by
    obtain ⟨j, j1, j2, j3⟩ := planned_mem hr
    obtain ⟨cap, p, prev, f, nodes, hp, _, hrep⟩ := fromOptimiser hob (⟨rs, hrun, j3, hn, j1, by omega⟩ :
      FromOptimiser S g first n j r)
    rw [hrep]
    exact add_nonneg hp.bounds.escRes hp.bounds.escImp
  have hm := mul_le_mul_of_nonneg_right hc hch
  unfold planTally at hm ⊢
  linarith

/-- **With a battery**, if no hour needed a second attempt and the differential equation of the battery is the implicit
Euler rule: so, with what the battery held at the start. -/
theorem C133_with_battery {S : MpcIn N} {g : ℕ → ℕ → Except PyErr Point} {first n i : ℕ} {rs : List (MpcResults N)}
    (hrun : movingHorizon S g first n = .ok rs) (hn : 2 ≤ n) (hi : first + i < 8759) (hin : i < n)
    (ho : ∀ hour a p, g hour a = .ok p → Posted S (hour + 1) 0 p) (hp : PlansFrom S euler g first rs)
    (he : S.aux.electric = true) (hd : S.es.dischargeEff ≤ 1) (hc : S.es.chargeEff ≤ 1) (hl : 0 ≤ S.es.selfDischarge)
    (hi0 : 0 ≤ S.es.initState) (h2 : ∀ hour p, g hour 1 ≠ .ok p) {best : ℚ} (h1 : 1 ≤ best)
    (hcop : ∀ hour < 8760, 0 < (S.perf hour).cop ∧ (S.perf hour).cop ≤ best) :
    best * (planTally (planned rs i) (·.elecDemand.elecDemand) + planTally (planned rs i) (·.grid.totalExport)) +
        planTally (planned rs i) (·.heatDemand.heatDemand) ≤
      best * (planTally (planned rs i) (·.res.generationTotal) + planTally (planned rs i) (·.grid.totalImport) +
        S.es.initState) := by
  have hob : Obeys S g := fun hour a p hp => ⟨0, ho hour a p hp⟩
  have hz : ∀ (f : MpcResults N → ℚ), (∀ r ∈ planned rs i, f r = 0) → planTally (planned rs i) f = 0 := fun f hf => by
    unfold planTally
    rw [List.map_congr_left hf]
    simp
  have hw : ∀ r ∈ planned rs i, Covered 0 r ∧ r.ts.dischargingTotal = 0 ∧ r.ts.chargingTotal = 0 := fun r hr => by
    obtain ⟨j, j1, j2, j3⟩ := planned_mem hr
    exact covered_without_tank ho ⟨rs, hrun, j3, hn, j1, by omega⟩ he hd
  have := plan_needs hrun hn hi hob he hd h1 hcop (slack := 0) (fun r hr => (hw r hr).1) (heldE := S.es.initState)
    (heldH := 0) (plan_battery hrun hn hi hin hp hob he hd hc hl hi0 h2)
    (by rw [add_zero, hz _ fun r hr => (hw r hr).2.1, hz _ fun r hr => (hw r hr).2.2])
  rw [hz (fun _ => 0) fun _ _ => rfl] at this
  linarith

/-- **With both stores.** A thermal store as in C126, a battery as above, and no planned hour whose booked heat falls
short of the demand by more than 0.005 kWh: so, with what both stores held at the start and 0.01 kWh of heat an hour.
Missing: hours that fall short (`C133_short_hour`), second attempts (`C133_second_attempt`), a boiler
(`C133_boiler`). -/
theorem C133_with_stores_partial {S : MpcIn (List ℚ)} {g : ℕ → ℕ → Except PyErr Point} {first n i : ℕ}
    {rs : List (MpcResults (List ℚ))} (hrun : movingHorizon S g first n = .ok rs) (hn : 2 ≤ n) (hi : first + i < 8759)
    (hin : i < n) (hob : Obeys S g) (hp : PlansFrom S euler g first rs) (he : S.aux.electric = true)
    (hd : 0 ≤ S.es.dischargeEff ∧ S.es.dischargeEff ≤ 1) (hc : S.es.chargeEff ≤ 1) (hl : 0 ≤ S.es.selfDischarge)
    (hi0 : 0 ≤ S.es.initState) (h2 : ∀ hour p, g hour 1 ≠ .ok p) {tk : Tank} {net : ℕ → NetTemps} {air ret cp : ℚ}
    (htank : S.tank = ofTank tk net ret) (HS : SteadyStore tk (net 1) air) (hret : (net 1).ret = ret)
    (hcp : specificHeat (net 1).source = .ok cp)
    (hhold : ∀ hour < 8760, LayersHold tk (net 1) (S.heatDemand hour + 1 / 200))
    (hcov : ∀ r ∈ planned rs i, Covered (1 / 200) r) {best : ℚ} (h1 : 1 ≤ best)
    (hcop : ∀ hour < 8760, 0 < (S.perf hour).cop ∧ (S.perf hour).cop ≤ best) :
    best * (planTally (planned rs i) (·.elecDemand.elecDemand) + planTally (planned rs i) (·.grid.totalExport)) +
        planTally (planned rs i) (·.heatDemand.heatDemand) ≤
      best * (planTally (planned rs i) (·.res.generationTotal) + planTally (planned rs i) (·.grid.totalImport) +
        S.es.initState) + tk.capacity * cp * (ret - air) / 3600000 + (i : ℚ) / 100 := by
  obtain ⟨_, hlen, h0, _, _⟩ := run_shape hn hrun
  have hcons : rs.take (i + 1) = opening S first :: planned rs i := by
    unfold planned
    cases rs with
    | nil => simp at h0
    | cons x xs =>
      simp only [List.getElem?_cons_zero, Option.some.injEq] at h0
      rw [List.take_succ_cons, h0]
      rfl
  have ht := C131_gives_back hrun hn hob he hd.1 htank HS hret hcp hhold h2 hin (by omega)
  rw [hcons] at ht
  simp only [List.map_cons, List.sum_cons] at ht
  have z1 : (opening S first).ts.dischargingTotal = 0 := rfl
  have z2 : (opening S first).ts.chargingTotal = 0 := rfl
  rw [z1, z2, zero_add, zero_add] at ht
  have hl1 : (planned rs i).length = i := by
    unfold planned
    rw [List.length_drop, List.length_take]
    omega
  have hs : planTally (planned rs i) (fun _ => (1 / 200 : ℚ)) = i / 200 := by
    unfold planTally
    rw [List.map_const', List.sum_replicate, hl1, nsmul_eq_mul]
    ring
  have := plan_needs hrun hn hi hob he hd.2 h1 hcop hcov (heldE := S.es.initState)
    (heldH := tk.capacity * cp * (ret - air) / 3600000 + (i : ℚ) / 200)
    (plan_battery hrun hn hi hin hp hob he hd.2 hc hl hi0 h2)
    (by unfold planTally; linarith)
  rw [hs] at this
  linarith

/-! ### Concrete cases -/

namespace Mpc.Samples

/-- `steady` without a battery. -/
def bare : MpcIn Unit := { steady true 0 with es := ⟨0, 1/2, 5, 5, 9/10, 9/10, 0⟩ }

/-- The wind meets the electricity demand and the grid feeds the heat pump. -/
def gridHeat : Point := { zero with resEd := 3, exp := 3, hptid := 9, hpStatus := 1, hptVar := 9 }

theorem gridHeat_posted {t : ℕ} : Posted bare t 0 gridHeat := by
  refine ⟨?_, fun _ => ?_, fun h => (by cases h), ?_⟩ <;> constructor <;>
    norm_num [gridHeat, zero, bare, steady, hpMin]

theorem half_posted {t : ℕ} {q : ℚ} (h0 : 0 ≤ q) (h5 : q ≤ 5) : Posted (steady true 0) (t + 1) 0 (half q) := by
  have := (half_feasible (hour := t) h0 h5).posted 1 (le_refl _) (by norm_num)
  rwa [if_neg one_ne_zero] at this

/-- With a boiler: the battery rests, but all the heat of the heat pump is said to come from it. -/
def unfed : Point := { free with hptesd := 9 }

theorem unfed_feasible {hour : ℕ} : Feasible (steady false 0) euler hour 2 ⟨5, 0, fun _ => 0⟩
    (fun k => if k = 0 then { zero with socEs := 5 } else unfed) where
  socEs := rfl
  soc := rfl
  posted k h1 h2 := by
    have : k = 1 := by omega
    subst this
    rw [if_neg one_ne_zero]
    refine ⟨?_, fun h => (by cases h), fun _ => ?_, ?_⟩
    · constructor <;> dsimp only [unfed, free, zero] <;> norm_num
    · constructor <;> dsimp only [unfed, free, zero, steady, Point.hpt] <;> norm_num
    · constructor <;> dsimp only [unfed, free, zero, steady, hpMin] <;> norm_num
  battery k hk := by
    have : k = 0 := by omega
    subst this
    dsimp only [batteryRate, unfed, free, zero, steady]
    norm_num
  tank k hk := by
    have : k = 0 := by omega
    subst this
    dsimp only [tankRate, unfed, free, zero]
    norm_num

/-- The heat pump keeps a full store warm while the heater meets the demand; the battery rests. -/
def keepWarm : Point := { crossed with soc := 900, socEs := 5 }

end Mpc.Samples

/-- `C133_hour` applies, and the battery gives 2.5 kWh of which 2.25 arrive. -/
example : ∃ r, FromOptimiser (Samples.steady true 0) Samples.halving 0 2 1 r ∧
    r.elecDemand.elecDemand + r.hp.elecTotalUsage + r.aux.demand + r.es.chargingTotal + r.grid.totalExport = 45 / 4 ∧
    r.res.generationTotal + r.grid.totalImport + r.es.dischargingTotal = 45 / 4 ∧ r.hp.heatTotalOutput = 9 :=
  second (by decide +kernel)

/-- `C133_without_stores` applies, and nothing is left over: three hours need 81 kWh and are supplied with 81 kWh. -/
example : ∃ rs, movingHorizon Samples.bare (fun _ _ => .ok Samples.gridHeat) 0 4 = .ok rs ∧
    (∀ hour a p, (fun _ _ => .ok Samples.gridHeat : ℕ → ℕ → Except PyErr Point) hour a = .ok p →
      Posted Samples.bare (hour + 1) 0 p) ∧ Samples.bare.es.capacity = 0 ∧
    (∀ hour < 8760, 0 < (Samples.bare.perf hour).cop ∧ (Samples.bare.perf hour).cop ≤ 3) ∧
    3 * (planTally (planned rs 3) (·.elecDemand.elecDemand) + planTally (planned rs 3) (·.grid.totalExport)) +
      planTally (planned rs 3) (·.heatDemand.heatDemand) = 81 ∧
    3 * (planTally (planned rs 3) (·.res.generationTotal) + planTally (planned rs 3) (·.grid.totalImport)) = 81 := by
  have hc : checks (movingHorizon Samples.bare (fun _ _ => .ok Samples.gridHeat) 0 4) (fun rs => decide
      (3 * (planTally (planned rs 3) (·.elecDemand.elecDemand) + planTally (planned rs 3) (·.grid.totalExport)) +
        planTally (planned rs 3) (·.heatDemand.heatDemand) = 81 ∧
      3 * (planTally (planned rs 3) (·.res.generationTotal) + planTally (planned rs 3) (·.grid.totalImport)) = 81)) = true := by
    decide +kernel
  obtain ⟨rs, h1, h2, h3⟩ := exists_of_checks hc
  refine ⟨rs, h1, fun hour a p hp => ?_, rfl, fun _ _ => ?_, h2, h3⟩
  · cases Except.ok.inj hp
    exact Samples.gridHeat_posted
  · exact ⟨by norm_num [Samples.bare, Samples.steady], by norm_num [Samples.bare, Samples.steady]⟩

/-- The run of `halving` follows plans that start where the hour before ended. -/
theorem halving_plans {rs : List (MpcResults Unit)} (h2 : rs.map (fun r => r.es.finalSoc) = [5, 5/2, 5/4, 5/8]) :
    PlansFrom (Samples.steady true 0) euler Samples.halving 0 rs := by
  intro i b a p hb hg
  have hq := charge_at h2 hb
  have hi : b.es.finalSoc = 5 / 2 ^ i := by
    match i with
    | 0 => have := Option.some.inj hq; rw [← this]; norm_num
    | 1 => have := Option.some.inj hq; rw [← this]; norm_num
    | 2 => have := Option.some.inj hq; rw [← this]; norm_num
    | 3 => have := Option.some.inj hq; rw [← this]; norm_num
    | i + 4 => simp at hq
  rw [zero_add] at hg ⊢
  unfold Samples.halving at hg
  split_ifs at hg with ha
  cases Except.ok.inj hg
  have hpow : (0 : ℚ) < 2 ^ i := by positivity
  refine ⟨2, _, _, le_refl _, Samples.half_feasible (q := 5 / 2 ^ i) (by positivity) ?_, rfl, fun _ => hi.symm,
    fun h => (by omega)⟩
  rw [div_le_iff₀ hpow]
  have : (1 : ℚ) ≤ 2 ^ i := one_le_pow₀ (by norm_num)
  linarith

/-- `C133_with_battery` applies: the battery helps with three hours. -/
example : ∃ rs, movingHorizon (Samples.steady true 0) Samples.halving 0 4 = .ok rs ∧
    planTally (planned rs 3) (·.es.dischargingTotal) = 63 / 16 ∧
    3 * (planTally (planned rs 3) (·.elecDemand.elecDemand) + planTally (planned rs 3) (·.grid.totalExport)) +
        planTally (planned rs 3) (·.heatDemand.heatDemand) ≤
      3 * (planTally (planned rs 3) (·.res.generationTotal) + planTally (planned rs 3) (·.grid.totalImport) + 5) := by
  have hc : checks (movingHorizon (Samples.steady true 0) Samples.halving 0 4) (fun rs => decide
      (rs.map (fun r => r.es.finalSoc) = [5, 5/2, 5/4, 5/8] ∧
        planTally (planned rs 3) (·.es.dischargingTotal) = 63 / 16)) = true := by
    decide +kernel
  obtain ⟨rs, h1, h2, h3⟩ := exists_of_checks hc
  refine ⟨rs, h1, h3, ?_⟩
  have e : (Samples.steady true 0).es.initState = 5 := by decide +kernel
  have := C133_with_battery (i := 3) h1 (by norm_num) (by norm_num) (by norm_num) (fun hour a p hg => by
      unfold Samples.halving at hg
      split_ifs at hg with ha
      cases Except.ok.inj hg
      have hpow : (0 : ℚ) < 2 ^ hour := by positivity
      refine Samples.half_posted (by positivity) ?_
      rw [div_le_iff₀ hpow]
      have : (1 : ℚ) ≤ 2 ^ hour := one_le_pow₀ (by norm_num)
      linarith)
    (halving_plans h2) rfl (by norm_num [Samples.steady]) (by norm_num [Samples.steady]) (by norm_num [Samples.steady])
    (by rw [e]; norm_num) (fun _ _ h => (by cases h)) (best := 3) (by norm_num)
    (fun _ _ => ⟨by norm_num [Samples.steady], by norm_num [Samples.steady]⟩)
  rwa [e] at this

/-- C133 is false after a failed attempt: the battery is full again as at the start of the run. Three hours need
101.25 kWh; supply and start of the battery make 96 kWh. -/
theorem C133_second_attempt : ∃ (S : MpcIn Unit) (g : ℕ → ℕ → Except PyErr Point) (rs : List (MpcResults Unit)),
    movingHorizon S g 0 4 = .ok rs ∧ PlansFrom S euler g 0 rs ∧
      (∀ hour a p, g hour a = .ok p → Posted S (hour + 1) 0 p) ∧ S.aux.electric = true ∧ S.es.dischargeEff = 9 / 10 ∧
      S.es.chargeEff = 9 / 10 ∧ S.es.selfDischarge = 0 ∧ S.es.initState = 5 ∧ (∀ hour, (S.perf hour).cop = 3) ∧
      3 * (planTally (planned rs 3) (·.elecDemand.elecDemand) + planTally (planned rs 3) (·.grid.totalExport)) +
        planTally (planned rs 3) (·.heatDemand.heatDemand) = 405 / 4 ∧
      3 * (planTally (planned rs 3) (·.res.generationTotal) + planTally (planned rs 3) (·.grid.totalImport) + 5) = 96 := by
  refine ⟨Samples.steady true 0, Samples.failing, ?_⟩
  have hc : checks (movingHorizon (Samples.steady true 0) Samples.failing 0 4) (fun rs => decide
      (rs.map (fun r => r.es.finalSoc) = [5, 5/2, 5/2, 5/2] ∧
      3 * (planTally (planned rs 3) (·.elecDemand.elecDemand) + planTally (planned rs 3) (·.grid.totalExport)) +
        planTally (planned rs 3) (·.heatDemand.heatDemand) = 405 / 4 ∧
      3 * (planTally (planned rs 3) (·.res.generationTotal) + planTally (planned rs 3) (·.grid.totalImport) + 5) = 96)) = true := by
    decide +kernel
  obtain ⟨rs, h1, h2, h3, h4⟩ := exists_of_checks hc
  refine ⟨rs, h1, ?_, fun hour a p hg => ?_, rfl, rfl, rfl, rfl, by decide +kernel, fun _ => rfl, h3, h4⟩
  · intro i b a p hb hg
    rw [zero_add] at hg ⊢
    unfold Samples.failing at hg
    split_ifs at hg with ha
    cases Except.ok.inj hg
    refine ⟨2, _, _, le_refl _, Samples.half_feasible (q := 5) (by norm_num) (le_refl _), rfl, fun h0 => ?_,
      fun _ => (by decide +kernel)⟩
    have hi : i = 0 := by omega
    subst hi
    exact Option.some.inj (charge_at h2 hb)
  · unfold Samples.failing at hg
    split_ifs at hg with ha
    cases Except.ok.inj hg
    exact Samples.half_posted (by norm_num) (le_refl _)

/-- C133 is false with a boiler: the heat pump can be said to run on the battery, which keeps its charge. The boiler makes
nothing here. Three hours need 81 kWh; supply and start of the battery make 69 kWh. -/
theorem C133_boiler : ∃ (S : MpcIn Unit) (g : ℕ → ℕ → Except PyErr Point) (rs : List (MpcResults Unit)),
    movingHorizon S g 0 4 = .ok rs ∧ PlansFrom S euler g 0 rs ∧ (∀ hour p, g hour 1 ≠ .ok p) ∧
      (∀ hour a p, g hour a = .ok p → Posted S (hour + 1) 0 p) ∧ S.es.initState = 5 ∧ (∀ hour, (S.perf hour).cop = 3) ∧
      (∀ r ∈ rs, r.aux.demand = 0 ∧ r.es.finalSoc = 5) ∧
      3 * (planTally (planned rs 3) (·.elecDemand.elecDemand) + planTally (planned rs 3) (·.grid.totalExport)) +
        planTally (planned rs 3) (·.heatDemand.heatDemand) = 81 ∧
      3 * (planTally (planned rs 3) (·.res.generationTotal) + planTally (planned rs 3) (·.grid.totalImport) + 5) = 69 := by
  refine ⟨Samples.steady false 0, fun _ a => if a = 0 then .ok Samples.unfed else .error .other, ?_⟩
  have hc : checks (movingHorizon (Samples.steady false 0) (fun _ a => if a = 0 then .ok Samples.unfed else .error .other) 0 4)
      (fun rs => decide ((∀ r ∈ rs, r.aux.demand = 0 ∧ r.es.finalSoc = 5) ∧
      3 * (planTally (planned rs 3) (·.elecDemand.elecDemand) + planTally (planned rs 3) (·.grid.totalExport)) +
        planTally (planned rs 3) (·.heatDemand.heatDemand) = 81 ∧
      3 * (planTally (planned rs 3) (·.res.generationTotal) + planTally (planned rs 3) (·.grid.totalImport) + 5) = 69)) = true := by
    decide +kernel
  obtain ⟨rs, h1, h2, h3, h4⟩ := exists_of_checks hc
  refine ⟨rs, h1, ?_, fun _ _ h => (by cases h), fun hour a p hg => ?_, by decide +kernel, fun _ => rfl, h2, h3, h4⟩
  · intro i b a p hb hg
    dsimp only at hg
    split_ifs at hg with ha
    cases Except.ok.inj hg
    exact ⟨2, _, _, le_refl _, Samples.unfed_feasible, rfl, fun _ => (h2 b (List.mem_of_getElem? hb)).2.symm,
      fun h => (by omega)⟩
  · dsimp only at hg
    split_ifs at hg with ha
    cases Except.ok.inj hg
    have := (Samples.unfed_feasible (hour := hour)).posted 1 (le_refl _) (by norm_num)
    rwa [if_neg one_ne_zero] at this

/-- C133 is false when the store cannot give what was planned: the demand is booked and nothing meets it. The stores give
nothing here, and the battery held 5 kWh. Three hours need 81 kWh; supply and start of the battery make 69 kWh. -/
theorem C133_short_hour : ∃ (S : MpcIn Unit) (g : ℕ → ℕ → Except PyErr Point) (rs : List (MpcResults Unit)),
    movingHorizon S g 0 4 = .ok rs ∧ Obeys S g ∧ S.aux.electric = true ∧ S.es.initState = 5 ∧
      (∀ hour, (S.perf hour).cop = 3) ∧ (∀ r ∈ rs, r.ts.dischargingTotal = 0 ∧ r.es.dischargingTotal = 0) ∧
      3 * (planTally (planned rs 3) (·.elecDemand.elecDemand) + planTally (planned rs 3) (·.grid.totalExport)) +
        planTally (planned rs 3) (·.heatDemand.heatDemand) = 81 ∧
      3 * (planTally (planned rs 3) (·.res.generationTotal) + planTally (planned rs 3) (·.grid.totalImport) + 5) = 69 := by
  refine ⟨Samples.steady true 1, fun _ _ => .ok Samples.drawn, ?_⟩
  have hc : checks (movingHorizon (Samples.steady true 1) (fun _ _ => .ok Samples.drawn) 0 4) (fun rs => decide
      ((∀ r ∈ rs, r.ts.dischargingTotal = 0 ∧ r.es.dischargingTotal = 0) ∧
      3 * (planTally (planned rs 3) (·.elecDemand.elecDemand) + planTally (planned rs 3) (·.grid.totalExport)) +
        planTally (planned rs 3) (·.heatDemand.heatDemand) = 81 ∧
      3 * (planTally (planned rs 3) (·.res.generationTotal) + planTally (planned rs 3) (·.grid.totalImport) + 5) = 69)) = true := by
    decide +kernel
  obtain ⟨rs, h1, h2, h3, h4⟩ := exists_of_checks hc
  exact ⟨rs, h1, Samples.drawn_obeys, rfl, by decide +kernel, fun _ => rfl, h2, h3, h4⟩

/-! ### A year with both stores -/

/-- Plans that keep the store warm in every hour. -/
def Spec.warmYear (_ attempt : ℕ) : Except PyErr Point :=
  if attempt = 0 then .ok Samples.keepWarm else .error .other

theorem keepWarm_posted {t : ℕ} : Posted storedYear t 1000 Samples.keepWarm := by
  refine ⟨?_, fun _ => ?_, fun h => (by cases h), ?_⟩ <;> constructor <;>
    norm_num [Samples.keepWarm, Samples.crossed, Samples.zero, storedYear, Samples.steady, hpMin]

theorem keepWarm_feasible {hour : ℕ} : Feasible storedYear euler hour 2 ⟨5, 900, fun _ => 1000⟩
    (fun k => if k = 0 then { Samples.zero with socEs := 5, soc := 900 } else Samples.keepWarm) where
  socEs := rfl
  soc := rfl
  posted k h1 h2 := by
    have : k = 1 := by omega
    subst this
    rw [if_neg one_ne_zero]
    exact keepWarm_posted
  battery k hk := by
    have : k = 0 := by omega
    subst this
    dsimp only [batteryRate, Samples.keepWarm, Samples.crossed, Samples.zero, storedYear, Samples.steady]
    norm_num
  tank k hk := by
    have : k = 0 := by omega
    subst this
    dsimp only [tankRate, Samples.keepWarm, Samples.crossed, Samples.zero]
    norm_num

/-- The year ends, and `C133_with_stores_partial` applies up to every hour but the last. -/
example : ∃ rs, movingHorizon storedYear warmYear 0 8760 = .ok rs ∧ rs.length = 8760 ∧ ∀ i < 8759,
    3 * (planTally (planned rs i) (·.elecDemand.elecDemand) + planTally (planned rs i) (·.grid.totalExport)) +
        planTally (planned rs i) (·.heatDemand.heatDemand) ≤
      3 * (planTally (planned rs i) (·.res.generationTotal) + planTally (planned rs i) (·.grid.totalImport) + 5) + 872 +
        (i : ℚ) / 100 := by
  have hob : Obeys storedYear warmYear := fun hour a p hg => by
    unfold warmYear at hg
    split_ifs at hg with ha
    cases Except.ok.inj hg
    exact ⟨1000, keepWarm_posted⟩
  obtain ⟨rs, h, hl⟩ := C131_ends (first := 0) (n := 8760) hob rfl (by norm_num [storedYear, Samples.steady])
    (tk := bigStore) (net := fun _ => labNet) (air := 15) (source := 60) (ret := 40) rfl
    (fun _ _ => ⟨bigStore_steady, rfl, rfl⟩) (fun hour _ => storedYear_holds hour) (by norm_num [storedYear])
    ⟨_, rfl⟩ (fun _ => Or.inl ⟨_, rfl⟩) (by norm_num) (by norm_num) (by norm_num)
  have e5 : storedYear.es.initState = 5 := by decide +kernel
  obtain ⟨_, _, h0, _, hs⟩ := run_shape (by norm_num) h
  have hlater : ∀ (j : ℕ) (r : MpcResults (List ℚ)), 1 ≤ j → j < 8759 → rs[j]? = some r →
      r.es.finalSoc = 5 ∧ Covered (1 / 200) r := by
    intro j r j1 j2 hr
    obtain ⟨hour, a, p, prev, f, nodes, ht, hg, hf, _, rfl⟩ := (hs j r j1 hr).1 (Or.inl (by omega))
    have hp : p = Samples.keepWarm := by
      unfold warmYear at hg
      split_ifs at hg with ha
      exact (Except.ok.inj hg).symm
    subst hp
    refine ⟨rfl, ?_⟩
    have hfl : f.1 ≤ 9 ∧ f.2.1 = 0 := by
      have c1 : pyRound (Samples.keepWarm.tsc - Samples.keepWarm.tsd) 2 = 9 := by decide +kernel
      have c2 : pyRound (Samples.keepWarm.tsd - Samples.keepWarm.tsc) 2 = -9 := by decide +kernel
      unfold tankFlows at hf
      simp only [c1, c2] at hf
      rw [if_pos (by norm_num)] at hf
      split at hf
      · cases hf
      · cases Except.ok.inj hf
        exact ⟨min_le_right _ _, rfl⟩
    unfold Covered
    show (9 : ℚ) + f.1 ≤ 1 * 9 + 9 + f.2.1 + 1 / 200
    rw [hfl.2]
    linarith [hfl.1]
  have hplans : PlansFrom storedYear euler warmYear 0 rs := by
    intro i b a p hb hg
    unfold warmYear at hg
    split_ifs at hg with ha
    cases Except.ok.inj hg
    refine ⟨2, _, _, le_refl _, keepWarm_feasible, rfl, fun _ => ?_, fun h => (by omega)⟩
    have hopen : (opening storedYear 0).es.finalSoc = 5 := e5
    have hi : i < 8760 := by
      rw [← hl]
      exact (List.getElem?_eq_some_iff.mp hb).1
    rcases Nat.eq_zero_or_pos i with h00 | hpos
    · rw [h00] at hb
      rw [← Option.some.inj (h0.symm.trans hb), hopen]
    · by_cases h8 : i = 8759
      · rw [(hs i b hpos hb).2 (by omega) (by omega), hopen]
      · exact (hlater i b hpos (by omega) hb).1.symm
  refine ⟨rs, h, hl, fun i hi => ?_⟩
  have := C133_with_stores_partial (i := i) h (by norm_num) (by omega) (by omega) hob hplans rfl
    ⟨by norm_num [storedYear, Samples.steady], by norm_num [storedYear, Samples.steady]⟩
    (by norm_num [storedYear, Samples.steady]) (by norm_num [storedYear, Samples.steady]) (by rw [e5]; norm_num)
    (fun hour p hp => by unfold warmYear at hp; rw [if_neg (by norm_num)] at hp; cases hp)
    (tk := bigStore) (net := fun _ => labNet) (air := 15) (ret := 40) (cp := 4185) rfl bigStore_steady rfl
    (by decide +kernel) (fun hour _ => storedYear_holds hour)
    (fun r hr => by
      obtain ⟨j, j1, j2, j3⟩ := planned_mem hr
      exact (hlater j r j1 (by omega) j3).2)
    (best := 3) (by norm_num) (fun _ _ => ⟨by norm_num [storedYear], by norm_num [storedYear]⟩)
  have e : bigStore.capacity = 30000 := rfl
  have e2 : (30000 : ℚ) * 4185 * (40 - 15) / 3600000 < 872 := by norm_num
  rw [e, e5] at this
  linarith

end Verif
