import Verif.Lemmas.NoStores
import Verif.Props.Run
import Verif.Props.FixedOrder
import Verif.Props.Tank
import Mathlib.Algebra.Order.BigOperators.Group.List

/-!
# More generation never costs (C102); hours without stores stand alone (C103)
-/

set_option autoImplicit false

namespace Verif
open Spec FixedOrder
variable {N : Type}

/-! ### One hour -/

theorem step_cheaper {P : Plant N} {i i' : StepIn N} (H : StepOk P i) (H' : StepOk P i')
    (hn : NoStores P i) (hn' : NoStores P i') (hm : MoreSurplus i i')
    (hone : i.surplus = 0 ∨ i.deficit = 0) {b : Bool} {order : List ℤ} (hnd : order.Nodup)
    {r r' : Results N} (h : step P i b order = .ok r) (h' : step P i' b order = .ok r') :
    ∃ q q' c c' n n', Cheaper q q' ∧ Frame P i b q ∧ Frame P i' b q' ∧
      r.grid = (totals2 P i b n (totals1 P b q)).grid ∧
      r'.grid = (totals2 P i' b n' (totals1 P b q')).grid ∧
      r.aux.cost = (totals1 P b q).aux.cost ∧ r'.aux.cost = (totals1 P b q').aux.cost ∧
      runOrder P i (keyOf b) order (initChecks P i, initResults P i b) = .ok (c, q) ∧
      runOrder P i' (keyOf b) order (initChecks P i', initResults P i' b) = .ok (c', q') := by
  obtain ⟨c, r1, hd, hr⟩ := step_ok h
  obtain ⟨c', r1', hd', hr'⟩ := step_ok h'
  obtain ⟨q, n, hq, e1⟩ := dispatch_ok hd
  obtain ⟨q', n', hq', e1'⟩ := dispatch_ok hd'
  dsimp only at e1 e1' hq hq'
  obtain ⟨g1, k1⟩ := rule_grid hr
  obtain ⟨g1', k1'⟩ := rule_grid hr'
  obtain ⟨ps, hf, hp⟩ := runOrder_ok hq
  obtain ⟨ps', hf', hp'⟩ := runOrder_ok hq'
  have := procs_unique hf' hf
  subst this
  have hI := idle_init H hn
  have hI' := idle_init H' hn'
  have hR : Richer [] (initChecks P i) (initChecks P i') := by
    rcases hone with h0 | h0
    · right
      exact ⟨h0, hm.deficit, hm.heatDemand.le, fun _ => le_rfl,
        Or.inr (by simp only [initChecks]; rw [hm.heatDemand])⟩
    · left
      refine ⟨?_, hm.heatDemand, rfl, hm.surplus⟩
      have h1 := hm.deficit
      have h2 := H'.deficit_nonneg
      simp only [initChecks]
      linarith
  have hC : Cheaper (initResults P i b) (initResults P i' b) :=
    ⟨le_rfl, le_rfl, le_rfl, le_rfl, ⟨rfl, rfl⟩, ⟨rfl, rfl⟩⟩
  have hch := cheaper_loop H H' hn hn' hm.perf ps' [] _ _ _ _ (nodup_procs hf hnd)
    (fun _ _ hh => by cases hh) hp hp' hI hI' hR hC
  have hfr : Frame P i b q := runProcs_induct (fun _ s => Frame P i b s.2)
    (fun _ p _ _ a _ hh => frame_record p a hh) ps' [] _ _ hp ⟨rfl, rfl, rfl, rfl, rfl, rfl, rfl⟩
  have hfr' : Frame P i' b q' := runProcs_induct (fun _ s => Frame P i' b s.2)
    (fun _ p _ _ a _ hh => frame_record p a hh) ps' [] _ _ hp' ⟨rfl, rfl, rfl, rfl, rfl, rfl, rfl⟩
  refine ⟨q, q', c, c', n, n', hch, hfr, hfr', ?_, ?_, ?_, ?_, hq, hq'⟩
  · rw [g1, e1]
  · rw [g1', e1']
  · rw [k1, e1]; rfl
  · rw [k1', e1']; rfl

/-- C102 for an hour: without stores, more surplus generation or less unmet demand never raises the import
and never lowers the export, whatever the order of the processes (each listed at most once), on either
side of the setpoint and for every minimum output. -/
theorem C102_hour {P : Plant N} {i i' : StepIn N} (H : StepOk P i) (H' : StepOk P i')
    (hn : NoStores P i) (hn' : NoStores P i') (hm : MoreSurplus i i')
    (hone : i.surplus = 0 ∨ i.deficit = 0) {b : Bool} {order : List ℤ} (hnd : order.Nodup)
    {r r' : Results N} (h : step P i b order = .ok r) (h' : step P i' b order = .ok r') :
    r'.grid.totalImport ≤ r.grid.totalImport ∧ r.grid.totalExport ≤ r'.grid.totalExport := by
  obtain ⟨q, q', c, c', n, n', hc, -, -, hg, hg', -⟩ :=
    step_cheaper H H' hn hn' hm hone hnd h h'
  rw [hg, hg']
  obtain ⟨y1, y2, y3, y4, ⟨y5, y6⟩, y7, y8⟩ := hc
  refine ⟨?_, y4⟩
  simp only [totals2, totals1, y5, y6, y7, y8]
  split_ifs <;> linarith

/-- C102, money: if neither the price of imports nor that of exports is negative, the hour's cash flow does
not fall, and with a fuel price that is not negative nor does the cost of the auxiliary heater rise. -/
theorem C102_hour_cash {P : Plant N} {i i' : StepIn N} (H : StepOk P i) (H' : StepOk P i')
    (hn : NoStores P i) (hn' : NoStores P i') (hm : MoreSurplus i i')
    (hone : i.surplus = 0 ∨ i.deficit = 0) {b : Bool} {order : List ℤ} (hnd : order.Nodup)
    {r r' : Results N} (h : step P i b order = .ok r) (h' : step P i' b order = .ok r')
    (hp : 0 ≤ i.importPrice) (he : 0 ≤ P.exportPrice) :
    r.grid.cashflow ≤ r'.grid.cashflow ∧ (0 ≤ P.aux.cost → r'.aux.cost ≤ r.aux.cost) := by
  obtain ⟨hi, hx⟩ := C102_hour H H' hn hn' hm hone hnd h h'
  obtain ⟨q, q', c, c', n, n', hc, hf, hf', hg, hg', ha, ha', -⟩ :=
    step_cheaper H H' hn hn' hm hone hnd h h'
  constructor
  · have e1 : r.grid.cashflow = r.grid.totalExport * P.exportPrice / 1000
        - r.grid.totalImport * i.importPrice / 1000 := by
      rw [hg, ← hf.importPrice]; rfl
    have e2 : r'.grid.cashflow = r'.grid.totalExport * P.exportPrice / 1000
        - r'.grid.totalImport * i.importPrice / 1000 := by
      rw [hg', ← hm.importPrice, ← hf'.importPrice]; rfl
    have k1 := mul_le_mul_of_nonneg_right hi hp
    have k2 := mul_le_mul_of_nonneg_right hx he
    rw [e1, e2]
    linarith
  · intro hcost
    have e1 : r.aux.cost = (if P.aux.electric then i.importPrice else P.aux.cost)
        * q.heatDemand.aux := by
      rw [ha, ← hf.importPrice]; simp only [totals1]; ring
    have e2 : r'.aux.cost = (if P.aux.electric then i.importPrice else P.aux.cost)
        * q'.heatDemand.aux := by
      rw [ha', ← hm.importPrice, ← hf'.importPrice]; simp only [totals1]; ring
    rw [e1, e2]
    refine mul_le_mul_of_nonneg_left hc.aux ?_
    split_ifs
    · exact hp
    · exact hcost

/-! ### A run -/

/-- Without stores nothing is carried from hour to hour. -/
theorem step_bare {P : Plant N} {i : StepIn N} (ht : P.tank.capacity = 0) (hb : P.es.capacity = 0)
    {b : Bool} {order : List ℤ} {r : Results N} (h : step P i b order = .ok r) :
    r.ts.finalNodesTemp = some i.nodes ∧ r.es.finalSoc = 0 := by
  obtain ⟨c, r1, hd, hr⟩ := step_ok h
  simp only [dispatch, except_bind_ok, except_pure_ok] at hd
  obtain ⟨⟨c', r0'⟩, h0, nodes, hn, e⟩ := hd
  obtain ⟨rfl, rfl⟩ := Prod.mk.inj e
  unfold tankUpdate at hn
  rw [if_pos ht] at hn
  cases hn
  have h1 : ∀ m soc, P.es.newSoc m soc = 0 := by
    intro m soc
    unfold Battery.newSoc
    dsimp only
    rw [hb]
    split_ifs with k1 k2
    · rfl
    · rfl
    · push Not at k1 k2; linarith
  have hsoc : (totals2 P i b i.nodes (totals1 P b r0')).es.finalSoc = 0 := h1 _ _
  unfold minOutputRule at hr
  dsimp only at hr
  by_cases k1 : (totals2 P i b i.nodes (totals1 P b r0')).hp.heatTotalOutput < minOut P i ∧
      (totals2 P i b i.nodes (totals1 P b r0')).hp.heatTotalOutput > minTrigger b
  · rw [if_pos k1, except_bind_ok] at hr
    obtain ⟨m, -, hr⟩ := hr
    by_cases k2 : minOut P i - (totals2 P i b i.nodes (totals1 P b r0')).hp.heatTotalOutput
        > m + c'.tsDischarge - c'.tsCharge
    · rw [if_pos k2] at hr
      cases b with
      | true =>
        simp only [if_true, hpOffBelow, except_bind_ok] at hr
        obtain ⟨m', -, hr⟩ := hr
        rw [if_pos ht] at hr
        simp only [except_pure_ok] at hr
        subst hr
        exact ⟨rfl, hsoc⟩
      | false =>
        simp only [Bool.false_eq_true, if_false, hpOffAbove, if_pos ht, except_bind_ok,
          except_pure_ok] at hr
        obtain ⟨n', hn', hr⟩ := hr
        cases hn'
        subst hr
        exact ⟨rfl, hsoc⟩
    · rw [if_neg k2] at hr
      simp only [hpRaise, if_pos ht, except_pure_ok] at hr
      subst hr
      exact ⟨rfl, hsoc⟩
  · rw [if_neg k1] at hr
    cases hr
    exact ⟨rfl, hsoc⟩

theorem bare_before {S : RunIn N} (H : RunOk S) (hs : RunNoStores S) {first n : ℕ}
    {rs : List (Results N)} (h : runTimesteps S first n = .ok rs) : ∀ k, k ≤ n →
      nodesBefore S rs k = S.tank.initTemps ∧ socBefore S rs k = 0 := by
  obtain ⟨rows, hall⟩ := run_hours H h
  intro k
  induction k with
  | zero =>
    intro _
    exact ⟨rfl, by simp only [socBefore, Battery.initState, hs.battery, mul_zero]⟩
  | succ k ih =>
    intro hk
    obtain ⟨r, heat, price, row, perf, gen, wnd, pv, elec, r0, hr, ho, -, -⟩ := hall k (by omega)
    obtain ⟨e1, e2⟩ := step_bare (P := plant S) hs.tankCapacity hs.battery ho.stepEq
    have hre := ho.resultEq
    have f1 : r.ts.finalNodesTemp = some (nodesBefore S rs k) := by rw [hre]; exact e1
    have f2 : r.es.finalSoc = 0 := by rw [hre]; exact e2
    refine ⟨?_, ?_⟩
    · simp only [nodesBefore, hr, Option.bind_some, f1, Option.getD_some]
      exact (ih (by omega)).1
    · simp only [socBefore, hr, Option.map_some, Option.getD_some, f2]

theorem forall₂_getElem? {α β : Type} {R : α → β → Prop} {l : List α} {l' : List β}
    (h : List.Forall₂ R l l') {t : ℕ} {x : α} {x' : β} (hx : l[t]? = some x) (hx' : l'[t]? = some x') :
    R x x' := by
  obtain ⟨h1, e1⟩ := List.getElem?_eq_some_iff.mp hx
  obtain ⟨h2, e2⟩ := List.getElem?_eq_some_iff.mp hx'
  have := (List.forall₂_iff_get.mp h).2 t h1 h2
  simp only [List.get_eq_getElem] at this
  rwa [e1, e2] at this

theorem moreGen_at {S S' : RunIn N} (hm : MoreGeneration S S') {t : ℕ} {g g' : ℚ}
    (hg : (generation S)[t]? = some g) (hg' : (generation S')[t]? = some g') : g ≤ g' := by
  unfold generation wind at hg hg'
  simp only [List.getElem?_zipWith_eq_some] at hg hg'
  obtain ⟨w, p, ⟨u, d, hu, hd, rfl⟩, hp, rfl⟩ := hg
  obtain ⟨w', p', ⟨u', d', hu', hd', rfl⟩, hp', rfl⟩ := hg'
  have h1 := forall₂_getElem? hm.windUser hu hu'
  have h2 := forall₂_getElem? hm.windData hd hd'
  have h3 := forall₂_getElem? hm.pv hp hp'
  linarith

theorem otherGen_ok {S S' : RunIn N} (H : RunOk S) (hm : OtherGeneration S S') : RunOk S' := by
  rw [hm]
  exact ⟨H.es, H.heat_nonneg, H.cop_pos, H.duty_nonneg, H.zero_cap, H.tank_nonneg⟩

/-- C102, hour by hour: of two runs that differ in wind and solar power and electric demand only, one imports at
most as much and exports at least as much as the other in every hour in which it has at least as much generation
and at most as much electric demand, whatever the other hours are; if the prices are not negative its cash flow of
the hour is at least as high. -/
theorem C102_each_hour {S S' : RunIn N} (H : RunOk S) (hs : RunNoStores S) (same : OtherGeneration S S')
    (ha : S.orderAbove.Nodup) (hb : S.orderBelow.Nodup) {first n : ℕ} {rs rs' : List (Results N)}
    (h : runTimesteps S first n = .ok rs) (h' : runTimesteps S' first n = .ok rs') :
    List.Forall₂ (fun r r' => r.res.generationTotal ≤ r'.res.generationTotal →
      r'.elecDemand.elecDemand ≤ r.elecDemand.elecDemand →
      r'.grid.totalImport ≤ r.grid.totalImport ∧ r.grid.totalExport ≤ r'.grid.totalExport ∧
      (0 ≤ r.grid.importPrice → 0 ≤ S.exportPrice → r.grid.cashflow ≤ r'.grid.cashflow)) rs rs' := by
  have H' := otherGen_ok H same
  obtain ⟨rows, hall⟩ := run_hours H h
  obtain ⟨rows', hall'⟩ := run_hours H' h'
  have hl := C27_one_result_per_hour h
  have hl' := C27_one_result_per_hour h'
  refine List.forall₂_iff_get.mpr ⟨hl.trans hl'.symm, fun k hk hk' => ?_⟩
  have hkn : k < n := hl ▸ hk
  obtain ⟨r, heat, price, row, perf, gen, wnd, pv, elec, r0, hr, ho, hsp, hst⟩ := hall k hkn
  obtain ⟨r', heat', price', row', perf', gen', wnd', pv', elec', r0', hr', ho', hsp', hst'⟩ :=
    hall' k hkn
  have er : rs.get ⟨k, hk⟩ = r := by
    have := List.getElem?_eq_getElem hk
    rw [hr] at this
    exact (Option.some.inj this).symm
  have er' : rs'.get ⟨k, hk'⟩ = r' := by
    have := List.getElem?_eq_getElem hk'
    rw [hr'] at this
    exact (Option.some.inj this).symm
  rw [er, er']
  have e1 : heat' = heat := by
    have := ho'.heatEq
    rw [same] at this
    exact Option.some.inj (this.symm.trans ho.heatEq)
  have e2 : price' = price := by
    have := ho'.priceEq
    rw [same] at this
    exact Option.some.inj (this.symm.trans ho.priceEq)
  have e3 : perf' = perf := by
    have := ho'.perfEq
    rw [same] at this
    exact Option.some.inj (this.symm.trans ho.perfEq)
  subst e1 e2 e3
  have ep : plant S' = plant S := by rw [same]; rfl
  have es : S'.setpoint = S.setpoint := by rw [same]
  have eoa : S'.orderAbove = S.orderAbove := by rw [same]
  have eob : S'.orderBelow = S.orderBelow := by rw [same]
  have hst2 := ho'.stepEq
  rw [ep, es, eoa, eob] at hst2
  rw [ep] at hst'
  rw [ho.resultEq, ho'.resultEq]
  intro hgen hel
  replace hgen : gen ≤ gen' := hgen
  replace hel : elec' ≤ elec := hel
  have hmore : MoreSurplus
      (hourIn (first + k) heat' price' row perf' (nodesBefore S rs k) (socBefore S rs k))
      (hourIn (first + k) heat' price' row' perf' (nodesBefore S' rs' k) (socBefore S' rs' k)) := by
    have b1 := hsp.balance
    have b2 := hsp'.balance
    have n1 := hsp.surplus_nonneg
    have n2 := hsp.deficit_nonneg
    have n3 := hsp'.surplus_nonneg
    have n4 := hsp'.deficit_nonneg
    refine ⟨rfl, rfl, rfl, ?_, ?_⟩
    · dsimp only
      rcases hsp.exclusive with x | x <;> rcases hsp'.exclusive with y | y <;> linarith
    · dsimp only
      rcases hsp.exclusive with x | x <;> rcases hsp'.exclusive with y | y <;> linarith
  have hnd : (if price' > S.setpoint then S.orderAbove else S.orderBelow).Nodup := by
    split_ifs
    · exact ha
    · exact hb
  have hn1 : NoStores (plant S) (hourIn (first + k) heat' price' row perf' (nodesBefore S rs k)
      (socBefore S rs k)) := ⟨hs.battery, fun s m hh => hs.tank _ s _ m hh⟩
  have hn2 : NoStores (plant S) (hourIn (first + k) heat' price' row' perf' (nodesBefore S' rs' k)
      (socBefore S' rs' k)) := ⟨hs.battery, fun s m hh => hs.tank _ s _ m hh⟩
  obtain ⟨g1, g2⟩ := C102_hour hst hst' hn1 hn2 hmore hsp.exclusive hnd ho.stepEq hst2
  refine ⟨g1, g2, fun hp he => ?_⟩
  have hp' : 0 ≤ price' := by
    have : r0.grid.importPrice = price' := (C24_cashflow hst hnd ho.stepEq).2.2.2
    rw [← this]
    exact hp
  exact (C102_hour_cash hst hst' hn1 hn2 hmore hsp.exclusive hnd ho.stepEq hst2 hp' he).1

/-- C102 for a run: in every hour the run with more generation (or less electric demand) imports at most as
much and exports at least as much; if the prices are not negative its cash flow is at least as high. -/
theorem C102_run {S S' : RunIn N} (H : RunOk S) (hs : RunNoStores S) (hm : MoreGeneration S S')
    (ha : S.orderAbove.Nodup) (hb : S.orderBelow.Nodup) {first n : ℕ} {rs rs' : List (Results N)}
    (h : runTimesteps S first n = .ok rs) (h' : runTimesteps S' first n = .ok rs') :
    List.Forall₂ (fun r r' => r'.grid.totalImport ≤ r.grid.totalImport ∧
      r.grid.totalExport ≤ r'.grid.totalExport ∧
      ((∀ p ∈ S.importPrice, 0 ≤ p) → 0 ≤ S.exportPrice → r.grid.cashflow ≤ r'.grid.cashflow))
      rs rs' := by
  obtain ⟨rows, hall⟩ := run_hours H h
  obtain ⟨rows', hall'⟩ := run_hours (otherGen_ok H hm.same) h'
  have hl := C27_one_result_per_hour h
  obtain ⟨hlen, key⟩ := List.forall₂_iff_get.mp (C102_each_hour H hs hm.same ha hb h h')
  refine List.forall₂_iff_get.mpr ⟨hlen, fun k hk hk' => ?_⟩
  have hkn : k < n := hl ▸ hk
  have := key k hk hk'
  obtain ⟨r, heat, price, row, perf, gen, wnd, pv, elec, r0, hr, ho, -, hst⟩ := hall k hkn
  obtain ⟨r', heat', price', row', perf', gen', wnd', pv', elec', r0', hr', ho', -, -⟩ := hall' k hkn
  have er : rs.get ⟨k, hk⟩ = r := by
    have := List.getElem?_eq_getElem hk
    rw [hr] at this
    exact (Option.some.inj this).symm
  have er' : rs'.get ⟨k, hk'⟩ = r' := by
    have := List.getElem?_eq_getElem hk'
    rw [hr'] at this
    exact (Option.some.inj this).symm
  rw [er, er'] at this ⊢
  obtain ⟨g1, g2, g3⟩ := this (by rw [ho.resultEq, ho'.resultEq]; exact moreGen_at hm ho.genEq ho'.genEq)
    (by rw [ho.resultEq, ho'.resultEq]; exact forall₂_getElem? hm.elecDemand ho'.elecEq ho.elecEq)
  refine ⟨g1, g2, fun hp he => g3 ?_ he⟩
  have e : r.grid.importPrice = price := by
    rw [ho.resultEq]
    exact (C24_cashflow hst (by split_ifs <;> assumption) ho.stepEq).2.2.2
  rw [e]
  exact hp _ (List.mem_of_getElem? ho.priceEq)

theorem sum_le_of_forall₂ {α β : Type} {R : α → β → Prop} (f : α → ℚ) (g : β → ℚ) {l : List α}
    {l' : List β} (h : List.Forall₂ R l l') (hR : ∀ a b, R a b → f a ≤ g b) :
    (l.map f).sum ≤ (l'.map g).sum := by
  induction h with
  | nil => exact le_rfl
  | cons h1 _ ih =>
    simp only [List.map_cons, List.sum_cons]
    linarith [hR _ _ h1]

/-- A thermal store of capacity zero, which is how the workbook says there is none, offers nothing. -/
theorem C102_no_tank {S : RunIn (List ℚ)} {tk : Tank} {net : ℕ → NetTemps} {initial : ℚ}
    (ht : S.tank = Tank.toTankI tk net initial) (hc : tk.capacity = 0) (hb : S.es.capacity = 0) :
    RunNoStores S := by
  refine ⟨hb, by rw [ht]; exact hc, fun hour s nodes m h => ?_⟩
  rw [ht] at h
  have h' : Tank.maxEnergy tk hour s (net hour) nodes = .ok m := h
  by_cases hl : nodes.length = tk.number
  · rw [C32_no_energy hc hour s (net hour) hl] at h'
    exact (Except.ok.inj h').symm
  · unfold Tank.maxEnergy at h'
    rw [if_pos hl] at h'
    cases h'

/-- C102 over the span simulated: total import, total export and the balance of the bill. -/
theorem C102_bill {S S' : RunIn N} (H : RunOk S) (hs : RunNoStores S) (hm : MoreGeneration S S')
    (ha : S.orderAbove.Nodup) (hb : S.orderBelow.Nodup) {first n : ℕ} {rs rs' : List (Results N)}
    (h : runTimesteps S first n = .ok rs) (h' : runTimesteps S' first n = .ok rs') :
    (rs'.map (·.grid.totalImport)).sum ≤ (rs.map (·.grid.totalImport)).sum ∧
    (rs.map (·.grid.totalExport)).sum ≤ (rs'.map (·.grid.totalExport)).sum ∧
    ((∀ p ∈ S.importPrice, 0 ≤ p) → 0 ≤ S.exportPrice →
      (rs.map (·.grid.cashflow)).sum ≤ (rs'.map (·.grid.cashflow)).sum) := by
  have hall := C102_run H hs hm ha hb h h'
  refine ⟨?_, ?_, fun hp he => ?_⟩
  · exact sum_le_of_forall₂ _ _ hall.flip (fun a b hab => hab.1)
  · exact sum_le_of_forall₂ _ _ hall (fun a b hab => hab.2.1)
  · exact sum_le_of_forall₂ _ _ hall (fun a b hab => hab.2.2 hp he)

theorem bareRun_runs (pv : List ℚ) (hpv : pv.length = 8760) (first n : ℕ) (hn : first + n ≤ 8760) :
    ∃ rs, runTimesteps { bareRun with pv := pv } first n = .ok rs :=
  C27_accepts_span_inside_year (S := { bareRun with pv := pv })
    ⟨sampleRun_fullYear.windUser, sampleRun_fullYear.windData, hpv, sampleRun_fullYear.elecDemand,
      sampleRun_fullYear.heatDemand, sampleRun_fullYear.importPrice, sampleRun_fullYear.perf⟩
    ⟨show ∀ n ∈ bareRun.orderAbove, 1 ≤ n ∧ n ≤ 13 by decide,
      show ∀ n ∈ bareRun.orderBelow, 1 ≤ n ∧ n ≤ 15 by decide⟩
    (fun _ _ _ => ⟨_, rfl⟩) (fun _ _ _ _ _ => ⟨_, rfl⟩) (by omega)

example : ∃ rs rs', runTimesteps bareRun 0 8760 = .ok rs ∧ runTimesteps sunnyRun 0 8760 = .ok rs' ∧
    (rs'.map (·.grid.totalImport)).sum ≤ (rs.map (·.grid.totalImport)).sum := by
  obtain ⟨rs, h⟩ := bareRun_runs (List.replicate 8760 1) List.length_replicate 0 8760 le_rfl
  obtain ⟨rs', h'⟩ := bareRun_runs (List.replicate 8760 3) List.length_replicate 0 8760 le_rfl
  exact ⟨rs, rs', h, h', (C102_bill bareRun_ok bareRun_noStores bareRun_sunny
    sampleRun_orders.above_nodup sampleRun_orders.below_nodup h h').1⟩

/-- An hour with 5 kWh of surplus and the same with 9 kWh: the import falls from 17 to 13 kWh. -/
example : (∃ r, step barePlant { sampleStep with soc := 0 } false [1, 4, 5, 8, 9, 13] = .ok r ∧
      r.grid.totalImport = 17) ∧
    (∃ r, step barePlant { sampleStep with soc := 0, surplus := 9 } false [1, 4, 5, 8, 9, 13]
      = .ok r ∧ r.grid.totalImport = 13) :=
  ⟨exists_of_checks (by decide +kernel), exists_of_checks (by decide +kernel)⟩

/-- With a thermal store the claim is false: if an order charges the store before it serves the demand, 4 kWh
more of surplus go through the heat pump into the store, the heat pump has nothing left for the demand,
the electric heater takes over, and the import rises from 4 to 12 kWh. -/
theorem C102_store_raises_import : ∃ (P : Plant Unit) (i i' : StepIn Unit) (order : List ℤ),
    StepOk P i ∧ StepOk P i' ∧ MoreSurplus i i' ∧ order.Nodup ∧
    (∃ r, step P i false order = .ok r ∧ r.grid.totalImport = 4) ∧
    (∃ r, step P i' false order = .ok r ∧ r.grid.totalImport = 12) := by
  refine ⟨samplePlant, { sampleStep with surplus := 0, heatDemand := 12 },
    { sampleStep with surplus := 4, heatDemand := 12 }, [10, 8, 9], ?_, ?_,
    ⟨rfl, rfl, rfl, by norm_num, le_rfl⟩, by decide, exists_of_checks (by decide +kernel),
    exists_of_checks (by decide +kernel)⟩
  · have := sampleStep_ok
    exact ⟨this.es, this.soc_nonneg, this.soc_le, le_rfl, this.deficit_nonneg, by norm_num,
      by norm_num [samplePlant], this.cop_pos, this.duty_nonneg, this.zero_cap, this.tank_nonneg⟩
  · have := sampleStep_ok
    exact ⟨this.es, this.soc_nonneg, this.soc_le, by norm_num, this.deficit_nonneg, by norm_num,
      by norm_num [samplePlant], this.cop_pos, this.duty_nonneg, this.zero_cap, this.tank_nonneg⟩

/-! ### Hours without stores stand alone -/

/-- C103: two runs of the same plant without stores report the same for an hour with the same data,
whatever the other hours are and whenever the two runs start. -/
theorem C103_hours_stand_alone {S S' : RunIn N} (H : RunOk S) (H' : RunOk S') (hs : RunNoStores S)
    (hp : SamePlant S S') {first first' n n' : ℕ} {rs rs' : List (Results N)}
    (h : runTimesteps S first n = .ok rs) (h' : runTimesteps S' first' n' = .ok rs') {k k' : ℕ}
    (hk : k < n) (hk' : k' < n') (ht : first + k = first' + k') (hh : SameHour S S' (first + k)) :
    rs[k]? = rs'[k']? := by
  have htank : S'.tank = S.tank := congrArg Plant.tank hp.plant.symm
  have hes : S'.es = S.es := congrArg Plant.es hp.plant.symm
  have hs' : RunNoStores S' := ⟨by rw [hes]; exact hs.battery, by rw [htank]; exact hs.tankCapacity,
    by rw [htank]; exact hs.tank⟩
  obtain ⟨rows, hall⟩ := run_hours H h
  obtain ⟨rows', hall'⟩ := run_hours H' h'
  obtain ⟨r, heat, price, row, perf, gen, wnd, pv, elec, r0, hr, ho, hsp, hst⟩ := hall k hk
  obtain ⟨r', heat', price', row', perf', gen', wnd', pv', elec', r0', hr', ho', hsp', hst'⟩ :=
    hall' k' hk'
  obtain ⟨b1, b2⟩ := bare_before H hs h k hk.le
  obtain ⟨b1', b2'⟩ := bare_before H' hs' h' k' hk'.le
  rw [b1, b2] at ho
  rw [b1', b2', ← ht, htank] at ho'
  rw [hr, hr']
  obtain ⟨q1, q2, q3, q4, q5, q6, q7, q8, q9, q10⟩ := ho
  obtain ⟨p1, p2, p3, p4, p5, p6, p7, p8, p9, p10⟩ := ho'
  have e1 := Option.some.inj (q1.symm.trans (hh.heatDemand.trans p1))
  have e2 := Option.some.inj (q2.symm.trans (hh.importPrice.trans p2))
  have e3 := Option.some.inj (q4.symm.trans (hh.perf.trans p4))
  have e4 := Option.some.inj (q7.symm.trans (hh.pv.trans p7))
  have e5 := Option.some.inj (q8.symm.trans (hh.elecDemand.trans p8))
  have ew : wnd = wnd' := by
    unfold wind at q6 p6
    rw [List.getElem?_zipWith, hh.windUser, hh.windData, ← List.getElem?_zipWith] at q6
    exact Option.some.inj (q6.symm.trans p6)
  have eg : gen = gen' := by
    unfold generation at q5 p5
    simp only [List.getElem?_zipWith_eq_some] at q5 p5
    obtain ⟨w, p, hw, hpv, rfl⟩ := q5
    obtain ⟨w', p', hw', hpv', rfl⟩ := p5
    rw [q6] at hw
    rw [p6] at hw'
    rw [← Option.some.inj hw, ← Option.some.inj hw', ew,
      Option.some.inj (hpv.symm.trans (hh.pv.trans hpv'))]
  subst e1 e2 e3 e4 e5 ew eg
  have er : row = row' := by
    have k1 := hsp.mtch
    have k2 := hsp'.mtch
    have b1 := hsp.balance
    have b2 := hsp'.balance
    have n1 := hsp.surplus_nonneg
    have n2 := hsp.deficit_nonneg
    have n3 := hsp'.surplus_nonneg
    have n4 := hsp'.deficit_nonneg
    have s : row.surplus = row'.surplus := by
      rcases hsp.exclusive with x | x <;> rcases hsp'.exclusive with y | y <;> linarith
    have d : row.deficit = row'.deficit := by linarith
    have u : row.resUsed = row'.resUsed := by linarith [hsp.generation, hsp'.generation]
    cases row
    cases row'
    simp only at k1 k2 s d u
    subst s d u
    rw [k1, k2]
  subst er
  rw [hp.plant, hp.setpoint, hp.orderAbove, hp.orderBelow] at q9
  rw [q10, p10, Except.ok.inj (q9.symm.trans p9)]

/-- The hour from noon is the same in a run from midnight and in one that starts at ten. -/
example : ∃ rs rs', runTimesteps bareRun 0 24 = .ok rs ∧ runTimesteps bareRun 10 5 = .ok rs' ∧
    rs[12]? = rs'[2]? ∧ ∃ r, rs[12]? = some r := by
  obtain ⟨rs, h⟩ := bareRun_runs bareRun.pv sampleRun_fullYear.pv 0 24 (by decide)
  obtain ⟨rs', h'⟩ := bareRun_runs bareRun.pv sampleRun_fullYear.pv 10 5 (by decide)
  refine ⟨rs, rs', h, h', C103_hours_stand_alone bareRun_ok bareRun_ok bareRun_noStores
    ⟨rfl, rfl, rfl, rfl⟩ h h' (by decide) (by decide) rfl ⟨rfl, rfl, rfl, rfl, rfl, rfl, rfl⟩, ?_⟩
  have hl : 12 < rs.length := by rw [C27_one_result_per_hour h]; decide
  exact ⟨_, List.getElem?_eq_getElem hl⟩

/-- With a battery an hour does depend on what was before. -/
example : ∃ r r', step samplePlant { sampleStep2 with soc := 0 } false [1, 2, 3, 9] = .ok r ∧
    step samplePlant sampleStep2 false [1, 2, 3, 9] = .ok r' ∧ r.elecDemand.imp = 6 ∧
    r'.elecDemand.imp = 1 := by
  obtain ⟨r, h, e⟩ : ∃ r, step samplePlant { sampleStep2 with soc := 0 } false [1, 2, 3, 9] = .ok r ∧
    r.elecDemand.imp = 6 := exists_of_checks (by decide +kernel)
  obtain ⟨r', h', e'⟩ : ∃ r, step samplePlant sampleStep2 false [1, 2, 3, 9] = .ok r ∧
    r.elecDemand.imp = 1 := exists_of_checks (by decide +kernel)
  exact ⟨r, r', h, h', e, e'⟩

end Verif
