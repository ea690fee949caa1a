import Verif.Lemmas.LowerDemand
import Verif.Props.MoreGeneration

/-!
# Without stores a lower demand never costs more (C134)
-/

set_option autoImplicit false

namespace Verif
open Spec FixedOrder
variable {N : Type}

/-! ### One hour -/

theorem step_less {P P' : Plant N} {i i' : StepIn N} (H : StepOk P i) (H' : StepOk P' i')
    (hn : NoStores P i) (hn' : NoStores P' i') (hP : OtherPeak P P') (hm : LessToDo i i') {b : Bool} {order : List ℤ}
    {r r' : Results N} (h : step P i b order = .ok r) (h' : step P' i' b order = .ok r') :
    ∃ q q' n n', Cheaper q q' ∧ Frame P i b q ∧ Frame P' i' b q' ∧
      r.grid = (totals2 P i b n (totals1 P b q)).grid ∧ r'.grid = (totals2 P' i' b n' (totals1 P' b q')).grid ∧
      r.aux.cost = (totals1 P b q).aux.cost ∧ r'.aux.cost = (totals1 P' b q').aux.cost := by
  obtain ⟨c, r1, hd, hr⟩ := step_ok h
  obtain ⟨c', r1', hd', hr'⟩ := step_ok h'
  obtain ⟨q, n, hq, e1⟩ := dispatch_ok hd
  obtain ⟨q', n', hq', e1'⟩ := dispatch_ok hd'
  dsimp only at e1 e1' hq hq'
  obtain ⟨g1, k1⟩ := rule_grid hr
  obtain ⟨g1', k1'⟩ := rule_grid hr'
  obtain ⟨ps, hf, hp⟩ := runOrder_ok hq
  obtain ⟨ps', hf', hp'⟩ := runOrder_ok hq'
  have := procs_unique hf' hf
  subst this
  have hE : Easier (initChecks P i) (initChecks P' i') :=
    ⟨hm.deficit, hm.surplus, hm.heatDemand, Or.inr ⟨le_rfl, by
      have := hm.heatDemand
      simp only [initChecks]
      linarith⟩⟩
  have hC : Cheaper (initResults P i b) (initResults P' i' b) :=
    ⟨le_rfl, le_rfl, le_rfl, le_rfl, ⟨rfl, rfl⟩, ⟨rfl, rfl⟩⟩
  have hch := less_loop H H' hn hn' hm.perf (by rw [hP]) ps' _ _ _ _ hp hp' (idle_init H hn) (idle_init H' hn') hE hC
  have hfr : Frame P i b q := runProcs_induct (fun _ s => Frame P i b s.2)
    (fun _ p _ _ a _ hh => frame_record p a hh) ps' [] _ _ hp ⟨rfl, rfl, rfl, rfl, rfl, rfl, rfl⟩
  have hfr' : Frame P' i' b q' := runProcs_induct (fun _ s => Frame P' i' b s.2)
    (fun _ p _ _ a _ hh => frame_record p a hh) ps' [] _ _ hp' ⟨rfl, rfl, rfl, rfl, rfl, rfl, rfl⟩
  refine ⟨q, q', n, n', hch, hfr, hfr', ?_, ?_, ?_, ?_⟩
  · rw [g1, e1]
  · rw [g1', e1']
  · rw [k1, e1]; rfl
  · rw [k1', e1']; rfl

/-- C134 for an hour: without stores, less heat demand, less unmet electric demand and more surplus generation
never raise the import and never lower the export, whatever the order of the processes, on either side of the
setpoint and for every minimum output. If neither price is negative, the cash flow does not fall, and with a fuel price
that is not negative nor does the bill of the auxiliary heater rise. -/
theorem C134_hour {P P' : Plant N} {i i' : StepIn N} (H : StepOk P i) (H' : StepOk P' i')
    (hn : NoStores P i) (hn' : NoStores P' i') (hP : OtherPeak P P') (hm : LessToDo i i') {b : Bool} {order : List ℤ}
    {r r' : Results N} (h : step P i b order = .ok r) (h' : step P' i' b order = .ok r') :
    r'.grid.totalImport ≤ r.grid.totalImport ∧ r.grid.totalExport ≤ r'.grid.totalExport ∧
    (0 ≤ i.importPrice → 0 ≤ P.exportPrice → r.grid.cashflow ≤ r'.grid.cashflow) ∧
    (0 ≤ i.importPrice → (P.aux.electric = false → 0 ≤ P.aux.cost) → r'.aux.cost ≤ r.aux.cost) := by
  obtain ⟨q, q', n, n', hc, hf, hf', hg, hg', ha, ha'⟩ := step_less H H' hn hn' hP hm h h'
  have f1 : P'.exportPrice = P.exportPrice := by rw [hP]
  have f2 : P'.aux = P.aux := by rw [hP]
  have hi : r'.grid.totalImport ≤ r.grid.totalImport := by
    rw [hg, hg']
    obtain ⟨y1, y2, y3, y4, ⟨y5, y6⟩, y7, y8⟩ := hc
    simp only [totals2, totals1, y5, y6, y7, y8, f2]
    split_ifs <;> linarith
  have hx : r.grid.totalExport ≤ r'.grid.totalExport := by
    rw [hg, hg']
    exact hc.exp
  refine ⟨hi, hx, fun hp he => ?_, fun hp hcost => ?_⟩
  · have e1 : r.grid.cashflow = r.grid.totalExport * P.exportPrice / 1000
        - r.grid.totalImport * i.importPrice / 1000 := by
      rw [hg, ← hf.importPrice]; rfl
    have e2 : r'.grid.cashflow = r'.grid.totalExport * P.exportPrice / 1000
        - r'.grid.totalImport * i.importPrice / 1000 := by
      rw [hg', ← hm.importPrice, ← hf'.importPrice, ← f1]; rfl
    have k1 := mul_le_mul_of_nonneg_right hi hp
    have k2 := mul_le_mul_of_nonneg_right hx he
    rw [e1, e2]
    linarith
  · have e1 : r.aux.cost = (if P.aux.electric then i.importPrice else P.aux.cost) * q.heatDemand.aux := by
      rw [ha, ← hf.importPrice]; simp only [totals1]; ring
    have e2 : r'.aux.cost = (if P.aux.electric then i.importPrice else P.aux.cost) * q'.heatDemand.aux := by
      rw [ha', ← hm.importPrice, ← hf'.importPrice, ← f2]; simp only [totals1]; ring
    rw [e1, e2]
    refine mul_le_mul_of_nonneg_left hc.aux ?_
    split_ifs
    · exact hp
    · rename_i he
      exact hcost (Bool.eq_false_iff.mpr he)

/-! ### A run -/

theorem otherDemand_ok {S S' : RunIn N} (H : RunOk S) (hs : RunNoStores S) (hm : OtherDemand S S')
    (h0 : ∀ x ∈ S'.heatDemand, 0 ≤ x) : RunOk S' := by
  rw [hm]
  exact ⟨H.es, h0, H.cop_pos, H.duty_nonneg, H.zero_cap, fun hour s nodes m _ h => (hs.tank hour s nodes m h).ge⟩

/-- C134, hour by hour: of two runs that differ in demands and in wind and solar power only, one imports at most as much
and exports at least as much as the other in every hour in which neither of its demands is higher and its generation is
not lower, whatever the other hours are; if the prices are not negative its cash flow of the hour is at least as high
and its auxiliary heater costs at most as much. For every order of the processes, also one that lists some twice. -/
theorem C134_each_hour {S S' : RunIn N} (H : RunOk S) (hs : RunNoStores S) (same : OtherDemand S S')
    (h0 : ∀ x ∈ S'.heatDemand, 0 ≤ x) {first n : ℕ} {rs rs' : List (Results N)}
    (h : runTimesteps S first n = .ok rs) (h' : runTimesteps S' first n = .ok rs') :
    List.Forall₂ (fun r r' => r'.heatDemand.heatDemand ≤ r.heatDemand.heatDemand →
      r'.elecDemand.elecDemand ≤ r.elecDemand.elecDemand → r.res.generationTotal ≤ r'.res.generationTotal →
      r'.grid.totalImport ≤ r.grid.totalImport ∧ r.grid.totalExport ≤ r'.grid.totalExport ∧
      (0 ≤ r.grid.importPrice → 0 ≤ S.exportPrice → r.grid.cashflow ≤ r'.grid.cashflow) ∧
      (0 ≤ r.grid.importPrice → (S.aux.electric = false → 0 ≤ S.aux.cost) → r'.aux.cost ≤ r.aux.cost)) rs rs' := by
  have H' := otherDemand_ok H hs same h0
  obtain ⟨rows, hall⟩ := run_hours H h
  obtain ⟨rows', hall'⟩ := run_hours H' h'
  have hl := C27_one_result_per_hour h
  have hl' := C27_one_result_per_hour h'
  refine List.forall₂_iff_get.mpr ⟨hl.trans hl'.symm, fun k hk hk' => ?_⟩
  have hkn : k < n := hl ▸ hk
  obtain ⟨r, heat, price, row, perf, gen, wnd, pv, elec, r0, hr, ho, hsp, hst⟩ := hall k hkn
  obtain ⟨r', heat', price', row', perf', gen', wnd', pv', elec', r0', hr', ho', hsp', hst'⟩ :=
    hall' k hkn
  have er : rs.get ⟨k, hk⟩ = r := by
    have := List.getElem?_eq_getElem hk
    rw [hr] at this
    exact (Option.some.inj this).symm
  have er' : rs'.get ⟨k, hk'⟩ = r' := by
    have := List.getElem?_eq_getElem hk'
    rw [hr'] at this
    exact (Option.some.inj this).symm
  rw [er, er']
  have e2 : price' = price := by
    have := ho'.priceEq
    rw [same] at this
    exact Option.some.inj (this.symm.trans ho.priceEq)
  have e3 : perf' = perf := by
    have := ho'.perfEq
    rw [same] at this
    exact Option.some.inj (this.symm.trans ho.perfEq)
  subst e2 e3
  have ep : OtherPeak (plant S) (plant S') := by
    have a1 : S'.hp = S.hp := by rw [same]
    have a2 : S'.es = S.es := by rw [same]
    have a3 : S'.aux = S.aux := by rw [same]
    have a4 : S'.tank = S.tank := by rw [same]
    have a5 : S'.exportPrice = S.exportPrice := by rw [same]
    unfold OtherPeak plant
    rw [a1, a2, a3, a4, a5]
  have es : S'.setpoint = S.setpoint := by rw [same]
  have eoa : S'.orderAbove = S.orderAbove := by rw [same]
  have eob : S'.orderBelow = S.orderBelow := by rw [same]
  have hes : S'.es = S.es := by rw [same]
  have ht : S'.tank = S.tank := by rw [same]
  have hst2 := ho'.stepEq
  rw [es, eoa, eob] at hst2
  have hp0 : r0.grid.importPrice = price' := by
    obtain ⟨q, q', n, n', -, hf, -, hg, -⟩ := step_less hst hst ⟨hs.battery, fun s m hh => hs.tank _ s _ m hh⟩
      ⟨hs.battery, fun s m hh => hs.tank _ s _ m hh⟩ rfl ⟨rfl, rfl, le_rfl, le_rfl, le_rfl⟩ ho.stepEq ho.stepEq
    rw [hg]
    exact hf.importPrice
  rw [ho.resultEq, ho'.resultEq]
  intro hheat hel hgen
  replace hheat : heat' ≤ heat := hheat
  replace hel : elec' ≤ elec := hel
  replace hgen : gen ≤ gen' := hgen
  have hless : LessToDo
      (hourIn (first + k) heat price' row perf' (nodesBefore S rs k) (socBefore S rs k))
      (hourIn (first + k) heat' price' row' perf' (nodesBefore S' rs' k) (socBefore S' rs' k)) := by
    have b1 := hsp.balance
    have b2 := hsp'.balance
    have n1 := hsp.surplus_nonneg
    have n2 := hsp.deficit_nonneg
    have n3 := hsp'.surplus_nonneg
    have n4 := hsp'.deficit_nonneg
    refine ⟨rfl, rfl, hheat, ?_, ?_⟩
    · dsimp only
      rcases hsp.exclusive with x | x <;> rcases hsp'.exclusive with y | y <;> linarith
    · dsimp only
      rcases hsp.exclusive with x | x <;> rcases hsp'.exclusive with y | y <;> linarith
  have hn1 : NoStores (plant S) (hourIn (first + k) heat price' row perf' (nodesBefore S rs k)
      (socBefore S rs k)) := ⟨hs.battery, fun s m hh => hs.tank _ s _ m hh⟩
  have hn2 : NoStores (plant S') (hourIn (first + k) heat' price' row' perf' (nodesBefore S' rs' k)
      (socBefore S' rs' k)) :=
    ⟨(congrArg Battery.capacity hes).trans hs.battery, fun s m hh => hs.tank (first + k) s (nodesBefore S' rs' k) m (by
      rw [← ht]; exact hh)⟩
  obtain ⟨g1, g2, g3, g4⟩ := C134_hour hst hst' hn1 hn2 ep hless ho.stepEq hst2
  refine ⟨g1, g2, fun hp he => g3 ?_ he, fun hp hc => g4 ?_ hc⟩
  · rw [show (hourIn (first + k) heat price' row perf' (nodesBefore S rs k) (socBefore S rs k)).importPrice = price'
      from rfl, ← hp0]
    exact hp
  · rw [show (hourIn (first + k) heat price' row perf' (nodesBefore S rs k) (socBefore S rs k)).importPrice = price'
      from rfl, ← hp0]
    exact hp

/-- What a run without stores reports of its inputs for an hour. -/
theorem reports_inputs {S : RunIn N} (H : RunOk S) (hs : RunNoStores S) {first n : ℕ} {rs : List (Results N)}
    (h : runTimesteps S first n = .ok rs) {k : ℕ} {r : Results N} (hr : rs[k]? = some r) :
    S.heatDemand[first + k]? = some r.heatDemand.heatDemand ∧ S.elecDemand[first + k]? = some r.elecDemand.elecDemand ∧
    (generation S)[first + k]? = some r.res.generationTotal ∧ S.importPrice[first + k]? = some r.grid.importPrice := by
  obtain ⟨rows, hall⟩ := run_hours H h
  have hk : k < n := by
    obtain ⟨hk, -⟩ := List.getElem?_eq_some_iff.mp hr
    exact C27_one_result_per_hour h ▸ hk
  obtain ⟨r1, heat, price, row, perf, gen, wnd, pv, elec, r0, hr1, ho, hsp, hst⟩ := hall k hk
  cases Option.some.inj (hr.symm.trans hr1)
  have hp0 : r0.grid.importPrice = price := by
    obtain ⟨q, q', n, n', -, hf, -, hg, -⟩ := step_less hst hst ⟨hs.battery, fun s m hh => hs.tank _ s _ m hh⟩
      ⟨hs.battery, fun s m hh => hs.tank _ s _ m hh⟩ rfl ⟨rfl, rfl, le_rfl, le_rfl, le_rfl⟩ ho.stepEq ho.stepEq
    rw [hg]
    exact hf.importPrice
  rw [ho.resultEq]
  exact ⟨ho.heatEq, ho.elecEq, ho.genEq, ho.priceEq.trans (congrArg some hp0.symm)⟩

theorem zipWith_add_le : ∀ {a b a' b' : List ℚ}, List.Forall₂ (· ≤ ·) a a' → List.Forall₂ (· ≤ ·) b b' →
    List.Forall₂ (· ≤ ·) (List.zipWith (· + ·) a b) (List.zipWith (· + ·) a' b')
  | _, _, _, _, .nil, _ => .nil
  | _, _, _, _, .cons _ _, .nil => .nil
  | _, _, _, _, .cons h1 t1, .cons h2 t2 => .cons (add_le_add h1 h2) (zipWith_add_le t1 t2)

theorem le_at {l l' : List ℚ} (h : List.Forall₂ (· ≤ ·) l l') {k : ℕ} {x y : ℚ} (hx : l[k]? = some x)
    (hy : l'[k]? = some y) : x ≤ y := by
  obtain ⟨h1, rfl⟩ := List.getElem?_eq_some_iff.mp hx
  obtain ⟨h2, rfl⟩ := List.getElem?_eq_some_iff.mp hy
  exact (List.forall₂_iff_get.mp h).2 k h1 h2

/-- C134 over a run: every hour of the run with the lower demands imports no more and exports no less. With import prices
and an export price that are not negative its cash flow is not lower, and with a fuel price that is not negative its
auxiliary heater costs no more. -/
theorem C134_run {S S' : RunIn N} (H : RunOk S) (hs : RunNoStores S) (hm : LowerDemand S S')
    (h0 : ∀ x ∈ S'.heatDemand, 0 ≤ x) {first n : ℕ} {rs rs' : List (Results N)}
    (h : runTimesteps S first n = .ok rs) (h' : runTimesteps S' first n = .ok rs') :
    List.Forall₂ (fun r r' => r'.grid.totalImport ≤ r.grid.totalImport ∧ r.grid.totalExport ≤ r'.grid.totalExport ∧
      ((∀ p ∈ S.importPrice, 0 ≤ p) → 0 ≤ S.exportPrice → r.grid.cashflow ≤ r'.grid.cashflow) ∧
      ((∀ p ∈ S.importPrice, 0 ≤ p) → (S.aux.electric = false → 0 ≤ S.aux.cost) → r'.aux.cost ≤ r.aux.cost)) rs rs' := by
  have hall := List.forall₂_iff_get.mp (C134_each_hour H hs hm.same h0 h h')
  have hs' : RunNoStores S' := by
    have hes : S'.es = S.es := by rw [hm.same]
    have ht : S'.tank = S.tank := by rw [hm.same]
    exact ⟨by rw [hes]; exact hs.battery, by rw [ht]; exact hs.tankCapacity, by rw [ht]; exact hs.tank⟩
  have H' := otherDemand_ok H hs hm.same h0
  refine List.forall₂_iff_get.mpr ⟨hall.1, fun k hk hk' => ?_⟩
  obtain ⟨a1, a2, a3, a4⟩ := reports_inputs H hs h (List.getElem?_eq_getElem hk)
  obtain ⟨b1, b2, b3, -⟩ := reports_inputs H' hs' h' (List.getElem?_eq_getElem hk')
  obtain ⟨g1, g2, g3, g4⟩ := hall.2 k hk hk' (le_at hm.heatDemand b1 a1) (le_at hm.elecDemand b2 a2)
    (le_at (zipWith_add_le (zipWith_add_le hm.windUser hm.windData) hm.pv) a3 b3)
  have hp := List.mem_of_getElem? a4
  exact ⟨g1, g2, fun hp' he => g3 (hp' _ hp) he, fun hp' hc => g4 (hp' _ hp) hc⟩

/-- C134 over the span simulated: total import, total export, the balance of the bill and the cost of the auxiliary
heater. -/
theorem C134_bill {S S' : RunIn N} (H : RunOk S) (hs : RunNoStores S) (hm : LowerDemand S S')
    (h0 : ∀ x ∈ S'.heatDemand, 0 ≤ x) {first n : ℕ} {rs rs' : List (Results N)}
    (h : runTimesteps S first n = .ok rs) (h' : runTimesteps S' first n = .ok rs') :
    (rs'.map (·.grid.totalImport)).sum ≤ (rs.map (·.grid.totalImport)).sum ∧
    (rs.map (·.grid.totalExport)).sum ≤ (rs'.map (·.grid.totalExport)).sum ∧
    ((∀ p ∈ S.importPrice, 0 ≤ p) → 0 ≤ S.exportPrice →
      (rs.map (·.grid.cashflow)).sum ≤ (rs'.map (·.grid.cashflow)).sum) ∧
    ((∀ p ∈ S.importPrice, 0 ≤ p) → (S.aux.electric = false → 0 ≤ S.aux.cost) → (rs'.map (·.aux.cost)).sum ≤ (rs.map (·.aux.cost)).sum) := by
  have hall := C134_run H hs hm h0 h h'
  refine ⟨?_, ?_, fun hp he => ?_, fun hp hc => ?_⟩
  · exact sum_le_of_forall₂ _ _ hall.flip (fun a b hab => hab.1)
  · exact sum_le_of_forall₂ _ _ hall (fun a b hab => hab.2.1)
  · exact sum_le_of_forall₂ _ _ hall (fun a b hab => hab.2.2.1 hp he)
  · exact sum_le_of_forall₂ _ _ hall.flip (fun a b hab => hab.2.2.2 hp hc)

/-- The sample year without stores, before and after the houses were insulated: neither the import nor the bill rises. -/
example : ∃ rs rs', runTimesteps bareRun 0 8760 = .ok rs ∧ runTimesteps insulatedRun 0 8760 = .ok rs' ∧
    (rs'.map (·.grid.totalImport)).sum ≤ (rs.map (·.grid.totalImport)).sum ∧
    (rs.map (·.grid.cashflow)).sum ≤ (rs'.map (·.grid.cashflow)).sum := by
  obtain ⟨rs, h⟩ := bareRun_runs (List.replicate 8760 1) List.length_replicate 0 8760 le_rfl
  obtain ⟨rs', h'⟩ : ∃ rs, runTimesteps insulatedRun 0 8760 = .ok rs :=
    C27_accepts_span_inside_year (S := insulatedRun)
      ⟨sampleRun_fullYear.windUser, sampleRun_fullYear.windData, sampleRun_fullYear.pv,
        sampleRun_fullYear.elecDemand, List.length_replicate, sampleRun_fullYear.importPrice, sampleRun_fullYear.perf⟩
      ⟨show ∀ n ∈ bareRun.orderAbove, 1 ≤ n ∧ n ≤ 13 by decide,
        show ∀ n ∈ bareRun.orderBelow, 1 ≤ n ∧ n ≤ 15 by decide⟩
      (fun _ _ _ => ⟨_, rfl⟩) (fun _ _ _ _ _ => ⟨_, rfl⟩) (by omega)
  obtain ⟨g1, -, g3, -⟩ := C134_bill bareRun_ok bareRun_noStores bareRun_insulated (fun x hx => by
    rw [List.eq_of_mem_replicate (show x ∈ List.replicate 8760 (15 : ℚ) from hx)]
    norm_num) h h'
  refine ⟨rs, rs', h, h', g1, g3 (fun p hp => ?_) ?_⟩
  · rw [List.eq_of_mem_replicate (show p ∈ List.replicate 8760 (100 : ℚ) from hp)]
    norm_num
  · show (0 : ℚ) ≤ 40
    norm_num

/-- An hour with 30 kWh of heat demand imports 17 kWh, the same hour with 15 kWh imports 2 kWh. -/
example : (∃ r, step barePlant { sampleStep with soc := 0 } false [1, 4, 5, 8, 9, 13] = .ok r ∧
      r.grid.totalImport = 17) ∧
    (∃ r, step { barePlant with peakHeatDemand := 15 } { sampleStep with soc := 0, heatDemand := 15 } false
      [1, 4, 5, 8, 9, 13] = .ok r ∧ r.grid.totalImport = 2) :=
  ⟨exists_of_checks (by decide +kernel), exists_of_checks (by decide +kernel)⟩

/-- With a thermal store the claim is false: below the setpoint an order that runs the heat pump on surplus and then
charges the store from imports leaves the heat pump nothing for the store while the demand takes all of its 12 kWh.
With 6 kWh of heat demand the rest goes into the store, and the import rises from 0 to 2 kWh. -/
theorem C134_store_raises_import : ∃ (P : Plant Unit) (i i' : StepIn Unit) (order : List ℤ),
    StepOk P i ∧ StepOk P i' ∧ LessToDo i i' ∧ order.Nodup ∧
    (∃ r, step P i true order = .ok r ∧ r.grid.totalImport = 0) ∧
    (∃ r, step P i' true order = .ok r ∧ r.grid.totalImport = 2) := by
  refine ⟨samplePlant, { sampleStep with surplus := 4, heatDemand := 12 },
    { sampleStep with surplus := 4, heatDemand := 6 }, [4, 12], ?_, ?_,
    ⟨rfl, rfl, by norm_num, le_rfl, le_rfl⟩, by decide, exists_of_checks (by decide +kernel),
    exists_of_checks (by decide +kernel)⟩
  · have := sampleStep_ok
    exact ⟨this.es, this.soc_nonneg, this.soc_le, by norm_num, this.deficit_nonneg, by norm_num,
      by norm_num [samplePlant], this.cop_pos, this.duty_nonneg, this.zero_cap, this.tank_nonneg⟩
  · have := sampleStep_ok
    exact ⟨this.es, this.soc_nonneg, this.soc_le, by norm_num, this.deficit_nonneg, by norm_num,
      by norm_num [samplePlant], this.cop_pos, this.duty_nonneg, this.zero_cap, this.tank_nonneg⟩

end Verif
