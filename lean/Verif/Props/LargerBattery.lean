import Verif.Lemmas.LargerBattery
import Verif.Props.MoreGeneration

/-!
# A larger battery never raises the import (C116)
-/

set_option autoImplicit false

namespace Verif
open Spec FixedOrder
variable {N : Type}

/-- C116 for one hour: two batteries that differ in capacity only, the larger one with at least the charge of
the smaller one and ahead of it by no more than the difference in size. The larger one imports at most as
much and is still ahead after the hour; heat pump, thermal store and boiler do the same. -/
theorem C116_hour {P : Plant N} {i : StepIn N} {cap s' : ℚ} (H : StepOk P i)
    (hcap : P.es.capacity ≤ cap) (hs' : s' ≤ cap) (hA : Ahead P.es.capacity cap i.soc s')
    (hx : i.surplus = 0 ∨ i.deficit = 0) {bl : Bool} {order : List ℤ} (hnd : order.Nodup)
    (hsafe : SafeOrder bl order) (hf : HeatFirst bl order) {r r' : Results N}
    (h : step P i bl order = .ok r)
    (h' : step { P with es := { P.es with capacity := cap } } { i with soc := s' } bl order
      = .ok r') :
    r'.grid.totalImport ≤ r.grid.totalImport ∧
    Ahead P.es.capacity cap r.es.finalSoc r'.es.finalSoc ∧
    r'.hp = r.hp ∧ r'.ts = r.ts ∧ r'.aux = r.aux := by
  have H' : StepOk (resizedPlant P cap) (withSoc i s') :=
    ⟨resized_ok H.es hcap, H.soc_nonneg.trans hA.more, hs', H.surplus_nonneg, H.deficit_nonneg,
      H.heat_nonneg, H.heat_le_peak, H.cop_pos, H.duty_nonneg, H.zero_cap, H.tank_nonneg⟩
  obtain ⟨S, h1, -, h2⟩ := twin_hour H H' hcap hA hx hnd hsafe hf h h'
  exact ⟨h1, h2, S.hp, S.ts, S.aux⟩

theorem largerBattery_ok {S S' : RunIn N} (H : RunOk S) (hm : LargerBattery S S') : RunOk S' := by
  have hc := hm.capacity
  rw [hm.same]
  exact ⟨resized_ok H.es hc, H.heat_nonneg, H.cop_pos, H.duty_nonneg, H.zero_cap, H.tank_nonneg⟩

/-- The row of an hour is settled by generation and demand. -/
theorem split_unique {gen elec : ℚ} {row row' : Tools.Row} (h : SplitOk gen elec row)
    (h' : SplitOk gen elec row') : row = row' := by
  have k1 := h.mtch
  have k2 := h'.mtch
  have b1 := h.balance
  have b2 := h'.balance
  have n1 := h.surplus_nonneg
  have n2 := h.deficit_nonneg
  have n3 := h'.surplus_nonneg
  have n4 := h'.deficit_nonneg
  have s : row.surplus = row'.surplus := by
    rcases h.exclusive with x | x <;> rcases h'.exclusive with y | y <;> linarith
  have d : row.deficit = row'.deficit := by linarith
  have u : row.resUsed = row'.resUsed := by linarith [h.generation, h'.generation]
  cases row
  cases row'
  simp only at k1 k2 s d u
  subst s d u
  rw [k1, k2]

/-- Hour `k` of the two runs, given the states before it. -/
theorem larger_hour {S S' : RunIn N} (H : RunOk S) (hm : LargerBattery S S') (ho : OrdersOk S)
    (ha : HeatFirst false S.orderAbove) (hb : HeatFirst true S.orderBelow) {first n : ℕ}
    {rs rs' : List (Results N)} (h : runTimesteps S first n = .ok rs)
    (h' : runTimesteps S' first n = .ok rs') {k : ℕ} (hk : k < n)
    (hn : nodesBefore S' rs' k = nodesBefore S rs k)
    (hA : Ahead S.es.capacity S'.es.capacity (socBefore S rs k) (socBefore S' rs' k)) :
    ∃ r r', rs[k]? = some r ∧ rs'[k]? = some r' ∧
      r'.grid.totalImport ≤ r.grid.totalImport ∧
      Ahead S.es.capacity S'.es.capacity r.es.finalSoc r'.es.finalSoc ∧
      r'.hp = r.hp ∧ r'.ts = r.ts ∧ r'.aux = r.aux ∧
      ((∀ p ∈ S.importPrice, 0 ≤ p) → r'.grid.importCosts ≤ r.grid.importCosts) := by
  have H' := largerBattery_ok H hm
  obtain ⟨rows, hall⟩ := run_hours H h
  obtain ⟨rows', hall'⟩ := run_hours H' h'
  obtain ⟨r, heat, price, row, perf, gen, wnd, pv, elec, r0, hr, ho1, hsp, hst⟩ := hall k hk
  obtain ⟨r', heat', price', row', perf', gen', wnd', pv', elec', r0', hr', ho1', hsp', hst'⟩ :=
    hall' k hk
  have same := hm.same
  have e1 : heat' = heat := by
    have := ho1'.heatEq
    rw [same] at this
    exact Option.some.inj (this.symm.trans ho1.heatEq)
  have e2 : price' = price := by
    have := ho1'.priceEq
    rw [same] at this
    exact Option.some.inj (this.symm.trans ho1.priceEq)
  have e3 : perf' = perf := by
    have := ho1'.perfEq
    rw [same] at this
    exact Option.some.inj (this.symm.trans ho1.perfEq)
  have e4 : gen' = gen := by
    have := ho1'.genEq
    rw [same] at this
    exact Option.some.inj (this.symm.trans ho1.genEq)
  have e5 : elec' = elec := by
    have := ho1'.elecEq
    rw [same] at this
    exact Option.some.inj (this.symm.trans ho1.elecEq)
  subst e1 e2 e3 e4 e5
  have er := split_unique hsp' hsp
  subst er
  refine ⟨r, r', hr, hr', ?_⟩
  have ep : plant S' = { plant S with es := { S.es with capacity := S'.es.capacity } } := by
    conv_lhs => rw [same]
    rfl
  have es : S'.setpoint = S.setpoint := by rw [same]
  have eoa : S'.orderAbove = S.orderAbove := by rw [same]
  have eob : S'.orderBelow = S.orderBelow := by rw [same]
  have hst2 := ho1'.stepEq
  rw [ep, es, eoa, eob, hn] at hst2
  have hx : row'.surplus = 0 ∨ row'.deficit = 0 := hsp.exclusive
  obtain ⟨q1, q2⟩ := hour_order ho price'
  have hf : HeatFirst (decide (price' ≤ S.setpoint))
      (if price' > S.setpoint then S.orderAbove else S.orderBelow) := by
    by_cases hp : price' > S.setpoint
    · rw [if_pos hp, decide_eq_false (not_le.mpr hp)]; exact ha
    · rw [if_neg hp, decide_eq_true (not_lt.mp hp)]; exact hb
  have main := C116_hour hst hm.capacity (s' := socBefore S' rs' k) hst'.soc_le hA hx q1 q2 hf
    ho1.stepEq hst2
  rw [ep, hn] at hst'
  have c1 := (C24_cashflow hst q1 ho1.stepEq).1
  have c2 := (C24_cashflow hst' q1 hst2).1
  rw [ho1.resultEq, ho1'.resultEq]
  refine ⟨main.1, main.2.1, main.2.2.1, main.2.2.2.1, main.2.2.2.2, fun hp => ?_⟩
  have hp0 : 0 ≤ price' := hp _ (List.mem_of_getElem? ho1.priceEq)
  show r0'.grid.importCosts ≤ r0.grid.importCosts
  rw [c1, c2]
  exact div_le_div_of_nonneg_right (mul_le_mul_of_nonneg_right main.1 hp0) (by norm_num)

/-- The states the two runs have before each hour. -/
theorem larger_before {S S' : RunIn N} (H : RunOk S) (hm : LargerBattery S S') (ho : OrdersOk S)
    (ha : HeatFirst false S.orderAbove) (hb : HeatFirst true S.orderBelow) {first n : ℕ}
    {rs rs' : List (Results N)} (h : runTimesteps S first n = .ok rs)
    (h' : runTimesteps S' first n = .ok rs') : ∀ k, k ≤ n →
      nodesBefore S' rs' k = nodesBefore S rs k ∧
      Ahead S.es.capacity S'.es.capacity (socBefore S rs k) (socBefore S' rs' k) := by
  have ht : S'.tank = S.tank := by rw [hm.same]
  intro k
  induction k with
  | zero =>
    intro _
    have hi : S'.es.initialState = S.es.initialState := by rw [hm.same]
    refine ⟨by simp only [nodesBefore, ht], ?_⟩
    have h0 := H.es.init_nonneg
    have h1 := H.es.init_le_one
    have hc := hm.capacity
    have g1 : 0 ≤ S.es.initialState * (S'.es.capacity - S.es.capacity) :=
      mul_nonneg h0 (by linarith)
    have g2 : S.es.initialState * (S'.es.capacity - S.es.capacity)
        ≤ S'.es.capacity - S.es.capacity := mul_le_of_le_one_left (by linarith) h1
    constructor <;> simp only [socBefore, Battery.initState, hi] <;> linarith
  | succ k ih =>
    intro hk
    obtain ⟨i1, i2⟩ := ih (by omega)
    obtain ⟨r, r', hr, hr', -, hA, -, hts, -⟩ :=
      larger_hour H hm ho ha hb h h' (by omega) i1 i2
    refine ⟨?_, ?_⟩
    · simp only [nodesBefore, hr, hr', Option.bind_some, hts, ht]
    · simp only [socBefore, hr, hr', Option.map_some, Option.getD_some]
      exact hA

/-- C116 for a run: in every hour the run with the larger battery imports at most as much, ends with at least
as much charge, and runs heat pump, thermal store and boiler in the same way. If the prices are not negative it
pays at most as much for its import. -/
theorem C116_run {S S' : RunIn N} (H : RunOk S) (hm : LargerBattery S S') (ho : OrdersOk S)
    (ha : HeatFirst false S.orderAbove) (hb : HeatFirst true S.orderBelow) {first n : ℕ}
    {rs rs' : List (Results N)} (h : runTimesteps S first n = .ok rs)
    (h' : runTimesteps S' first n = .ok rs') :
    List.Forall₂ (fun r r' => r'.grid.totalImport ≤ r.grid.totalImport ∧
      r.es.finalSoc ≤ r'.es.finalSoc ∧ r'.hp = r.hp ∧ r'.ts = r.ts ∧ r'.aux = r.aux ∧
      ((∀ p ∈ S.importPrice, 0 ≤ p) → r'.grid.importCosts ≤ r.grid.importCosts)) rs rs' := by
  have hl := C27_one_result_per_hour h
  have hl' := C27_one_result_per_hour h'
  refine List.forall₂_iff_get.mpr ⟨hl.trans hl'.symm, fun k hk hk' => ?_⟩
  have hkn : k < n := hl ▸ hk
  obtain ⟨b1, b2⟩ := larger_before H hm ho ha hb h h' k hkn.le
  obtain ⟨r, r', hr, hr', g1, g2, g3⟩ := larger_hour H hm ho ha hb h h' hkn b1 b2
  have er : rs.get ⟨k, hk⟩ = r := by
    have := List.getElem?_eq_getElem hk
    rw [hr] at this
    exact (Option.some.inj this).symm
  have er' : rs'.get ⟨k, hk'⟩ = r' := by
    have := List.getElem?_eq_getElem hk'
    rw [hr'] at this
    exact (Option.some.inj this).symm
  rw [er, er']
  exact ⟨g1, g2.more, g3⟩

/-- C116 over the span simulated. -/
theorem C116_total {S S' : RunIn N} (H : RunOk S) (hm : LargerBattery S S') (ho : OrdersOk S)
    (ha : HeatFirst false S.orderAbove) (hb : HeatFirst true S.orderBelow) {first n : ℕ}
    {rs rs' : List (Results N)} (h : runTimesteps S first n = .ok rs)
    (h' : runTimesteps S' first n = .ok rs') :
    (rs'.map (·.grid.totalImport)).sum ≤ (rs.map (·.grid.totalImport)).sum ∧
    ((∀ p ∈ S.importPrice, 0 ≤ p) →
      (rs'.map (·.grid.importCosts)).sum ≤ (rs.map (·.grid.importCosts)).sum) := by
  have hall := (C116_run H hm ho ha hb h h').flip
  exact ⟨sum_le_of_forall₂ _ _ hall (fun _ _ hab => hab.1),
    fun hp => sum_le_of_forall₂ _ _ hall (fun _ _ hab => hab.2.2.2.2.2 hp)⟩

/-- A year on the sample plant, with orders in which the battery comes second to heat, and the same with a
battery of another capacity. -/
def storedRun (cap : ℚ) : RunIn Unit :=
  { sampleRun with
    es := { sampleBattery with capacity := cap }
    orderAbove := [1, 2, 3, 4, 5, 6, 8, 9, 10, 11, 12, 13]
    orderBelow := [1, 3, 2, 4, 5, 6, 7, 9, 10, 11, 12, 13, 15] }

theorem storedRun_ok : RunOk (storedRun 10) where
  es := sampleBattery_ok
  heat_nonneg := sampleRun_ok.heat_nonneg
  cop_pos := sampleRun_ok.cop_pos
  duty_nonneg := sampleRun_ok.duty_nonneg
  zero_cap := sampleRun_ok.zero_cap
  tank_nonneg := sampleRun_ok.tank_nonneg

theorem storedRun_orders : OrdersOk (storedRun 10) where
  above_nodup := by decide
  below_nodup := by decide
  above_safe := ⟨by decide, fun h => by cases h⟩
  below_safe := ⟨by decide, fun _ => ⟨by decide, by decide⟩⟩

example : ∃ rs rs', runTimesteps (storedRun 10) 0 8760 = .ok rs ∧
    runTimesteps (storedRun 25) 0 8760 = .ok rs' ∧
    (rs'.map (·.grid.totalImport)).sum ≤ (rs.map (·.grid.totalImport)).sum := by
  have runs : ∀ cap, ∃ rs, runTimesteps (storedRun cap) 0 8760 = .ok rs := fun cap =>
    C27_accepts_span_inside_year (S := storedRun cap)
      ⟨sampleRun_fullYear.windUser, sampleRun_fullYear.windData, sampleRun_fullYear.pv,
        sampleRun_fullYear.elecDemand, sampleRun_fullYear.heatDemand,
        sampleRun_fullYear.importPrice, sampleRun_fullYear.perf⟩
      ⟨show ∀ n ∈ (storedRun 0).orderAbove, 1 ≤ n ∧ n ≤ 13 by decide,
        show ∀ n ∈ (storedRun 0).orderBelow, 1 ≤ n ∧ n ≤ 15 by decide⟩
      (fun _ _ _ => ⟨_, rfl⟩) (fun _ _ _ _ _ => ⟨_, rfl⟩) (by omega)
  obtain ⟨rs, h⟩ := runs 10
  obtain ⟨rs', h'⟩ := runs 25
  refine ⟨rs, rs', h, h', C116_total storedRun_ok ⟨rfl, ?_⟩ storedRun_orders ?_ ?_ h h' |>.1⟩
  · show (10 : ℚ) ≤ 25
    norm_num
  · exact ⟨by decide, by decide⟩
  · exact ⟨by decide, by decide, by decide⟩

/-- An hour with 6 kWh of unmet electric demand: with 5 kWh in a battery of 10 kWh the import is 3 kWh, with
12 kWh in one of 25 kWh it is 2 kWh. -/
example : (∃ r, step samplePlant { sampleStep2 with heatDemand := 21 } false [1, 2, 3, 4, 5, 6, 8, 9]
      = .ok r ∧ r.grid.totalImport = 3) ∧
    (∃ r, step { samplePlant with es := { sampleBattery with capacity := 25 } }
      { sampleStep2 with heatDemand := 21, soc := 12 } false [1, 2, 3, 4, 5, 6, 8, 9]
      = .ok r ∧ r.grid.totalImport = 2) :=
  ⟨exists_of_checks (by decide +kernel), exists_of_checks (by decide +kernel)⟩

/-- If the battery is charged before the heat pump is served, a larger battery can raise the import: it
takes 4 kWh of the surplus, and the heat pump imports instead. -/
theorem C116_before_heat_raises_import : ∃ (P : Plant Unit) (i : StepIn Unit) (cap : ℚ)
    (order : List ℤ), StepOk P i ∧ P.es.capacity ≤ cap ∧ i.soc ≤ cap ∧ i.deficit = 0 ∧
    order.Nodup ∧ SafeOrder false order ∧
    (∃ r, step P i false order = .ok r ∧ r.grid.totalImport = 18) ∧
    (∃ r, step { P with es := { P.es with capacity := cap } } i false order = .ok r ∧
      r.grid.totalImport = 21) := by
  refine ⟨{ samplePlant with es := { sampleBattery with capacity := 0 } },
    { sampleStep with soc := 0 }, 10, [12, 4, 8, 9], ?_, by norm_num, by norm_num, rfl, by decide,
    ⟨by decide, fun h => by cases h⟩, exists_of_checks (by decide +kernel),
    exists_of_checks (by decide +kernel)⟩
  have := sampleStep_ok
  exact ⟨bareBattery_ok, le_rfl, le_rfl, this.surplus_nonneg, this.deficit_nonneg,
    this.heat_nonneg, this.heat_le_peak, this.cop_pos, this.duty_nonneg, this.zero_cap,
    this.tank_nonneg⟩

/-- If the battery may be charged from the grid, a larger battery imports more to fill itself. -/
theorem C116_import_charging_raises_import : ∃ (P : Plant Unit) (i : StepIn Unit) (cap : ℚ)
    (order : List ℤ), StepOk P i ∧ P.es.capacity ≤ cap ∧ i.soc ≤ cap ∧ i.deficit = 0 ∧
    order.Nodup ∧ SafeOrder true order ∧
    (∃ r, step P i true order = .ok r ∧ r.grid.totalImport = 18) ∧
    (∃ r, step { P with es := { P.es with capacity := cap } } i true order = .ok r ∧
      r.grid.totalImport = 22) := by
  refine ⟨{ samplePlant with es := { sampleBattery with capacity := 0 } },
    { sampleStep with soc := 0 }, 10, [4, 6, 9, 14], ?_, by norm_num, by norm_num, rfl, by decide,
    ⟨by decide, fun _ => ⟨by decide, by decide⟩⟩, exists_of_checks (by decide +kernel),
    exists_of_checks (by decide +kernel)⟩
  have := sampleStep_ok
  exact ⟨bareBattery_ok, le_rfl, le_rfl, this.surplus_nonneg, this.deficit_nonneg,
    this.heat_nonneg, this.heat_le_peak, this.cop_pos, this.duty_nonneg, this.zero_cap,
    this.tank_nonneg⟩

end Verif
