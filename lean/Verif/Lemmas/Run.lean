import Verif.Spec.Run
import Verif.Props.Checks
import Verif.Lemmas.FixedOrderInv

/-!
# Lemmas about fixed-order runs
-/

set_option autoImplicit false

namespace Verif
open FixedOrder Spec Tools
variable {N : Type}

theorem lookup_ok {α : Type} {l : List α} {t : ℕ} {x : α} :
    lookup l t = .ok x ↔ l[t]? = some x := by
  unfold lookup
  split
  · rename_i y hy; rw [hy]; constructor <;> (intro h; cases h; rfl)
  · rename_i hy; rw [hy]; constructor <;> (intro h; cases h)

theorem lookupPerf_ok {l : List Perf} {t : ℕ} {x : Perf} :
    lookupPerf l t = .ok x ↔ l[t]? = some x := by
  unfold lookupPerf
  split
  · rename_i y hy; rw [hy]; constructor <;> (intro h; cases h; rfl)
  · rename_i hy; rw [hy]; constructor <;> (intro h; cases h)

/-- The arguments of the timestep at hour `t`. -/
abbrev hourIn (t : ℕ) (heat price : ℚ) (row : Row) (perf : Perf) (nodes : N) (soc : ℚ) : StepIn N :=
  { hour := t, surplus := row.surplus, deficit := row.deficit, heatDemand := heat,
    importPrice := price, nodes := nodes, soc := soc, perf := perf }

/-- Everything one pass of the loop reads and does. -/
structure HourOk (S : RunIn N) (rows : List Row) (t : ℕ) (nodes : N) (soc : ℚ) (r : Results N)
    (heat price : ℚ) (row : Row) (perf : Perf) (gen wnd pv elec : ℚ) (r0 : Results N) : Prop where
  heatEq : S.heatDemand[t]? = some heat
  priceEq : S.importPrice[t]? = some price
  rowEq : rows[t]? = some row
  perfEq : S.perf[t]? = some perf
  genEq : (generation S)[t]? = some gen
  wndEq : (wind S)[t]? = some wnd
  pvEq : S.pv[t]? = some pv
  elecEq : S.elecDemand[t]? = some elec
  stepEq : step (plant S) (hourIn t heat price row perf nodes soc)
    (decide (price ≤ S.setpoint)) (if price > S.setpoint then S.orderAbove else S.orderBelow)
      = .ok r0
  resultEq : r = complete row gen wnd pv elec heat r0

theorem hourStep_ok {S : RunIn N} {rows : List Row} {t : ℕ} {nodes : N} {soc : ℚ}
    {r : Results N} : hourStep S rows t nodes soc = .ok r ↔
      ∃ heat price row perf gen wnd pv elec r0,
        HourOk S rows t nodes soc r heat price row perf gen wnd pv elec r0 := by
  unfold hourStep
  constructor
  · intro h
    simp only [except_bind_ok, lookup_ok, lookupPerf_ok] at h
    obtain ⟨heat, h1, price, h2, row, h3, perf, h4, h5⟩ := h
    by_cases hp : price > S.setpoint
    · simp only [if_pos hp, except_bind_ok, lookup_ok, except_pure_ok] at h5
      obtain ⟨r0, h5, gen, h6, wnd, h7, pv, h8, elec, h9, h10⟩ := h5
      refine ⟨heat, price, row, perf, gen, wnd, pv, elec, r0,
        h1, h2, h3, h4, h6, h7, h8, h9, ?_, h10.symm⟩
      rw [if_pos hp, decide_eq_false (not_le.mpr hp)]
      exact h5
    · simp only [if_neg hp, except_bind_ok, lookup_ok, except_pure_ok] at h5
      obtain ⟨r0, h5, gen, h6, wnd, h7, pv, h8, elec, h9, h10⟩ := h5
      refine ⟨heat, price, row, perf, gen, wnd, pv, elec, r0,
        h1, h2, h3, h4, h6, h7, h8, h9, ?_, h10.symm⟩
      rw [if_neg hp, decide_eq_true (not_lt.mp hp)]
      exact h5
  · rintro ⟨heat, price, row, perf, gen, wnd, pv, elec, r0, h⟩
    simp only [except_bind_ok, lookup_ok, lookupPerf_ok]
    refine ⟨heat, h.heatEq, price, h.priceEq, row, h.rowEq, perf, h.perfEq, ?_⟩
    have hs := h.stepEq
    by_cases hp : price > S.setpoint
    · rw [if_pos hp, decide_eq_false (not_le.mpr hp)] at hs
      simp only [if_pos hp, except_bind_ok, lookup_ok, except_pure_ok]
      exact ⟨r0, hs, gen, h.genEq, wnd, h.wndEq, pv, h.pvEq, elec, h.elecEq, h.resultEq.symm⟩
    · rw [if_neg hp, decide_eq_true (not_lt.mp hp)] at hs
      simp only [if_neg hp, except_bind_ok, lookup_ok, except_pure_ok]
      exact ⟨r0, hs, gen, h.genEq, wnd, h.wndEq, pv, h.pvEq, elec, h.elecEq, h.resultEq.symm⟩

/-- A timestep always leaves node temperatures. -/
theorem step_nodes {P : Plant N} {i : StepIn N} {b : Bool} {order : List ℤ} {r : Results N}
    (h : step P i b order = .ok r) : ∃ nodes, r.ts.finalNodesTemp = some nodes := by
  simp only [step, except_bind_ok] at h
  obtain ⟨⟨c, r1⟩, hd, hm⟩ := h
  obtain ⟨r0, nodes, -, hr⟩ := dispatch_ok hd
  have h1 : r1.ts.finalNodesTemp = some nodes := by subst hr; rfl
  unfold minOutputRule at hm
  dsimp only at hm
  by_cases h2 : r1.hp.heatTotalOutput < minOut P i ∧ r1.hp.heatTotalOutput > minTrigger b
  · simp only [if_pos h2, except_bind_ok] at hm
    obtain ⟨m, -, hm⟩ := hm
    by_cases h3 : minOut P i - r1.hp.heatTotalOutput > m + c.tsDischarge - c.tsCharge
    · rw [if_pos h3] at hm
      cases b with
      | true =>
        simp only [if_true, hpOffBelow, except_bind_ok] at hm
        obtain ⟨m', -, hm⟩ := hm
        by_cases hc : P.tank.capacity = 0
        · rw [if_pos hc] at hm
          simp only [except_pure_ok] at hm
          subst hm
          exact ⟨nodes, h1⟩
        · rw [if_neg hc] at hm
          simp only [except_bind_ok, except_pure_ok] at hm
          obtain ⟨n', -, hm⟩ := hm
          subst hm
          exact ⟨n', rfl⟩
      | false =>
        simp only [Bool.false_eq_true, if_false, hpOffAbove] at hm
        by_cases hc : P.tank.capacity = 0
        · simp only [if_pos hc, except_bind_ok, except_pure_ok] at hm
          obtain ⟨n', hn, hm⟩ := hm
          cases hn
          subst hm
          exact ⟨nodes, h1⟩
        · simp only [if_neg hc, except_bind_ok, except_pure_ok] at hm
          obtain ⟨n', hn, hm⟩ := hm
          subst hm
          cases hx : P.tank.newNodes i.hour .discharging i.nodes 0 i.heatDemand with
          | error e => rw [hx] at hn; cases hn
          | ok n'' => rw [hx] at hn; cases hn; exact ⟨n'', rfl⟩
    · rw [if_neg h3] at hm
      simp only [hpRaise] at hm
      by_cases hc : P.tank.capacity = 0
      · rw [if_pos hc] at hm
        simp only [except_pure_ok] at hm
        subst hm
        exact ⟨nodes, h1⟩
      · rw [if_neg hc] at hm
        simp only [except_bind_ok, except_pure_ok] at hm
        obtain ⟨n', -, hm⟩ := hm
        subst hm
        exact ⟨n', rfl⟩
  · rw [if_neg h2] at hm
    cases hm
    exact ⟨nodes, h1⟩

theorem hourStep_nodes {S : RunIn N} {rows : List Row} {t : ℕ} {nodes : N} {soc : ℚ}
    {r : Results N} (h : hourStep S rows t nodes soc = .ok r) :
    ∃ nodes, r.ts.finalNodesTemp = some nodes := by
  obtain ⟨heat, price, row, perf, gen, wnd, pv, elec, r0, h⟩ := hourStep_ok.mp h
  rw [h.resultEq]
  have := step_nodes h.stepEq
  exact this

theorem runFrom_length {S : RunIn N} {rows : List Row} : ∀ {n t : ℕ} {nodes : N} {soc : ℚ}
    {rs : List (Results N)}, runFrom S rows t n nodes soc = .ok rs → rs.length = n := by
  intro n
  induction n with
  | zero => intro t nodes soc rs h; cases h; rfl
  | succ n ih =>
    intro t nodes soc rs h
    simp only [runFrom, except_bind_ok, except_pure_ok] at h
    obtain ⟨r, -, rest, h2, h3⟩ := h
    rw [← h3, List.length_cons, ih h2]

/-- State after a list of results. -/
theorem runFrom_get {S : RunIn N} {rows : List Row} : ∀ {n t : ℕ} {nodes : N} {soc : ℚ}
    {rs : List (Results N)}, runFrom S rows t n nodes soc = .ok rs → ∀ k, k < n →
      ∃ r nodes' soc', rs[k]? = some r ∧ hourStep S rows (t + k) nodes' soc' = .ok r ∧
        (k = 0 → nodes' = nodes ∧ soc' = soc) ∧
        (∀ j, k = j + 1 → ∃ q, rs[j]? = some q ∧ q.ts.finalNodesTemp = some nodes' ∧
          q.es.finalSoc = soc') := by
  intro n
  induction n with
  | zero => intro t nodes soc rs h k hk; omega
  | succ n ih =>
    intro t nodes soc rs h k hk
    simp only [runFrom, except_bind_ok, except_pure_ok] at h
    obtain ⟨r, h1, rest, h2, h3⟩ := h
    subst h3
    cases k with
    | zero => exact ⟨r, nodes, soc, rfl, h1, fun _ => ⟨rfl, rfl⟩, fun j hj => by omega⟩
    | succ k =>
      obtain ⟨q, n', s', hq, hs, h0, hj⟩ := ih h2 k (by omega)
      refine ⟨q, n', s', by simpa using hq, by rw [← hs]; congr 1; omega, fun hh => by omega, ?_⟩
      intro j hjk
      cases k with
      | zero =>
        obtain ⟨e1, e2⟩ := h0 rfl
        have : j = 0 := by omega
        subst this
        obtain ⟨nn, hn⟩ := hourStep_nodes h1
        refine ⟨r, rfl, ?_, e2.symm⟩
        rw [e1, hn]; rfl
      | succ k =>
        obtain ⟨q', hq', h3, h4⟩ := hj k rfl
        have : j = k + 1 := by omega
        subst this
        exact ⟨q', by simpa using hq', h3, h4⟩

theorem runFrom_take {S : RunIn N} {rows : List Row} : ∀ {n m t : ℕ} {nodes : N} {soc : ℚ}
    {rs : List (Results N)}, runFrom S rows t n nodes soc = .ok rs → m ≤ n →
      runFrom S rows t m nodes soc = .ok (rs.take m) := by
  intro n
  induction n with
  | zero =>
    intro m t nodes soc rs h hm
    have : m = 0 := by omega
    subst this
    rfl
  | succ n ih =>
    intro m t nodes soc rs h hm
    cases m with
    | zero => rfl
    | succ m =>
      simp only [runFrom, except_bind_ok, except_pure_ok] at h ⊢
      obtain ⟨r, h1, rest, h2, h3⟩ := h
      refine ⟨r, h1, _, ih h2 (by omega), ?_⟩
      rw [← h3]
      rfl

theorem runTimesteps_ok {S : RunIn N} {first n : ℕ} {rs : List (Results N)} :
    runTimesteps S first n = .ok rs ↔ ∃ rows,
      surplusDeficitFixed (generation S) S.elecDemand = .ok rows ∧ first + n ≤ 8760 ∧
      runFrom S rows first n S.tank.initTemps S.es.initState = .ok rs := by
  unfold runTimesteps
  simp only [except_bind_ok]
  constructor
  · rintro ⟨rows, h1, h2⟩
    split_ifs at h2 with h3
    exact ⟨rows, h1, by omega, h2⟩
  · rintro ⟨rows, h1, h2, h3⟩
    refine ⟨rows, h1, ?_⟩
    rw [if_neg (by omega)]
    exact h3

theorem le_foldl_max (l : List ℚ) (a : ℚ) : a ≤ l.foldl max a ∧ ∀ x ∈ l, x ≤ l.foldl max a := by
  induction l generalizing a with
  | nil => exact ⟨le_rfl, fun x hx => by cases hx⟩
  | cons b l ih =>
    obtain ⟨h1, h2⟩ := ih (max a b)
    refine ⟨(le_max_left _ _).trans h1, fun x hx => ?_⟩
    rcases List.mem_cons.mp hx with rfl | hx
    · exact (le_max_right _ _).trans h1
    · exact h2 x hx

theorem le_listMax {l : List ℚ} {x : ℚ} (h : x ∈ l) : x ≤ listMax l := by
  cases l with
  | nil => cases h
  | cons a l =>
    rcases List.mem_cons.mp h with rfl | h
    · exact (le_foldl_max l _).1
    · exact (le_foldl_max l a).2 x h

/-- Inputs of one hour of a run are meaningful. -/
theorem HourOk.stepOk {S : RunIn N} (H : RunOk S) {rows : List Row} {t : ℕ} {nodes : N} {soc : ℚ}
    {r : Results N} {heat price : ℚ} {row : Row} {prf : Perf} {gen wnd pv elec : ℚ}
    {r0 : Results N} (h : HourOk S rows t nodes soc r heat price row prf gen wnd pv elec r0)
    (hrow : SplitOk gen elec row) (hs : 0 ≤ soc ∧ soc ≤ S.es.capacity) :
    StepOk (plant S) (hourIn t heat price row prf nodes soc) where
  es := H.es
  soc_nonneg := hs.1
  soc_le := hs.2
  surplus_nonneg := hrow.surplus_nonneg
  deficit_nonneg := hrow.deficit_nonneg
  heat_nonneg := H.heat_nonneg _ (List.mem_of_getElem? h.heatEq)
  heat_le_peak := le_listMax (List.mem_of_getElem? h.heatEq)
  cop_pos := H.cop_pos _ (List.mem_of_getElem? h.perfEq)
  duty_nonneg := H.duty_nonneg _ (List.mem_of_getElem? h.perfEq)
  zero_cap := fun hc => H.zero_cap hc _ (List.mem_of_getElem? h.perfEq)
  tank_nonneg := fun s m hm =>
    H.tank_nonneg _ s _ m (List.getElem?_eq_some_iff.mp h.heatEq).1 hm

end Verif
