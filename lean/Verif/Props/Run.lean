import Verif.Lemmas.Run
import Verif.Props.FixedOrder
import Mathlib.Tactic.IntervalCases

/-!
# Fixed-order runs: C27, C28, C29 and the balances of whole runs
-/

set_option autoImplicit false

namespace Verif
open FixedOrder Spec Tools
variable {N : Type}

/-! ## C27 one result per hour, chained through storage -/

/-- A run yields exactly as many results as hours asked for. -/
theorem C27_one_result_per_hour {S : RunIn N} {first n : ℕ} {rs : List (Results N)}
    (h : runTimesteps S first n = .ok rs) : rs.length = n := by
  obtain ⟨rows, -, -, h3⟩ := runTimesteps_ok.mp h
  exact runFrom_length h3

/-- Result `k` is the result of hour `first + k` started from the storage state that result
`k - 1` ended with, the initial state for `k = 0`. -/
theorem C27_chained {S : RunIn N} {first n : ℕ} {rs : List (Results N)}
    (h : runTimesteps S first n = .ok rs) : ∃ rows,
    surplusDeficitFixed (generation S) S.elecDemand = .ok rows ∧ ∀ k, k < n →
      ∃ r, rs[k]? = some r ∧
        hourStep S rows (first + k) (nodesBefore S rs k) (socBefore S rs k) = .ok r := by
  obtain ⟨rows, h1, -, h3⟩ := runTimesteps_ok.mp h
  refine ⟨rows, h1, fun k hk => ?_⟩
  obtain ⟨r, n', s', hr, hs, h0, hj⟩ := runFrom_get h3 k hk
  refine ⟨r, hr, ?_⟩
  cases k with
  | zero =>
    obtain ⟨e1, e2⟩ := h0 rfl
    rw [e1, e2] at hs
    exact hs
  | succ k =>
    obtain ⟨q, hq, e1, e2⟩ := hj k rfl
    simp only [nodesBefore, socBefore, hq, Option.bind_some, e1, Option.getD_some, Option.map_some,
      e2]
    exact hs

/-- The state handed on is the one reported: no result leaves the node temperatures unset. -/
theorem C27_state_always_reported {S : RunIn N} {first n : ℕ} {rs : List (Results N)}
    (h : runTimesteps S first n = .ok rs) {r : Results N} (hr : r ∈ rs) :
    ∃ nodes, r.ts.finalNodesTemp = some nodes := by
  obtain ⟨rows, -, hk⟩ := C27_chained h
  obtain ⟨k, hkl, rfl⟩ := List.getElem_of_mem hr
  obtain ⟨r', h1, h2⟩ := hk k (by rw [← C27_one_result_per_hour h]; exact hkl)
  have : rs[k] = r' := by
    rw [List.getElem?_eq_getElem hkl] at h1
    exact Option.some.inj h1
  rw [this]
  exact hourStep_nodes h2

/-- Result `k` reports the data of hour `first + k`. -/
theorem C27_reports_its_hour {S : RunIn N} {first n : ℕ} {rs : List (Results N)}
    (h : runTimesteps S first n = .ok rs) {k : ℕ} (hk : k < n) : ∃ r, rs[k]? = some r ∧
      S.heatDemand[first + k]? = some r.heatDemand.heatDemand ∧
      S.elecDemand[first + k]? = some r.elecDemand.elecDemand ∧
      S.pv[first + k]? = some r.res.pv ∧
      (∃ u d, S.windUser[first + k]? = some u ∧ S.windData[first + k]? = some d ∧
        r.res.wind = u + d) ∧
      r.res.generationTotal = r.res.wind + r.res.pv := by
  obtain ⟨rows, -, hc⟩ := C27_chained h
  obtain ⟨r, hr, hs⟩ := hc k hk
  obtain ⟨heat, price, row, perf, gen, wnd, pv, elec, r0, ho⟩ := hourStep_ok.mp hs
  have hw := ho.wndEq
  have hg := ho.genEq
  unfold generation at hg
  rw [List.getElem?_zipWith, hw, ho.pvEq] at hg
  simp only [wind, List.getElem?_zipWith] at hw
  refine ⟨r, hr, ?_, ?_, ?_, ?_, ?_⟩
  · rw [ho.resultEq]; exact ho.heatEq
  · rw [ho.resultEq]; exact ho.elecEq
  · rw [ho.resultEq]; exact ho.pvEq
  · cases hu : S.windUser[first + k]? with
    | none => simp [hu] at hw
    | some u =>
      cases hd : S.windData[first + k]? with
      | none => simp [hu, hd] at hw
      | some d =>
        simp only [hu, hd, Option.some.injEq] at hw
        exact ⟨u, d, rfl, rfl, by rw [ho.resultEq, ← hw]; rfl⟩
  · simp only [Option.some.injEq] at hg
    rw [ho.resultEq]
    exact hg.symm

/-- A run past the end of the year is rejected, whatever the plant. -/
theorem C27_rejects_past_year_end {S : RunIn N} (hy : FullYear S) {first n : ℕ}
    (h : 8760 < first + n) : runTimesteps S first n = .error .valueError := by
  have hg : (generation S).length = 8760 := by
    simp [generation, wind, hy.windUser, hy.windData, hy.pv]
  obtain ⟨rows, h1, -⟩ := C08_accepts_full_year _ _ hg hy.elecDemand
  rw [← C08_versions_agree] at h1
  unfold runTimesteps
  rw [h1]
  show (if first + n > 8760 then Except.error PyErr.valueError else _) = _
  rw [if_pos h]

example : runTimesteps sampleRun 8759 2 = .error .valueError :=
  C27_rejects_past_year_end sampleRun_fullYear (by norm_num)

/-! ## C29 choice of the order -/

/-- The order above the setpoint is used exactly when the import price exceeds the setpoint; the
result is then completed with the data of the hour. -/
theorem C29_setpoint_selects_order {S : RunIn N} {rows : List Row} {t : ℕ} {nodes : N} {soc : ℚ}
    {r : Results N} (h : hourStep S rows t nodes soc = .ok r) : ∃ price i r0,
      S.importPrice[t]? = some price ∧ i.importPrice = price ∧ i.hour = t ∧ i.nodes = nodes ∧
      i.soc = soc ∧
      (price > S.setpoint → step (plant S) i false S.orderAbove = .ok r0) ∧
      (price ≤ S.setpoint → step (plant S) i true S.orderBelow = .ok r0) ∧
      r.hp = r0.hp ∧ r.ts = r0.ts ∧ r.aux = r0.aux ∧ r.es = r0.es ∧ r.grid = r0.grid := by
  obtain ⟨heat, price, row, perf, gen, wnd, pv, elec, r0, ho⟩ := hourStep_ok.mp h
  have hs := ho.stepEq
  refine ⟨price, hourIn t heat price row perf nodes soc, r0, ho.priceEq, rfl, rfl, rfl, rfl,
    ?_, ?_⟩
  · intro hp
    rw [if_pos hp, decide_eq_false (not_le.mpr hp)] at hs
    exact hs
  · constructor
    · intro hp
      rw [if_neg (not_lt.mpr hp), decide_eq_true hp] at hs
      exact hs
    · rw [ho.resultEq]
      exact ⟨rfl, rfl, rfl, rfl, rfl⟩

/-- A timestep that succeeds used only process numbers 1..13 (above) or 1..15 (below). -/
theorem C29_only_known_processes {P : Plant N} {i : StepIn N} {b : Bool} {order : List ℤ}
    {r : Results N} (h : step P i b order = .ok r) :
    ∀ n ∈ order, 1 ≤ n ∧ n ≤ (if b then 15 else 13) := by
  obtain ⟨c, r1, hd, -⟩ := step_ok h
  obtain ⟨r0, nodes, hrun, -⟩ := dispatch_ok hd
  obtain ⟨ps, hf, -⟩ := runOrder_ok hrun
  intro n hn
  obtain ⟨p, -, hp⟩ := forall₂_mem_left hf hn
  cases b
  · simp only [keyOf, keyAbove, Bool.false_eq_true, if_false] at hp ⊢
    split at hp <;> first | (cases hp; done) | omega
  · simp only [keyOf, keyBelow, if_true] at hp ⊢
    split at hp <;> first | (cases hp; done) | omega

/-- An unknown process number stops the timestep with `KeyError` unless the tank raised something
before it was reached. -/
theorem C29_unknown_process_rejected {P : Plant N} {i : StepIn N} {b : Bool} {order : List ℤ}
    (htank : ∀ s, ∃ m, P.tank.maxInOut i.hour s i.nodes = .ok m)
    {n : ℤ} (hn : n ∈ order) (hbad : n < 1 ∨ (if b then 15 else 13) < n) :
    step P i b order = .error .keyError := by
  have hkey : ∀ m : ℤ, (∃ p, keyOf b m = .ok p) ∨ keyOf b m = .error .keyError := by
    intro m
    cases b
    · show (∃ p, keyAbove m = .ok p) ∨ keyAbove m = .error .keyError
      unfold keyAbove
      split <;> first | (left; exact ⟨_, rfl⟩) | (right; rfl)
    · show (∃ p, keyBelow m = .ok p) ∨ keyBelow m = .error .keyError
      unfold keyBelow
      split <;> first | (left; exact ⟨_, rfl⟩) | (right; rfl)
  have hbadkey : keyOf b n = .error .keyError := by
    rcases hkey n with ⟨p, hp⟩ | h
    · exfalso
      cases b
      · simp only [keyOf, keyAbove, Bool.false_eq_true, if_false] at hp hbad
        split at hp <;> first | (cases hp; done) | omega
      · simp only [keyOf, keyBelow, if_true] at hp hbad
        split at hp <;> first | (cases hp; done) | omega
    · exact h
  have hamt : ∀ c p, ∃ a, amount P i c p = .ok a := by
    intro c p
    obtain ⟨m1, h1⟩ := htank .charging
    obtain ⟨m2, h2⟩ := htank .discharging
    cases p <;> simp only [amount, h1, h2] <;> try exact ⟨_, rfl⟩
    split_ifs <;> exact ⟨_, rfl⟩
  have hrun : ∀ (l : List ℤ) s, n ∈ l → runOrder P i (keyOf b) l s = .error .keyError := by
    intro l
    induction l with
    | nil => intro s h; cases h
    | cons m l ih =>
      intro s hm
      rcases hkey m with ⟨p, hp⟩ | he
      · have hml : n ∈ l := by
          rcases List.mem_cons.mp hm with rfl | h
          · rw [hp] at hbadkey; cases hbadkey
          · exact h
        obtain ⟨a, ha⟩ := hamt s.1 p
        simp only [runOrder, hp, runProcess, ha, bind, Except.bind, pure, Except.pure]
        exact ih _ hml
      · simp only [runOrder, he, bind, Except.bind]
  unfold step dispatch
  have := hrun order (initChecks P i, initResults P i b) hn
  unfold keyOf at this
  rw [this]
  rfl

/-- Conversely, known processes with a tank that never raises always yield a result. -/
theorem C29_known_processes_accepted {P : Plant N} {i : StepIn N} {b : Bool} {order : List ℤ}
    (htank : ∀ s, ∃ m, P.tank.maxInOut i.hour s i.nodes = .ok m)
    (hnew : P.tank.capacity ≠ 0 → ∀ s q d, ∃ n, P.tank.newNodes i.hour s i.nodes q d = .ok n)
    (hok : ∀ n ∈ order, 1 ≤ n ∧ n ≤ (if b then 15 else 13)) :
    ∃ r, step P i b order = .ok r := by
  have hkey : ∀ m ∈ order, ∃ p, keyOf b m = .ok p := by
    intro m hm
    have h := hok m hm
    cases b
    · simp only [Bool.false_eq_true, if_false] at h
      obtain ⟨h1, h2⟩ := h
      interval_cases m <;> exact ⟨_, rfl⟩
    · simp only [if_true] at h
      obtain ⟨h1, h2⟩ := h
      interval_cases m <;> exact ⟨_, rfl⟩
  have hamt : ∀ c p, ∃ a, amount P i c p = .ok a := by
    intro c p
    obtain ⟨m1, h1⟩ := htank .charging
    obtain ⟨m2, h2⟩ := htank .discharging
    cases p <;> simp only [amount, h1, h2] <;> try exact ⟨_, rfl⟩
    split_ifs <;> exact ⟨_, rfl⟩
  have hrun : ∀ (l : List ℤ) s, (∀ m ∈ l, ∃ p, keyOf b m = .ok p) →
      ∃ s', runOrder P i (keyOf b) l s = .ok s' := by
    intro l
    induction l with
    | nil => intro s _; exact ⟨s, rfl⟩
    | cons m l ih =>
      intro s hk
      obtain ⟨p, hp⟩ := hk m (List.mem_cons_self ..)
      obtain ⟨a, ha⟩ := hamt s.1 p
      simp only [runOrder, hp, runProcess, ha, bind, Except.bind, pure, Except.pure]
      exact ih _ (fun m' hm' => hk m' (List.mem_cons_of_mem _ hm'))
  obtain ⟨s, hs⟩ := hrun order (initChecks P i, initResults P i b) hkey
  have htu : ∃ nn, tankUpdate P i b s.1 (totals1 P b s.2) = .ok nn := by
    unfold tankUpdate
    split_ifs with hc
    · exact ⟨_, rfl⟩
    · exact hnew hc _ _ _
  obtain ⟨nn, hnn⟩ := htu
  have hd : dispatch P i b order = .ok (s.1, totals2 P i b nn (totals1 P b s.2)) := by
    unfold dispatch
    unfold keyOf at hs
    simp only [hs, hnn, bind, Except.bind, pure, Except.pure]
  obtain ⟨mc, hmc⟩ := htank .charging
  obtain ⟨md, hmd⟩ := htank .discharging
  unfold step
  simp only [hd, bind, Except.bind, minOutputRule, hmc]
  split_ifs with h1 h2 h3
  · unfold hpOffBelow
    simp only [hmd, bind, Except.bind, pure, Except.pure]
    split_ifs with hc
    · exact ⟨_, rfl⟩
    · obtain ⟨n', hn'⟩ := hnew hc .discharging 0 (min md i.heatDemand)
      simp only [hn']
      exact ⟨_, rfl⟩
  · unfold hpOffAbove
    by_cases hc : P.tank.capacity = 0
    · simp only [if_pos hc, bind, Except.bind, pure, Except.pure]
      exact ⟨_, rfl⟩
    · obtain ⟨n', hn'⟩ := hnew hc .discharging 0 i.heatDemand
      simp only [if_neg hc, hn', Except.map, bind, Except.bind, pure, Except.pure]
      exact ⟨_, rfl⟩
  · unfold hpRaise
    simp only [bind, Except.bind, pure, Except.pure]
    split_ifs with hc
    · exact ⟨_, rfl⟩
    · obtain ⟨n', hn'⟩ := hnew hc
        (stateOf (tsMatchOf b s.1 +
          (minOut P i - (totals2 P i b nn (totals1 P b s.2)).hp.heatTotalOutput)))
        ((totals2 P i b nn (totals1 P b s.2)).hp.heatTotalOutput +
          (minOut P i - (totals2 P i b nn (totals1 P b s.2)).hp.heatTotalOutput)) i.heatDemand
      simp only [hn']
      exact ⟨_, rfl⟩
  · exact ⟨_, rfl⟩

example : step samplePlant sampleStep false [1, 14] = .error .keyError :=
  C29_unknown_process_rejected (fun _ => ⟨_, rfl⟩) (n := 14) (by simp) (by simp)

example : ∃ r, step samplePlant sampleStep false orderAbove = .ok r :=
  C29_known_processes_accepted (fun _ => ⟨_, rfl⟩) (fun _ _ _ _ => ⟨_, rfl⟩) (by decide)

/-! ## C28 prefixes and causality -/

/-- The first `m` results of a longer run are the results of a shorter one. -/
theorem C28_prefix {S : RunIn N} {first n m : ℕ} {rs : List (Results N)}
    (h : runTimesteps S first n = .ok rs) (hm : m ≤ n) :
    runTimesteps S first m = .ok (rs.take m) := by
  obtain ⟨rows, h1, h2, h3⟩ := runTimesteps_ok.mp h
  exact runTimesteps_ok.mpr ⟨rows, h1, by omega, runFrom_take h3 hm⟩

/-- Results depend only on the data of the hours run (and the yearly peak heat demand, which is
part of `SamePlant`). -/
theorem C28_only_hours_run_matter {S S' : RunIn N} (hp : SamePlant S S') (hy : FullYear S)
    (hy' : FullYear S') {first n : ℕ}
    (hh : ∀ t, first ≤ t → t < first + n → SameHour S S' t) :
    runTimesteps S first n = runTimesteps S' first n := by
  have hg : (generation S).length = 8760 := by
    simp [generation, wind, hy.windUser, hy.windData, hy.pv]
  have hg' : (generation S').length = 8760 := by
    simp [generation, wind, hy'.windUser, hy'.windData, hy'.pv]
  have e : surplusDeficitFixed (generation S) S.elecDemand
      = .ok (List.zipWith splitHourFixed (generation S) S.elecDemand) := by
    have := hy.elecDemand
    rw [surplusDeficitFixed, if_neg (by omega), if_neg (by omega)]
  have e' : surplusDeficitFixed (generation S') S'.elecDemand
      = .ok (List.zipWith splitHourFixed (generation S') S'.elecDemand) := by
    have := hy'.elecDemand
    rw [surplusDeficitFixed, if_neg (by omega), if_neg (by omega)]
  have hwind : ∀ t, SameHour S S' t → (wind S)[t]? = (wind S')[t]? := by
    intro t ht
    simp only [wind, List.getElem?_zipWith, ht.windUser, ht.windData]
  have hgen : ∀ t, SameHour S S' t → (generation S)[t]? = (generation S')[t]? := by
    intro t ht
    simp only [generation, List.getElem?_zipWith, hwind t ht, ht.pv]
  have hstep : ∀ t nodes soc, SameHour S S' t →
      hourStep S (List.zipWith splitHourFixed (generation S) S.elecDemand) t nodes soc
      = hourStep S' (List.zipWith splitHourFixed (generation S') S'.elecDemand) t nodes soc := by
    intro t nodes soc ht
    simp only [hourStep, lookup, lookupPerf, ht.heatDemand, ht.importPrice, ht.perf, ht.pv,
      ht.elecDemand, hgen t ht, hwind t ht, List.getElem?_zipWith, hp.plant, hp.setpoint,
      hp.orderAbove, hp.orderBelow]
  have hfrom : ∀ k t nodes soc, first ≤ t → t + k ≤ first + n →
      runFrom S (List.zipWith splitHourFixed (generation S) S.elecDemand) t k nodes soc
      = runFrom S' (List.zipWith splitHourFixed (generation S') S'.elecDemand) t k nodes soc := by
    intro k
    induction k with
    | zero => intro t nodes soc _ _; rfl
    | succ k ih =>
      intro t nodes soc h1 h2
      simp only [runFrom, hstep t nodes soc (hh t h1 (by omega))]
      congr 1
      funext r
      rw [ih (t + 1) _ _ (by omega) (by omega)]
  have htank : S.tank = S'.tank := congrArg Plant.tank hp.plant
  have hes : S.es = S'.es := congrArg Plant.es hp.plant
  unfold runTimesteps
  rw [e, e']
  simp only [bind, Except.bind]
  split_ifs
  · rfl
  · rw [htank, hes]
    exact hfrom n first _ _ le_rfl le_rfl

example (S : RunIn N) (hy : FullYear S) (pv' : List ℚ) (hl : pv'.length = 8760)
    (h : ∀ t, t < 2 → S.pv[t]? = pv'[t]?) :
    runTimesteps S 0 2 = runTimesteps { S with pv := pv' } 0 2 :=
  C28_only_hours_run_matter (S := S) (S' := { S with pv := pv' }) (first := 0) (n := 2) ⟨rfl, rfl, rfl, rfl⟩ hy
    { windUser := hy.windUser, windData := hy.windData, pv := hl, elecDemand := hy.elecDemand,
      heatDemand := hy.heatDemand, importPrice := hy.importPrice, perf := hy.perf }
    (fun t _ h2 => { windUser := rfl, windData := rfl, pv := h t (by omega), elecDemand := rfl,
                     heatDemand := rfl, importPrice := rfl, perf := rfl })

/-! ## Whole-run balances -/

/-- Every hour of a run has meaningful inputs. -/
theorem run_hours {S : RunIn N} (H : RunOk S) {first n : ℕ} {rs : List (Results N)}
    (h : runTimesteps S first n = .ok rs) : ∃ rows, ∀ k, k < n →
      ∃ r heat price row perf gen wnd pv elec r0, rs[k]? = some r ∧
        HourOk S rows (first + k) (nodesBefore S rs k) (socBefore S rs k) r heat price row perf
          gen wnd pv elec r0 ∧
        SplitOk gen elec row ∧
        StepOk (plant S) (hourIn (first + k) heat price row perf (nodesBefore S rs k)
          (socBefore S rs k)) := by
  obtain ⟨rows, h1, h2⟩ := C27_chained h
  refine ⟨rows, ?_⟩
  have hend : first + n ≤ 8760 := by
    obtain ⟨_, _, h, _⟩ := runTimesteps_ok.mp h
    exact h
  rw [C08_versions_agree] at h1
  intro k
  induction k with
  | zero =>
    intro hk
    obtain ⟨r, hr, hs⟩ := h2 0 hk
    obtain ⟨heat, price, row, perf, gen, wnd, pv, elec, r0, ho⟩ := hourStep_ok.mp hs
    obtain ⟨g, d, w, hg, hd, hw, hsp⟩ := C08_split_exact h1 (first + 0) (by omega)
    have e1 := Option.some.inj (hg.symm.trans ho.genEq)
    have e2 := Option.some.inj (hd.symm.trans ho.elecEq)
    have e3 := Option.some.inj (hw.symm.trans ho.rowEq)
    subst e1 e2 e3
    refine ⟨r, heat, price, w, perf, g, wnd, pv, d, r0, hr, ho, hsp, ho.stepOk H hsp ?_⟩
    exact C01_soc_within_capacity _ H.es.capacity_nonneg H.es.init_nonneg H.es.init_le_one []
  | succ k ih =>
    intro hk
    obtain ⟨q, _, _, _, _, _, _, _, _, q0, hq, hoq, -, hst⟩ := ih (by omega)
    obtain ⟨r, hr, hs⟩ := h2 (k + 1) hk
    obtain ⟨heat, price, row, perf, gen, wnd, pv, elec, r0, ho⟩ := hourStep_ok.mp hs
    obtain ⟨g, d, w, hg, hd, hw, hsp⟩ := C08_split_exact h1 (first + (k + 1)) (by omega)
    have e1 := Option.some.inj (hg.symm.trans ho.genEq)
    have e2 := Option.some.inj (hd.symm.trans ho.elecEq)
    have e3 := Option.some.inj (hw.symm.trans ho.rowEq)
    subst e1 e2 e3
    refine ⟨r, heat, price, w, perf, g, wnd, pv, d, r0, hr, ho, hsp, ho.stepOk H hsp ?_⟩
    have := C23_final_soc_within_capacity hst hoq.stepEq
    have hse : q.es.finalSoc = q0.es.finalSoc := by rw [hoq.resultEq]; rfl
    simp only [socBefore, hq, Option.map_some, Option.getD_some, hse]
    exact this

theorem run_mem {S : RunIn N} (H : RunOk S) {first n : ℕ} {rs : List (Results N)}
    (h : runTimesteps S first n = .ok rs) {r : Results N} (hr : r ∈ rs) :
    ∃ rows t nodes soc heat price row perf gen wnd pv elec r0,
      HourOk S rows t nodes soc r heat price row perf gen wnd pv elec r0 ∧ SplitOk gen elec row ∧
      StepOk (plant S) (hourIn t heat price row perf nodes soc) := by
  obtain ⟨rows, hk⟩ := run_hours H h
  obtain ⟨k, hkl, rfl⟩ := List.getElem_of_mem hr
  obtain ⟨r', heat, price, row, perf, gen, wnd, pv, elec, r0, h1, h2, h3, h4⟩ :=
    hk k (by rw [← C27_one_result_per_hour h]; exact hkl)
  have : rs[k] = r' := by
    rw [List.getElem?_eq_getElem hkl] at h1
    exact Option.some.inj h1
  rw [this]
  exact ⟨rows, _, _, _, heat, price, row, perf, gen, wnd, pv, elec, r0, h2, h3, h4⟩

/-- The order of an hour has no repeats and is safe if both orders are. -/
theorem hour_order {S : RunIn N} (ho : OrdersOk S) (price : ℚ) :
    (if price > S.setpoint then S.orderAbove else S.orderBelow).Nodup ∧
    SafeOrder (decide (price ≤ S.setpoint))
      (if price > S.setpoint then S.orderAbove else S.orderBelow) := by
  by_cases hp : price > S.setpoint
  · rw [if_pos hp, decide_eq_false (not_le.mpr hp)]
    exact ⟨ho.above_nodup, ho.above_safe⟩
  · rw [if_neg hp, decide_eq_true (not_lt.mp hp)]
    exact ⟨ho.below_nodup, ho.below_safe⟩

/-- The battery stays inside its capacity throughout a run. -/
theorem C23_run_soc_within_capacity {S : RunIn N} (H : RunOk S) {first n : ℕ}
    {rs : List (Results N)} (h : runTimesteps S first n = .ok rs) {r : Results N} (hr : r ∈ rs) :
    0 ≤ r.es.finalSoc ∧ r.es.finalSoc ≤ S.es.capacity := by
  obtain ⟨_, _, _, _, _, _, _, _, _, _, _, _, r0, ho, -, hst⟩ := run_mem H h hr
  have := C23_final_soc_within_capacity hst ho.stepEq
  rw [ho.resultEq]
  exact this

/-- In every hour of a run renewables, battery and import together supply exactly the electric
demand, if import is one of the processes of both orders. -/
theorem C18_run_demand_supplied {S : RunIn N} (H : RunOk S) (hord : OrdersOk S)
    (ha : 3 ∈ S.orderAbove) (hb : 2 ∈ S.orderBelow) {first n : ℕ} {rs : List (Results N)}
    (h : runTimesteps S first n = .ok rs) {r : Results N} (hr : r ∈ rs) :
    r.elecDemand.res + r.elecDemand.es + r.elecDemand.imp = r.elecDemand.elecDemand := by
  obtain ⟨_, _, _, _, heat, price, row, perf, gen, wnd, pv, elec, r0, ho, hsp, hst⟩ :=
    run_mem H h hr
  obtain ⟨hnd, hsafe⟩ := hour_order hord price
  have himp : (numbers (decide (price ≤ S.setpoint))).importToDemand
      ∈ (if price > S.setpoint then S.orderAbove else S.orderBelow) := by
    by_cases hp : price > S.setpoint
    · rw [if_pos hp, decide_eq_false (not_le.mpr hp)]; exact ha
    · rw [if_neg hp, decide_eq_true (not_lt.mp hp)]; exact hb
  have hd := C18_deficit_met_partial hst hnd (fun hb => (hsafe.2 hb).1 8 (by simp)) himp ho.stepEq
  have := hsp.demand
  rw [ho.resultEq]
  simp only [complete]
  linarith

/-- In no hour of a run is more renewable energy used than generated: demand, heat pump, heater,
battery and export together take at most the generation. -/
theorem C19_run_within_generation {S : RunIn N} (H : RunOk S) (hord : OrdersOk S) {first n : ℕ}
    {rs : List (Results N)} (h : runTimesteps S first n = .ok rs) {r : Results N} (hr : r ∈ rs) :
    r.res.elecDemand + r.res.hp + r.res.aux + r.res.es + r.res.exp ≤ r.res.generationTotal := by
  obtain ⟨_, _, _, _, heat, price, row, perf, gen, wnd, pv, elec, r0, ho, hsp, hst⟩ :=
    run_mem H h hr
  obtain ⟨hnd, hsafe⟩ := hour_order hord price
  have hs := C19_at_most_surplus hst hnd hsafe ho.stepEq
  obtain ⟨c, r1, hd, hm⟩ := step_ok ho.stepEq
  have h61 := (C61_reports_agree hst hnd hd).2.2.2.1
  have hhp : r0.res.hpToHeatDemand + r0.res.hpToTs = r0.hp.elecResUsage := by
    rcases rule_outcome hm with ⟨rfl, _⟩ | ⟨_, _, rfl⟩ | ⟨_, _, _, rfl⟩ | ⟨_, _, _, _, _, rfl⟩
    · exact h61
    · exact h61
    · simp [zeroHp]
    · simp [zeroHp]
  have := hsp.generation
  rw [ho.resultEq]
  simp only [resSpent] at hs
  simp only [complete]
  linarith

/-- Every flow reported in a run is non-negative. -/
theorem C21_run_flows_nonneg {S : RunIn N} (H : RunOk S) (hord : OrdersOk S) {first n : ℕ}
    {rs : List (Results N)} (h : runTimesteps S first n = .ok rs) {r : Results N} (hr : r ∈ rs) :
    FlowsNonneg r := by
  obtain ⟨_, _, _, _, heat, price, row, perf, gen, wnd, pv, elec, r0, ho, hsp, hst⟩ :=
    run_mem H h hr
  obtain ⟨hnd, hsafe⟩ := hour_order hord price
  obtain ⟨f1, f2, f3, f4, f5, f6, f7, f8, f9⟩ := C21_flows_nonneg hst hnd hsafe ho.stepEq
  rw [ho.resultEq]
  exact ⟨f1, f2, f3, f4, f5, f6, f7, f8, f9⟩

/-- One hour of a full-year system with known processes can be run if the tank does not raise at it. -/
theorem hour_accepts {S : RunIn N} (hy : FullYear S)
    (hord : (∀ n ∈ S.orderAbove, 1 ≤ n ∧ n ≤ 13) ∧ (∀ n ∈ S.orderBelow, 1 ≤ n ∧ n ≤ 15))
    {rows : List Row} (hl : rows.length = 8760) {t : ℕ} {nodes : N} {soc : ℚ}
    (htank : ∀ s, ∃ m, S.tank.maxInOut t s nodes = .ok m)
    (hnew : S.tank.capacity ≠ 0 → ∀ s q d, ∃ n, S.tank.newNodes t s nodes q d = .ok n) (ht : t < 8760) :
    ∃ r, hourStep S rows t nodes soc = .ok r := by
  have hw : (wind S).length = 8760 := by simp [wind, hy.windUser, hy.windData]
  have hg : (generation S).length = 8760 := by simp [generation, hw, hy.pv]
  have := hy.heatDemand
  have := hy.importPrice
  have := hy.perf
  have := hy.pv
  have := hy.elecDemand
  obtain ⟨r0, hr0⟩ : ∃ r0, step (plant S) (hourIn t (S.heatDemand[t]'(by omega))
      (S.importPrice[t]'(by omega)) (rows[t]'(by omega)) (S.perf[t]'(by omega)) nodes soc)
      (decide (S.importPrice[t]'(by omega) ≤ S.setpoint))
      (if S.importPrice[t]'(by omega) > S.setpoint then S.orderAbove else S.orderBelow)
      = .ok r0 := by
    refine C29_known_processes_accepted (fun s => htank _) (fun hc s q d => hnew hc _ _ _) ?_
    by_cases hp : S.importPrice[t]'(by omega) > S.setpoint
    · rw [if_pos hp, decide_eq_false (not_le.mpr hp)]; exact hord.1
    · rw [if_neg hp, decide_eq_true (not_lt.mp hp)]; exact hord.2
  exact ⟨_, hourStep_ok.mpr ⟨S.heatDemand[t]'(by omega), S.importPrice[t]'(by omega),
    rows[t]'(by omega), S.perf[t]'(by omega), (generation S)[t]'(by omega),
    (wind S)[t]'(by omega), S.pv[t]'(by omega), S.elecDemand[t]'(by omega), r0,
    List.getElem?_eq_getElem _, List.getElem?_eq_getElem _, List.getElem?_eq_getElem _,
    List.getElem?_eq_getElem _, List.getElem?_eq_getElem _, List.getElem?_eq_getElem _,
    List.getElem?_eq_getElem _, List.getElem?_eq_getElem _, hr0, rfl⟩⟩

/-- The rows of surplus and deficit of a full year. -/
theorem rows_accepts {S : RunIn N} (hy : FullYear S) : ∃ rows,
    surplusDeficitFixed (generation S) S.elecDemand = .ok rows ∧ rows.length = 8760 := by
  have hw : (wind S).length = 8760 := by simp [wind, hy.windUser, hy.windData]
  have hg : (generation S).length = 8760 := by simp [generation, hw, hy.pv]
  obtain ⟨rows, h1, hl⟩ := C08_accepts_full_year _ _ hg hy.elecDemand
  rw [← C08_versions_agree] at h1
  exact ⟨rows, h1, hl⟩

/-- A full-year system with known processes and a tank that never raises can run any span inside
the year. -/
theorem C27_accepts_span_inside_year {S : RunIn N} (hy : FullYear S)
    (hord : (∀ n ∈ S.orderAbove, 1 ≤ n ∧ n ≤ 13) ∧ (∀ n ∈ S.orderBelow, 1 ≤ n ∧ n ≤ 15))
    (htank : ∀ hour s nodes, ∃ m, S.tank.maxInOut hour s nodes = .ok m)
    (hnew : ∀ hour s nodes q d, ∃ n, S.tank.newNodes hour s nodes q d = .ok n)
    {first n : ℕ} (h : first + n ≤ 8760) : ∃ rs, runTimesteps S first n = .ok rs := by
  obtain ⟨rows, h1, hl⟩ := rows_accepts hy
  have hfrom : ∀ k t nodes soc, t + k ≤ 8760 → ∃ rs, runFrom S rows t k nodes soc = .ok rs := by
    intro k
    induction k with
    | zero => intro t nodes soc _; exact ⟨[], rfl⟩
    | succ k ih =>
      intro t nodes soc hk
      obtain ⟨r, hr⟩ := hour_accepts (soc := soc) hy hord hl (fun s => htank t s nodes)
        (fun _ s q d => hnew t s nodes q d) (by omega)
      obtain ⟨rest, hrest⟩ := ih (t + 1) (r.ts.finalNodesTemp.getD nodes) r.es.finalSoc (by omega)
      refine ⟨r :: rest, ?_⟩
      simp only [runFrom, hr, hrest, bind, Except.bind, pure, Except.pure]
  obtain ⟨rs, hrs⟩ := hfrom n first S.tank.initTemps S.es.initState h
  exact ⟨rs, runTimesteps_ok.mpr ⟨rows, h1, h, hrs⟩⟩

/-- The sample year can be run to its end, and its results satisfy the balances. -/
theorem sampleRun_runs (first n : ℕ) (h : first + n ≤ 8760) :
    ∃ rs, runTimesteps sampleRun first n = .ok rs :=
  C27_accepts_span_inside_year sampleRun_fullYear ⟨by decide, by decide⟩
    (fun _ _ _ => ⟨_, rfl⟩) (fun _ _ _ _ _ => ⟨_, rfl⟩) h

/-- C27 and C23 for a year of the sample: hour 5000. -/
example : ∃ rs, runTimesteps sampleRun 0 8760 = .ok rs ∧
    (∃ rows, surplusDeficitFixed (generation sampleRun) sampleRun.elecDemand = .ok rows ∧ ∃ r,
      hourStep sampleRun rows 5000 (nodesBefore sampleRun rs 5000) (socBefore sampleRun rs 5000) = .ok r) ∧
    (∃ r, rs[(5000 : ℕ)]? = some r ∧ sampleRun.heatDemand[(5000 : ℕ)]? = some r.heatDemand.heatDemand) ∧
    ∀ r ∈ rs, (∃ nodes, r.ts.finalNodesTemp = some nodes) ∧ 0 ≤ r.es.finalSoc := by
  obtain ⟨rs, h⟩ := sampleRun_runs 0 8760 le_rfl
  obtain ⟨rows, h1, h2⟩ := C27_chained h
  obtain ⟨r, -, h3⟩ := h2 5000 (by norm_num)
  obtain ⟨r', h4, h5, -⟩ := C27_reports_its_hour h (k := 5000) (by norm_num)
  rw [Nat.zero_add] at h3 h5
  exact ⟨rs, h, ⟨rows, h1, r, h3⟩, ⟨r', h4, h5⟩, fun r hr =>
    ⟨C27_state_always_reported h hr, (C23_run_soc_within_capacity sampleRun_ok h hr).1⟩⟩

/-- C28: the first day of a year is the run of a day. -/
example : ∃ rs, runTimesteps sampleRun 0 8760 = .ok rs ∧ runTimesteps sampleRun 0 24 = .ok (rs.take 24) := by
  obtain ⟨rs, h⟩ := sampleRun_runs 0 8760 le_rfl
  exact ⟨rs, h, C28_prefix h (by norm_num)⟩

/-- C29: an hour of the sample takes one of the two orders. -/
example : ∃ rows nodes soc r price i r0, hourStep sampleRun rows 5000 nodes soc = .ok r ∧
    sampleRun.importPrice[(5000 : ℕ)]? = some price ∧
    (price > sampleRun.setpoint → step (plant sampleRun) i false sampleRun.orderAbove = .ok r0) ∧
    (price ≤ sampleRun.setpoint → step (plant sampleRun) i true sampleRun.orderBelow = .ok r0) := by
  obtain ⟨rs, h⟩ := sampleRun_runs 0 8760 le_rfl
  obtain ⟨rows, -, h2⟩ := C27_chained h
  obtain ⟨r, -, h3⟩ := h2 5000 (by norm_num)
  rw [Nat.zero_add] at h3
  obtain ⟨price, i, r0, k1, -, -, -, -, k2, k3, -⟩ := C29_setpoint_selects_order h3
  exact ⟨_, _, _, _, price, i, r0, h3, k1, k2, k3⟩

/-- C29: the processes of an hour that could be stepped. -/
example : ∀ n ∈ orderAbove, 1 ≤ n ∧ n ≤ 13 := by
  obtain ⟨r, h, -⟩ := sampleStep_steps
  exact C29_only_known_processes h

example : ∃ rs, runTimesteps sampleRun 0 8760 = .ok rs ∧ rs.length = 8760 ∧ ∀ r ∈ rs,
    r.elecDemand.res + r.elecDemand.es + r.elecDemand.imp = r.elecDemand.elecDemand ∧
    r.res.elecDemand + r.res.hp + r.res.aux + r.res.es + r.res.exp ≤ r.res.generationTotal ∧
    FlowsNonneg r := by
  obtain ⟨rs, h⟩ := sampleRun_runs 0 8760 le_rfl
  refine ⟨rs, h, C27_one_result_per_hour h, fun r hr => ⟨?_, ?_, ?_⟩⟩
  · exact C18_run_demand_supplied sampleRun_ok sampleRun_orders (by decide) (by decide) h hr
  · exact C19_run_within_generation sampleRun_ok sampleRun_orders h hr
  · exact C21_run_flows_nonneg sampleRun_ok sampleRun_orders h hr

end Verif
