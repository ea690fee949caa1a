import Verif.Lemmas.Predictive
import Verif.Props.MpcBalance

/-!
# C100: a study with the predictive controller, from the workbook to the results

The optimiser is any `gekko`; theorems about balances ask that its answers respect what is posted to it
(`Spec.Obeys`).
-/

set_option autoImplicit false

namespace Verif
open Pandas Simulation Spec Programme FixedOrder Workbook

variable {F K : Type}

/-! ## Helpers -/

theorem prices_length {L : Libs} {c : Workbook.Container} {g : Tariff.Grid} {xs : List ℚ}
    (h : importPrices L c g = .ok xs) : xs.length = 8760 := by
  have key : ∀ p, (do
      match ← Tariff.importCostSeries g p with
      | some prices => Except.ok prices
      | none => .error .typeError) = .ok xs → xs.length = 8760 := by
    intro p hp
    obtain ⟨os, hos, hp⟩ := except_bind_ok.mp hp
    cases os with
    | none => cases hp
    | some ys =>
      rw [← Except.ok.inj hp]
      exact C36_length hos
  unfold importPrices at h
  dsimp only at h
  split_ifs at h
  · obtain ⟨p, -, h⟩ := except_bind_ok.mp h
    exact key p h
  · exact key [] h

theorem flat_prices {L : Libs} {wb : Pandas.Workbook} {size : ℤ × ℤ} {o : Objects} (ht : TopRowsEmpty wb)
    (ho : objects L wb size = .ok o) {c : Workbook.Container} {xs : List ℚ}
    (h : importPrices L c o.grid = .ok xs) (hflat : Says wb "Grid" 'D' 5 "Flat rates") :
    ∃ x, Holds wb "Grid" 'C' 9 x ∧ xs = List.replicate 8760 x := by
  obtain ⟨G1, G2, -⟩ := C91_grid ht ho
  obtain ⟨-, V1, -⟩ := C91_tariff ho
  have htar : o.grid.tariff = "Flat rates" := by
    have := G1.symm.trans hflat
    injection this with this
    injection this
  obtain ⟨x, hx⟩ := Option.isSome_iff_exists.mp (V1.mpr (Or.inl htar))
  refine ⟨x, G2 x hx, ?_⟩
  have hu : usesFarm o.grid = false := by
    unfold usesFarm
    rw [htar]
    decide
  unfold importPrices Tariff.importCostSeries Tariff.flatRatesSeries at h
  rw [hu, if_neg (by decide), okBind] at h
  dsimp only at h
  rw [if_pos htar, hx] at h
  exact (Except.ok.inj h).symm

theorem hourly_get {wb : Pandas.Workbook} {sheet : String} {col : Char} {row : ℕ} {xs : List ℚ}
    (h : Hourly wb sheet col row xs) {t : ℕ} (ht : t < xs.length) :
    Holds wb sheet col (row + t) (xs.getD t 0) := by
  obtain ⟨_, -, -, hc⟩ := h
  refine hc t _ ?_
  rw [List.getD_eq_getElem?_getD, List.getElem?_eq_getElem ht]
  rfl

theorem solve_predictive {L : Libs} {gekko : Gekko} {wb : Pandas.Workbook} {size : ℤ × ℤ}
    {c : Workbook.Container} {first n : ℕ} (hc : containerOf wb size = .ok c)
    (hf : Holds wb "Controller" 'G' 5 first) (hn : Holds wb "Controller" 'G' 6 n)
    {r : Programme.Outcome} :
    solvePickle L gekko .predictive first n c = .ok r ↔
      ∃ rs, predict L gekko wb size = .ok rs ∧ r = .predictive rs := by
  unfold solvePickle Main.runSolver
  simp only [except_bind_ok, except_pure_ok]
  constructor
  · rintro ⟨⟨S, mc⟩, hS, rs, hrs, rfl⟩
    refine ⟨rs, predict_ok.mpr ⟨first, n, S, mc, ?_, hf, hn, hrs⟩, rfl⟩
    unfold mpcInputs
    rw [hc]
    exact hS
  · rintro ⟨rs, hsim, rfl⟩
    obtain ⟨first', n', S, mc, hS, hf', hn', hrun⟩ := predict_ok.mp hsim
    have e1 : first = first' := by exact_mod_cast Except.ok.inj (congrArg numOf (hf.symm.trans hf'))
    have e2 : n = n' := by exact_mod_cast Except.ok.inj (congrArg numOf (hn.symm.trans hn'))
    subst e1 e2
    unfold mpcInputs at hS
    rw [hc] at hS
    exact ⟨(S, mc), hS, rs, hrun, rfl⟩

/-! ## The property -/

/-- What is reported for one hour of a predictive run, in terms of the workbook. -/
structure Spec.PredictReport (wb : Pandas.Workbook) (hour : ℕ) (r : Mpc.MpcResults (List ℚ)) : Prop where
  /-- The demands are those of the hour, rows counted from 6. -/
  heat : Holds wb "Demand input" 'D' (6 + hour) r.heatDemand.heatDemand
  elec : Holds wb "Demand input" 'E' (6 + hour) r.elecDemand.elecDemand
  /-- Renewables, battery and import together are the electrical demand. -/
  balance : r.elecDemand.res + r.elecDemand.es + r.elecDemand.imp = r.elecDemand.elecDemand
  /-- All renewable power is used, stored or sold. -/
  generation : r.res.generationTotal = r.res.wind + r.res.pv ∧
    r.res.elecDemand + r.res.hp + r.res.aux + r.es.chargingFromRes + r.res.exp = r.res.generationTotal
  /-- The heat pump stays within its duty. -/
  pump : 0 ≤ r.hp.heatTotalOutput ∧ r.hp.heatTotalOutput ≤ r.hp.duty
  /-- The export is sold at the price written, the import paid at the price reported, and with the tariff of
  flat rates that is the price written. -/
  costs : (∃ ex, Holds wb "Grid" 'D' 9 ex ∧ r.grid.exportIncome = r.grid.totalExport * ex / 1000) ∧
    r.grid.importCosts = r.grid.totalImport * r.grid.importPrice / 1000 ∧
    r.grid.cashflow = r.grid.exportIncome - r.grid.importCosts ∧
    (Says wb "Grid" 'D' 5 "Flat rates" → Holds wb "Grid" 'C' 9 r.grid.importPrice)
  /-- With an electric heater the battery stays between empty and the capacity written in its row. -/
  soc : Workbook.fuelOf (excel wb "Aux heat" 'C' 6) = .ok .electric →
    ∃ s row cap, wb "Electrical storage" = some s ∧ FirstComplete s [5] [0, 1] row ∧
      Holds wb "Electrical storage" 'C' row cap ∧ 0 ≤ r.es.finalSoc ∧ r.es.finalSoc ≤ cap

/-- The first result of a predictive run: the heat demand of its hour is met by heat pump and heater, and no
electricity is reported. -/
structure Spec.OpeningReport (wb : Pandas.Workbook) (hour : ℕ) (r : Mpc.MpcResults (List ℚ)) : Prop where
  heat : Holds wb "Demand input" 'D' (6 + hour) r.heatDemand.heatDemand
  met : r.hp.heatTotalOutput + r.aux.demand = r.heatDemand.heatDemand
  nothing : r.elecDemand.elecDemand = 0 ∧ r.res.generationTotal = 0 ∧ r.grid.totalImport = 0 ∧
    r.grid.totalExport = 0

theorem predict_lengths {L : Libs} (hL : WholeYear L) {wb : Pandas.Workbook} {size : ℤ × ℤ} {first n : ℕ}
    {S : MpcIn (List ℚ)} {maxCap : List ℚ} {o : Objects} {hs xs us ds ps prs : List ℚ} {pfs : List Perf}
    (ht : TopRowsEmpty wb) (T : PredictOf L wb size first n S maxCap o hs xs us ds ps prs pfs) :
    hs.length = 8760 ∧ xs.length = 8760 ∧ us.length = 8760 ∧ ds.length = 8760 ∧ ps.length = 8760 ∧
      prs.length = 8760 ∧ pfs.length = 8760 := by
  obtain ⟨air, water, src, rt, -, -, E3, -, -, -, E7, -⟩ := C93_temperatures ht T.objects
  obtain ⟨c, -, hp⟩ := T.prices
  refine ⟨(hourly_length T.heat E3).trans E7, (hourly_length T.elec E3).trans E7, user_length hL T.windUser,
    database_length hL T.windData, pv_length T.pvPower, prices_length hp, ?_⟩
  obtain ⟨b, c, hr, hs, ho⟩ := objects_ok T.objects
  obtain ⟨w, -, -, -, -, -, ⟨bs, a, -, -, hcon, -, -⟩⟩ := (init_ok ho).weather
  exact C13_performance_covers_year hcon T.performance

theorem zip_getD {xs ys : List ℚ} {t : ℕ} (hx : t < xs.length) (hy : t < ys.length) :
    (List.zipWith (· + ·) xs ys).getD t 0 = xs.getD t 0 + ys.getD t 0 := by
  simp only [List.getD_eq_getElem?_getD, List.getElem?_zipWith, List.getElem?_eq_getElem hx,
    List.getElem?_eq_getElem hy]
  rfl

/-- C100, one combination: there is a result for each of the hours asked for in G5 and G6 of the controller
sheet; the first is as `OpeningReport` says, and each later one, unless it is about the last hour of the
year, as `PredictReport` says. Partial: the last hour of the year (`C47_year_end`), the heat with a store
(`C49_heat_too_much`), runs of one hour (`C47_single_hour`). -/
theorem C100_combination_partial {L : Libs} (hL : WholeYear L) {gekko : Gekko} {wb : Pandas.Workbook}
    {size : ℤ × ℤ} {rs : List (Mpc.MpcResults (List ℚ))} (ht : TopRowsEmpty wb) (hw : Sensible wb)
    (hg : ∀ first n S maxCap, mpcInputs L wb size first n = .ok (S, maxCap) → Obeys S (gekko S maxCap))
    (h : predict L gekko wb size = .ok rs)
    (h2 : 2 ≤ rs.length) :
    ∃ first : ℕ, Holds wb "Controller" 'G' 5 first ∧ Holds wb "Controller" 'G' 6 rs.length ∧
      first + rs.length ≤ 8760 ∧ ∀ k r, rs[k]? = some r →
        (k = 0 → OpeningReport wb first r) ∧
        (1 ≤ k → first + k ≠ 8759 → PredictReport wb (first + k) r) := by
  obtain ⟨first, n, S, mc, hS, hf, hn, hrun⟩ := predict_ok.mp h
  obtain ⟨o, hs, xs, us, ds, ps, prs, pfs, T⟩ := mpcIn_ok ht hS
  obtain ⟨l1, l2, l3, l4, l5, l6, l7⟩ := predict_lengths hL ht T
  have hyear : first + n ≤ 8760 := by
    by_contra hlt
    rw [C47_beyond_year _ _ _ _ (by omega)] at hrun
    cases hrun
  have hn2 : 2 ≤ n := by
    by_contra hlt
    have : rs = [] := by
      unfold Mpc.movingHorizon at hrun
      rw [if_neg (by omega), show n - 1 = 0 by omega] at hrun
      exact (Except.ok.inj hrun).symm
    rw [this] at h2
    exact absurd h2 (by decide)
  have hlen := C47_count_partial hn2 hrun
  refine ⟨first, hf, by rw [hlen]; exact hn, by rw [hlen]; exact hyear, fun k r hr => ⟨?_, fun h1 h8 => ?_⟩⟩
  · rintro rfl
    obtain ⟨_, _, h0, _, _⟩ := Mpc.run_shape hn2 hrun
    cases Option.some.inj (hr.symm.trans h0)
    refine ⟨?_, ?_, rfl, rfl, rfl, rfl⟩
    · show Holds wb "Demand input" 'D' (6 + first) (S.heatDemand first)
      rw [T.heatDemand]
      exact hourly_get T.heat (by omega)
    · unfold Mpc.opening
      dsimp only
      split_ifs <;> ring
  · have hk : k < n := by
      rw [← hlen]
      exact (List.getElem?_eq_some_iff.mp hr).1
    have hO : FromOptimiser S (gekko S mc) first n k r := ⟨rs, hrun, hr, hn2, h1, h8⟩
    have hob := hg first n S mc hS
    obtain ⟨B1, B2⟩ := C49_electricity hob hO
    obtain ⟨R1, R2⟩ := C49_renewables hob hO
    obtain ⟨P1, P2⟩ := C49_within_duty hob hO
    obtain ⟨G1, G2, G3⟩ := C49_bill hO
    obtain ⟨-, C⟩ := Mpc.run_shape hn2 hrun
    obtain ⟨cap, p, prev, f, nodes, -, -, hrep⟩ := fromOptimiser hob hO
    have hheat : r.heatDemand.heatDemand = S.heatDemand (first + k) := by rw [hrep]; rfl
    have hduty : r.hp.duty = (S.perf (first + k)).duty := by rw [hrep]; rfl
    have hwind : r.res.wind = S.wind (first + k) ∧ r.res.pv = S.pv (first + k) := by
      rw [hrep]
      exact ⟨rfl, rfl⟩
    have hprice : r.grid.importPrice = S.importCost (first + k) := by rw [hrep]; rfl
    refine
      { heat := ?_, elec := ?_, balance := B1.trans B2.symm, generation := ⟨?_, R1.trans R2.symm⟩,
        pump := ⟨P1, by rw [hduty]; exact P2⟩, costs := ⟨⟨_, T.exportPrice, G2⟩, ?_, G3, fun hflat => ?_⟩,
        soc := fun hel => ?_ }
    · rw [hheat, T.heatDemand]
      exact hourly_get T.heat (by omega)
    · rw [B2, T.elecDemand]
      exact hourly_get T.elec (by omega)
    · rw [R2, hwind.1, hwind.2, T.generation, T.wind, T.pv]
      exact zip_getD (by rw [List.length_zipWith]; omega) (by omega)
    · rw [hprice]
      exact G1
    · obtain ⟨c, -, hpr⟩ := T.prices
      obtain ⟨x, hx, rfl⟩ := flat_prices ht T.objects hpr hflat
      rw [hprice, T.importCost]
      show Holds wb "Grid" 'C' 9 ((List.replicate 8760 x).getD (first + k) 0)
      rw [List.getD_eq_getElem?_getD, List.getElem?_replicate, if_pos (by omega)]
      exact hx
    · obtain ⟨s, row, hs', hrow, b1, b2, b3, b4, b5, b6, b7⟩ := C91_battery ht T.objects
      obtain ⟨-, K2⟩ := hw.battery s row hs' hrow
      simp only [List.forall_mem_cons, List.not_mem_nil, false_implies, implies_true, and_true] at K2
      obtain ⟨fuel, hfu, -, hel', -⟩ := C91_heater T.objects
      have he : S.aux.electric = true := by
        rw [T.aux]
        exact hel'.mpr (Except.ok.inj (hfu.symm.trans hel))
      obtain ⟨c1, c2, -⟩ := C49_battery hob hO he (by rw [T.es]; exact K2.2.2.1 _ b6)
      exact ⟨s, row, _, hs', hrow, b1, c1, by rw [← T.es]; exact c2⟩

/-- C100, the study: when the program ends without an error, on one core or on two, every combination of
sizes has the results and figures of its own predictive run, and nothing else is written. -/
theorem C100_study {L : Libs} {gekko : Gekko} {wb : Pandas.Workbook} {out : Outputs F K} {k : K}
    {st : Main.Store (List Char) Programme.Outcome F}
    (hc : Says wb "Controller" 'D' 5 "Model predictive control") (h : Ends L gekko wb out (.ok k, st)) :
    ∃ pa sizes, RangesIn wb pa ∧ Para.combos pa = .ok sizes ∧ sizes ≠ [] ∧
      (∀ size ∈ sizes, ∃ rs, predict L gekko wb size = .ok rs ∧
        st.results (Para.folderName size) = some (.predictive rs) ∧
        st.figures (Para.folderName size) = (out.plot (Para.folderName size) (.predictive rs)).1) ∧
      (∀ name, (∀ size ∈ sizes, name ≠ Para.folderName size) →
        st.results name = none ∧ st.figures name = []) ∧
      out.kpis st.results = .ok k := by
  obtain ⟨s, hs, h⟩ := ends_ok h
  obtain ⟨pa, sizes, ctl, first, n, Z⟩ := setup_ok hs
  obtain ⟨hloop, hk⟩ := single_ok h
  obtain ⟨h1, h2⟩ := singleLoop_ok hloop
  have hctl : controllerOf ctl = .predictive := by
    rw [← Z.chosen]
    unfold Says at hc
    rw [hc]
    rfl
  refine ⟨pa, sizes, ⟨Z.hpMax, Z.hpMin, Z.tsMax, Z.tsMin, Z.hpStep, Z.tsStep⟩, Z.combos, Z.nonempty, ?_, ?_, hk⟩
  · intro size hz
    obtain ⟨r, hr, e1, e2, -⟩ := h1 (Para.folderName size)
      (by rw [Z.names]; exact List.mem_map_of_mem hz)
    obtain ⟨c, hcont, hsol⟩ := Z.solve size hz
    have hr' : s.solve (Para.folderName size) = .ok r := hr
    rw [hsol, hctl, solve_predictive hcont Z.from_hour Z.hours] at hr'
    obtain ⟨rs, hsim, rfl⟩ := hr'
    exact ⟨rs, hsim, e1, e2⟩
  · intro name hn
    refine h2 name (fun hm => ?_)
    rw [Z.names] at hm
    obtain ⟨z, hz, rfl⟩ := List.mem_map.mp hm
    exact hn z hz rfl

/-- C100, any other name of a controller: a study never ends well. -/
theorem C100_unknown_controller {L : Libs} {gekko : Gekko} {wb : Pandas.Workbook} {out : Outputs F K} {k : K}
    {st : Main.Store (List Char) Programme.Outcome F} (h : Ends L gekko wb out (.ok k, st)) :
    Says wb "Controller" 'D' 5 "Fixed order control" ∨ Says wb "Controller" 'D' 5 "Model predictive control" := by
  obtain ⟨s, hs, h⟩ := ends_ok h
  obtain ⟨pa, sizes, ctl, first, n, Z⟩ := setup_ok hs
  obtain ⟨hloop, hk⟩ := single_ok h
  obtain ⟨h1, -⟩ := singleLoop_ok hloop
  obtain ⟨size, hz⟩ := List.exists_mem_of_ne_nil _ Z.nonempty
  obtain ⟨r, hr, -⟩ := h1 (Para.folderName size) (by rw [Z.names]; exact List.mem_map_of_mem hz)
  obtain ⟨c, hcont, hsol⟩ := Z.solve size hz
  have hr' : s.solve (Para.folderName size) = .ok r := hr
  rw [hsol] at hr'
  have hch := Z.chosen
  unfold controllerOf at hr'
  split at hr'
  · exact Or.inl hch
  · exact Or.inr hch
  · cases hr'

/-- C100, what a predictive run of two or more hours needs: the hours lie within the year and begin before its
last two, the horizon is at least two hours, an end of the run not in the band where the pre-calculation
fails, and a store only with an electric heater. Otherwise it stops, whatever the optimiser answers. -/
theorem C100_needs {L : Libs} {gekko : Gekko} {wb : Pandas.Workbook} {size : ℤ × ℤ}
    {rs : List (Mpc.MpcResults (List ℚ))} (ht : TopRowsEmpty wb) (h : predict L gekko wb size = .ok rs)
    {first n horizon : ℕ} (hf : Holds wb "Controller" 'G' 5 first) (hn : Holds wb "Controller" 'G' 6 n)
    (hh : Holds wb "Controller" 'G' 9 horizon) :
    first + n ≤ 8760 ∧ (first + n + 2 * horizon < 8759 ∨ 8759 ≤ first + n + horizon) ∧
    (2 ≤ n → first ≤ 8757 ∧ 2 ≤ horizon ∧
      (size.2 = 0 ∨ Workbook.fuelOf (excel wb "Aux heat" 'C' 6) = .ok .electric)) := by
  obtain ⟨first', n', S, mc, hS, hf', hn', hrun⟩ := predict_ok.mp h
  have e1 : first = first' := by exact_mod_cast Except.ok.inj (congrArg numOf (hf.symm.trans hf'))
  have e2 : n = n' := by exact_mod_cast Except.ok.inj (congrArg numOf (hn.symm.trans hn'))
  subst e1 e2
  obtain ⟨o, hs, xs, us, ds, ps, prs, pfs, T⟩ := mpcIn_ok ht hS
  have e3 : horizon = S.horizon := by exact_mod_cast Except.ok.inj (congrArg numOf (hh.symm.trans T.horizon))
  subst e3
  obtain ⟨source, flow, ret, delta, -, -, -, -, htank, hcap⟩ := T.tank
  have hyear : first + n ≤ 8760 := by
    by_contra hlt
    rw [C47_beyond_year _ _ _ _ (by omega)] at hrun
    cases hrun
  refine ⟨hyear, ?_, fun h2 => ⟨?_, ?_, ?_⟩⟩
  · by_contra hb
    exact C48_band_fails _ (by omega) (by omega) _ hcap
  · have hsh := (Mpc.run_shape h2 hrun).2.2.2.1
    have := (Mpc.horizonEnd_le S first).1
    omega
  · by_contra hlt
    exact C47_short_horizon_fails _ _ _ h2 (by omega) _ hrun
  · by_contra hb
    obtain ⟨hb1, hb2⟩ := not_or.mp hb
    obtain ⟨fuel, hfu, -, hel, -⟩ := C91_heater T.objects
    refine C47_fuel_and_tank_fail (S := S) ?_ ?_ _ _ _ h2 _ hrun
    · rw [T.aux]
      cases he : o.aux.electric with
      | false => rfl
      | true => exact absurd (by rw [hfu, hel.mp he]) hb2
    · rw [htank]
      show o.tank.capacity ≠ 0
      rw [(C91_tank T.objects).1]
      exact_mod_cast hb1

/-- The predictive run of a combination can start whenever that of the fixed order controller can, if the
horizon is a whole number and the pre-calculation of the store's capacity works. -/
theorem predict_starts_of {L : Libs} (hL : WholeYear L) {wb : Pandas.Workbook} {size : ℤ × ℤ}
    {R : RunIn (List ℚ)} (ht : TopRowsEmpty wb) (h : runInputs L wb size = .ok R)
    (hcap : ∀ o source flow ret delta, objects L wb size = .ok o → Hourly wb "Demand input" 'G' 6 source →
      Hourly wb "Demand input" 'F' 6 flow → Holds wb "Demand input" 'I' 6 ret → Holds wb "Demand input" 'I' 8 delta →
      ∀ t < 8760, ∃ v, o.tank.maxEnergy t .charging ⟨source.getD t 0, delta, flow.getD t 0, ret⟩
        (List.replicate o.tank.number ret) = .ok v)
    {first n horizon : ℕ} (hh : Holds wb "Controller" 'G' 9 horizon)
    (hb : first + n + horizon + horizon < 8759 ∨ 8759 ≤ first + n + horizon) :
    ∃ S maxCap, mpcInputs L wb size first n = .ok (S, maxCap) := by
  have hY := C99_whole_year hL ht h
  unfold runInputs at h
  unfold mpcInputs
  simp only [except_bind_ok] at h
  obtain ⟨c, hc, h⟩ := h
  obtain ⟨b, hr, hs⟩ := containerOf_ok hc
  obtain ⟨s, hw, hf⟩ := (readInputs_ok hr).controller
  obtain ⟨-, e1, -⟩ := resize_rest hs
  obtain ⟨-, -, k4, -, -⟩ := controller_cells hf
  unfold fixedOrderIn at h
  simp only [except_bind_ok, except_pure_ok] at h
  obtain ⟨o, ho, ⟨d, f⟩, hd, v1, h1, x1, n1, v2, h2, x2, n2, v3, h3, x3, n3, v4, h4, x4, n4,
    v5, h5, x5, n5, v6, h6, x6, n6, price, hprice, ep, hep, sp, hsp, u, hu, da, hda, pv, hpv, perf, hperf,
    rfl⟩ := h
  have hhor : natOf c.controller.horizon = .ok horizon := by
    unfold Holds at hh
    rw [excel_eq hw] at hh
    rw [e1]
    exact (congrArg natOf (k4.trans hh)).trans (natOf_num horizon)
  have hobj : objects L wb size = .ok o := by
    unfold objects
    rw [hc]
    exact ho
  obtain ⟨D1, D2, -, -, D5, D6⟩ := demand_hourly ht hc hd
  obtain ⟨mc, hmc, -⟩ := C48_in_range_partial (cap := fun t => o.tank.maxEnergy t .charging
    ⟨x1.getD t 0, x6, x2.getD t 0, x5⟩ (List.replicate o.tank.number x5))
    (hcap o x1 x2 x5 x6 hobj (D1 _ _ h1 n1) (D2 _ _ h2 n2) (D5 _ _ h5 (numOf_ok.mp n5)) (D6 _ _ h6 (numOf_ok.mp n6)))
    (first := first) (n := n) (horizon := horizon) hb
  have hgen : ∃ rows, Tools.surplusDeficit (List.zipWith (· + ·) (List.zipWith (· + ·) u da) pv) x3 = .ok rows := by
    have a1 : u.length = 8760 := hY.windUser
    have a2 : da.length = 8760 := hY.windData
    have a3 : pv.length = 8760 := hY.pv
    have a4 : x3.length = 8760 := hY.elecDemand
    unfold Tools.surplusDeficit
    rw [if_neg (by rw [List.length_zipWith, List.length_zipWith]; omega),
      if_neg (by rw [List.length_zipWith, List.length_zipWith]; omega)]
    exact ⟨_, rfl⟩
  obtain ⟨rows, hrows⟩ := hgen
  rw [hc, okBind]
  unfold mpcIn
  simp only [ho, hhor, hd, h1, n1, h2, n2, h3, n3, h4, n4, h5, n5, h6, n6, hprice, hep, hu, hda, hpv, hperf,
    okBind, hmc, hrows]
  exact ⟨_, _, rfl⟩

/-- Without a store it does. -/
theorem predict_starts {L : Libs} (hL : WholeYear L) {wb : Pandas.Workbook} {size : ℤ × ℤ}
    {R : RunIn (List ℚ)} (ht : TopRowsEmpty wb) (h : runInputs L wb size = .ok R) (h0 : size.2 = 0)
    {first n horizon : ℕ} (hh : Holds wb "Controller" 'G' 9 horizon)
    (hb : first + n + horizon + horizon < 8759 ∨ 8759 ≤ first + n + horizon) :
    ∃ S maxCap, mpcInputs L wb size first n = .ok (S, maxCap) :=
  predict_starts_of hL ht h (fun o source flow ret delta ho _ _ _ _ t _ => by
    have hcap0 : o.tank.capacity = 0 := by
      rw [(C91_tank ho).1, h0]
      rfl
    refine ⟨0, ?_⟩
    unfold Tank.maxEnergy
    rw [if_neg (by rw [List.length_replicate]; exact fun h => h rfl)]
    split_ifs <;> rfl) hh hb

/-- C100: without a store a predictive run ends with one result for each hour, if the fixed order controller
could start too, the optimiser solves the first hour at once and every later one at one of two attempts, and
horizon and hours are as in `C100_needs`. Partial: with a store the tank can stop the run (C30). -/
theorem C100_predicts_partial {L : Libs} (hL : WholeYear L) {gekko : Gekko} {wb : Pandas.Workbook}
    {size : ℤ × ℤ} {R : RunIn (List ℚ)} (ht : TopRowsEmpty wb) (h : runInputs L wb size = .ok R)
    (h0 : size.2 = 0) {first n horizon : ℕ} (hf : Holds wb "Controller" 'G' 5 first)
    (hn : Holds wb "Controller" 'G' 6 n) (hh : Holds wb "Controller" 'G' 9 horizon)
    (hg : ∀ S maxCap, mpcInputs L wb size first n = .ok (S, maxCap) → (∃ p, gekko S maxCap first 0 = .ok p) ∧
      ∀ hour, first < hour → hour < first + n - 1 → hour ≤ 8757 →
        (∃ p, gekko S maxCap hour 0 = .ok p) ∨ ∃ p, gekko S maxCap hour 1 = .ok p)
    (hb : first + n + 2 * horizon < 8759 ∨ 8759 ≤ first + n + horizon) (h2 : 2 ≤ horizon) (hn2 : 2 ≤ n)
    (hfirst : first ≤ 8757) (hyear : first + n ≤ 8760) :
    ∃ rs, predict L gekko wb size = .ok rs ∧ rs.length = n := by
  obtain ⟨S, mc, hS⟩ := predict_starts hL ht h h0 (first := first) (n := n) hh (by omega)
  obtain ⟨o, hs, xs, us, ds, ps, prs, pfs, T⟩ := mpcIn_ok ht hS
  have e3 : horizon = S.horizon := by exact_mod_cast Except.ok.inj (congrArg numOf (hh.symm.trans T.horizon))
  obtain ⟨source, flow, ret, delta, -, -, -, -, htank, -⟩ := T.tank
  have hcap : S.tank.capacity = 0 := by
    rw [htank]
    show o.tank.capacity = 0
    rw [(C91_tank T.objects).1, h0]
    rfl
  obtain ⟨g1, g2⟩ := hg S mc hS
  obtain ⟨rs, hrs, hl⟩ := C47_succeeds_partial (S := S) (g := gekko S mc) (first := first) (n := n)
    (Q := fun nodes => nodes.length = o.tank.number)
    (fun i t s nodes hq => by
      rw [htank]
      refine ⟨0, ?_⟩
      show o.tank.maxEnergy t s _ nodes = .ok 0
      unfold Tank.maxEnergy
      rw [if_neg (fun h => h hq)]
      have : o.tank.capacity = 0 := by rw [htank] at hcap; exact hcap
      split_ifs <;> rfl)
    (fun h => absurd hcap h)
    (by
      rw [htank]
      show (o.tank.initTemps ret).length = o.tank.number
      unfold Tank.initTemps
      exact List.length_replicate)
    (Or.inr hcap) (by omega) g1 g2 hn2 hfirst hyear
  exact ⟨rs, predict_ok.mpr ⟨first, n, S, mc, hS, hf, hn, hrs⟩, hl⟩

/-- C100: a predictive study without stores ends without an error on one core, if the run of each combination
could start with the fixed order controller, the optimiser solves every hour, hours and horizon are as in
`C100_needs`, the charts can be drawn and the tables made. -/
theorem C100_ends_partial {L : Libs} {gekko : Gekko} (hL : WholeYear L) {wb : Pandas.Workbook}
    {out : Outputs F K} (ht : TopRowsEmpty wb) {s : Setup}
    (hs : setup L gekko wb = .ok s) (hc : Says wb "Controller" 'D' 5 "Model predictive control")
    (hstart : ∀ hp, ∃ S, runInputs L wb (hp, 0) = .ok S) (hstore : Holds wb "Parametric" 'D' 7 0)
    (hstore' : Holds wb "Parametric" 'E' 7 0) {first n horizon : ℕ} (hf : Holds wb "Controller" 'G' 5 first)
    (hn : Holds wb "Controller" 'G' 6 n) (hh : Holds wb "Controller" 'G' 9 horizon)
    (hg : ∀ S maxCap hour attempt, ∃ p, gekko S maxCap hour attempt = .ok p)
    (hb : first + n + 2 * horizon < 8759 ∨ 8759 ≤ first + n + horizon) (h2 : 2 ≤ horizon) (hn2 : 2 ≤ n)
    (hfirst : first ≤ 8757) (hyear : first + n ≤ 8760)
    (hplot : ∀ name r, (out.plot name r).2 = none) (hkpi : ∀ rs, ∃ k, out.kpis rs = .ok k) :
    ∃ k st, Ends L gekko wb out (.ok k, st) ∧
      ∃ pa sizes, RangesIn wb pa ∧ Para.combos pa = .ok sizes ∧ ∀ size ∈ sizes,
        ∃ rs, predict L gekko wb size = .ok rs ∧
          st.results (Para.folderName size) = some (.predictive rs) ∧ rs.length = n := by
  obtain ⟨pa, sizes, ctl, first', n', Z⟩ := setup_ok hs
  have e1 : first = first' := by exact_mod_cast Except.ok.inj (congrArg numOf (hf.symm.trans Z.from_hour))
  have e2 : n = n' := by exact_mod_cast Except.ok.inj (congrArg numOf (hn.symm.trans Z.hours))
  subst e1 e2
  have hctl : controllerOf ctl = .predictive := by
    rw [← Z.chosen]
    unfold Says at hc
    rw [hc]
    rfl
  have hmax : pa.tsMax = 0 := by
    exact_mod_cast (Except.ok.inj (congrArg numOf (hstore.symm.trans Z.tsMax))).symm
  have hmin : pa.tsMin = 0 := by
    exact_mod_cast (Except.ok.inj (congrArg numOf (hstore'.symm.trans Z.tsMin))).symm
  have hzero : ∀ z ∈ sizes, z.2 = 0 := by
    intro z hz
    obtain ⟨hps, tss, -, h2, e⟩ := combos_ok.mp Z.combos
    unfold Para.tsSizes at h2
    rw [if_pos (hmin.trans hmax.symm)] at h2
    rw [e, mem_pairs, ← Except.ok.inj h2, List.mem_singleton] at hz
    rw [hz.2, hmin]
  have hsolve : ∀ z ∈ sizes, ∃ rs, predict L gekko wb z = .ok rs ∧
      s.solve (Para.folderName z) = .ok (.predictive rs) ∧ rs.length = n := by
    intro z hz
    obtain ⟨c, hcont, hsol⟩ := Z.solve z hz
    obtain ⟨S, hS⟩ := hstart z.1
    rw [← hzero z hz] at hS
    obtain ⟨rs, hrs, hl⟩ := C100_predicts_partial (gekko := gekko) hL ht hS (hzero z hz) hf hn hh
      (fun S mc _ => ⟨hg S mc _ _, fun hour _ _ _ => Or.inl (hg S mc _ _)⟩) hb h2 hn2 hfirst hyear
    exact ⟨rs, hrs, by rw [hsol, hctl]; exact (solve_predictive hcont hf hn).mpr ⟨rs, hrs, rfl⟩, hl⟩
  obtain ⟨st, hst⟩ := singleLoop_total (P := s.parts out) (names := s.names) .empty (fun m hm => by
    rw [Z.names] at hm
    obtain ⟨z, hz, rfl⟩ := List.mem_map.mp hm
    obtain ⟨rs, -, hrs, -⟩ := hsolve z hz
    exact ⟨_, hrs, hplot _ _⟩)
  obtain ⟨k, hkk⟩ := hkpi st.results
  have hsingle : Main.single (s.parts out) s.names = (.ok k, st) := by
    unfold Main.single
    split
    · rename_i hnil
      rw [Z.names, List.map_eq_nil_iff] at hnil
      exact absurd hnil Z.nonempty
    · rename_i heq
      rw [hst]
      exact Prod.ext hkk rfl
  refine ⟨k, st, ?_, pa, sizes, ⟨Z.hpMax, Z.hpMin, Z.tsMax, Z.tsMin, Z.hpStep, Z.tsStep⟩, Z.combos, ?_⟩
  · unfold Ends
    rw [hs]
    exact Or.inl hsingle.symm
  · intro z hz
    obtain ⟨rs, hpr, hrs, hl⟩ := hsolve z hz
    obtain ⟨r, hr, e, -⟩ := (singleLoop_ok hst).1 (Para.folderName z)
      (by rw [Z.names]; exact List.mem_map_of_mem hz)
    have hr' : s.solve (Para.folderName z) = .ok r := hr
    cases Except.ok.inj (hr'.symm.trans hrs)
    exact ⟨rs, hpr, e, hl⟩

/-- C100 is false for a run of one hour: it ends without any result. -/
theorem C100_one_hour {L : Libs} {gekko : Gekko} {wb : Pandas.Workbook} {size : ℤ × ℤ}
    {rs : List (Mpc.MpcResults (List ℚ))} (h : predict L gekko wb size = .ok rs)
    (hn : Holds wb "Controller" 'G' 6 1) : rs = [] := by
  obtain ⟨first, n, S, mc, hS, hf, hn', hrun⟩ := predict_ok.mp h
  have e : n = 1 := by exact_mod_cast (Except.ok.inj (congrArg numOf (hn.symm.trans hn'))).symm
  subst e
  by_cases hy : first + 1 ≤ 8760
  · rw [C47_single_hour _ _ _ hy] at hrun
    exact (Except.ok.inj hrun).symm
  · rw [C47_beyond_year _ _ _ _ (by omega)] at hrun
    cases hrun

end Verif
