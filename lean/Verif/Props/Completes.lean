import Verif.Props.Programme
import Verif.Props.Grid
import Verif.Lemmas.Sample

/-!
# Property C99, continued: studies without a store end, and the sample workbook meets every hypothesis
-/

set_option autoImplicit false

namespace Verif
open Pandas Workbook InputReader Enums Simulation Spec FixedOrder Programme

theorem user_length {L : Libs} (hL : WholeYear L) {t : Turbine} {xs : List ℚ}
    (h : userSeries L t = .ok xs) : xs.length = 8760 := by
  unfold userSeries at h
  simp only [except_bind_ok] at h
  obtain ⟨m, -, h⟩ := h
  by_cases hm : m = 0
  · rw [if_pos hm] at h
    unfold Renewables.userPower Renewables.Frame.get at h
    rw [if_pos hm, if_pos rfl] at h
    rw [← Except.ok.inj h]
    exact List.length_replicate
  · rw [if_neg hm] at h
    simp only [except_bind_ok] at h
    obtain ⟨w, -, p, hp, h⟩ := h
    unfold Renewables.userPower Renewables.Frame.get at h
    rw [if_neg hm, if_pos rfl] at h
    rw [← Except.ok.inj h, List.length_map]
    exact hL.user _ _ _ _ _ _ hp

theorem database_length {L : Libs} (hL : WholeYear L) {t : Turbine} {xs : List ℚ}
    (h : databaseSeries L t = .ok xs) : xs.length = 8760 := by
  unfold databaseSeries at h
  simp only [except_bind_ok] at h
  obtain ⟨m, -, h⟩ := h
  by_cases hm : m = 0
  · rw [if_pos hm] at h
    unfold Renewables.databasePower Renewables.Frame.get at h
    rw [if_pos hm, if_pos rfl] at h
    rw [← Except.ok.inj h]
    exact List.length_replicate
  · rw [if_neg hm] at h
    simp only [except_bind_ok] at h
    obtain ⟨w, -, p, hp, h⟩ := h
    unfold Renewables.databasePower Renewables.Frame.get at h
    rw [if_neg hm, if_pos rfl] at h
    rw [← Except.ok.inj h, List.length_map]
    exact hL.data _ _ _ _ _ hp

theorem pvPower_length {m : ℚ} {ac : List (Option ℚ)} {xs : List ℚ}
    (h : Renewables.pvPower m ac = .ok xs) : xs.length = 8760 := by
  unfold Renewables.pvPower at h
  by_cases hm : m = 0
  · rw [if_pos hm] at h
    rw [← Except.ok.inj h]
    exact List.length_replicate
  · rw [if_neg hm] at h
    rw [mapM_length h]
    exact List.length_range

theorem pv_length {L : Libs} {p : PvObj} {xs : List ℚ} (h : pvSeries L p = .ok xs) :
    xs.length = 8760 := by
  unfold pvSeries at h
  simp only [except_bind_ok] at h
  obtain ⟨m, -, h⟩ := h
  by_cases hm : m = 0
  · rw [if_pos hm] at h
    exact pvPower_length h
  · rw [if_neg hm] at h
    simp only [except_bind_ok] at h
    obtain ⟨w, -, h⟩ := h
    split at h
    · simp only [except_bind_ok] at h
      obtain ⟨ac, -, h⟩ := h
      exact pvPower_length h
    · cases h

theorem hourly_length {wb : Pandas.Workbook} {sheet : String} {c d : Char} {row : ℕ} {xs ys : List ℚ}
    (h : Hourly wb sheet c row xs) (h' : Hourly wb sheet d row ys) : xs.length = ys.length := by
  obtain ⟨s, hs, l, -⟩ := h
  obtain ⟨s', hs', l', -⟩ := h'
  cases Option.some.inj (hs.symm.trans hs')
  omega

/-- C99: what a run starts from always covers the year. -/
theorem C99_whole_year {L : Libs} (hL : WholeYear L) {wb : Pandas.Workbook} {size : ℤ × ℤ}
    {S : RunIn (List ℚ)} (ht : TopRowsEmpty wb) (h : runInputs L wb size = .ok S) : FullYear S := by
  obtain ⟨o, T⟩ := start_ok h
  obtain ⟨D1, D2, o', source, flow, ret, delta, ho', htank, D3, D4, D5, D6⟩ := C93_demand ht h
  cases Except.ok.inj (ho'.symm.trans T.objects)
  obtain ⟨air, water, src, rt, -, -, E3, -, -, -, E7, -⟩ := C93_temperatures ht T.objects
  refine
    { windUser := user_length hL T.windUser, windData := database_length hL T.windData,
      pv := pv_length T.pv, elecDemand := (hourly_length D2 E3).trans E7,
      heatDemand := (hourly_length D1 E3).trans E7, importPrice := ?_, perf := ?_ }
  · obtain ⟨c, -, hp⟩ := T.importPrice
    have key : ∀ p, (do
        match ← Tariff.importCostSeries o.grid p with
        | some prices => Except.ok prices
        | none => .error .typeError) = .ok S.importPrice → S.importPrice.length = 8760 := by
      intro p hp
      obtain ⟨os, hos, hp⟩ := except_bind_ok.mp hp
      cases os with
      | none => cases hp
      | some xs =>
        rw [← Except.ok.inj hp]
        exact C36_length hos
    unfold importPrices at hp
    dsimp only at hp
    split_ifs at hp
    · obtain ⟨p, -, hp⟩ := except_bind_ok.mp hp
      exact key p hp
    · exact key [] hp
  · obtain ⟨b, c, hr, hs, ho⟩ := objects_ok T.objects
    obtain ⟨w, -, -, -, -, -, ⟨bs, a, -, -, hcon, -, -⟩⟩ := (init_ok ho).weather
    exact C13_performance_covers_year hcon T.perf

/-- The orders written list only processes there are: 1 to 13 above the setpoint, 1 to 15 below. -/
def Spec.KnownProcesses (wb : Pandas.Workbook) : Prop :=
  (∀ p, Lists wb 8 p → 1 ≤ p ∧ p ≤ 13) ∧ (∀ p, Lists wb 9 p → 1 ≤ p ∧ p ≤ 15)

/-- C99: without a store, the simulation of a combination never stops half-way: it gives the results of all
the hours as soon as it can start and the hours lie within the year. Partial: with a store the program can
raise, see `C30_full_tank_flat`. -/
theorem C99_simulates_partial {L : Libs} (hL : WholeYear L) {wb : Pandas.Workbook} {size : ℤ × ℤ}
    {S : RunIn (List ℚ)} (ht : TopRowsEmpty wb) (hk : KnownProcesses wb) (h0 : size.2 = 0)
    (h : runInputs L wb size = .ok S) {first n : ℕ} (hf : Holds wb "Controller" 'G' 5 first)
    (hn : Holds wb "Controller" 'G' 6 n) (hyear : first + n ≤ 8760) :
    ∃ rs, simulate L wb size = .ok rs ∧ rs.length = n := by
  obtain ⟨o, T⟩ := start_ok h
  obtain ⟨-, -, o', source, flow, ret, delta, ho', htank, -⟩ := C93_demand ht h
  cases Except.ok.inj (ho'.symm.trans T.objects)
  obtain ⟨-, -, ⟨a, a1, a2⟩, ⟨b, b1, b2⟩⟩ := C91_controller h
  have hc : o.tank.capacity = 0 := by
    rw [(C91_tank T.objects).1, h0]
    rfl
  obtain ⟨rs, hrs⟩ := C27_accepts_no_store htank hc (C99_whole_year hL ht h)
    ⟨fun p hp => hk.1 p ⟨a, _, a1, a2, hp⟩, fun p hp => hk.2 p ⟨b, _, b1, b2, hp⟩⟩ hyear
  exact ⟨rs, simulate_ok.mpr ⟨S, first, n, h, hf, hn, hrs⟩, C27_one_result_per_hour hrs⟩

theorem ranges_combos {wb : Pandas.Workbook} {pa pb : Para.Ranges} (ha : RangesIn wb pa)
    (hb : RangesIn wb pb) : Para.combos pa = Para.combos pb := by
  have inj : ∀ {c r} {x y : ℤ}, Holds wb "Parametric" c r x → Holds wb "Parametric" c r y → x = y := by
    intro c r x y h h'
    exact_mod_cast Except.ok.inj (congrArg numOf (h.symm.trans h'))
  have e1 := inj ha.hpMax hb.hpMax
  have e2 := inj ha.hpMin hb.hpMin
  have e3 := inj ha.tsMax hb.tsMax
  have e4 := inj ha.tsMin hb.tsMin
  have e5 : ¬ (pa.hpMin = pa.hpMax ∧ pa.tsMin = pa.tsMax) → pa.hpStep = pb.hpStep := fun h =>
    inj (ha.hpStep h) (hb.hpStep (by rw [← e1, ← e2, ← e3, ← e4]; exact h))
  have e6 : pa.tsMin ≠ pa.tsMax → pa.tsStep = pb.tsStep := fun h =>
    inj (ha.tsStep h) (hb.tsStep (by rw [← e3, ← e4]; exact h))
  rw [← combos_pruned pa, ← combos_pruned pb]
  unfold pruned
  rw [e1, e2, e3, e4] at *
  congr 2
  · by_cases h : pb.hpMin = pb.hpMax ∧ pb.tsMin = pb.tsMax
    · rw [if_pos h, if_pos h]
    · rw [if_neg h, if_neg h, e5 h]
  · by_cases h : pb.tsMin = pb.tsMax
    · rw [if_pos h, if_pos h]
    · rw [if_neg h, if_neg h, e6 h]

variable {F K : Type}

/-- C99: a study without stores ends without an error on one core, if the simulation of each combination can
start, the charts can be drawn and the tables made. -/
theorem C99_ends_partial {L : Libs} {gekko : Gekko} (hL : WholeYear L) {wb : Pandas.Workbook}
    {out : Outputs F K} (ht : TopRowsEmpty wb) (hk : KnownProcesses wb) {s : Setup}
    (hs : setup L gekko wb = .ok s) (hc : Says wb "Controller" 'D' 5 "Fixed order control")
    (hstart : ∀ hp, ∃ S, runInputs L wb (hp, 0) = .ok S) (hstore : Holds wb "Parametric" 'D' 7 0)
    (hstore' : Holds wb "Parametric" 'E' 7 0) {first n : ℕ} (hf : Holds wb "Controller" 'G' 5 first)
    (hn : Holds wb "Controller" 'G' 6 n) (hyear : first + n ≤ 8760)
    (hplot : ∀ name r, (out.plot name r).2 = none) (hkpi : ∀ rs, ∃ k, out.kpis rs = .ok k) :
    ∃ k st, Ends L gekko wb out (.ok k, st) ∧
      ∃ pa sizes, RangesIn wb pa ∧ Para.combos pa = .ok sizes ∧ ∀ size ∈ sizes,
        ∃ rs, st.results (Para.folderName size) = some (.fixed rs) ∧ rs.length = n := by
  obtain ⟨pa, sizes, ctl, first', n', Z⟩ := setup_ok hs
  have e1 : first = first' := by exact_mod_cast Except.ok.inj (congrArg numOf (hf.symm.trans Z.from_hour))
  have e2 : n = n' := by exact_mod_cast Except.ok.inj (congrArg numOf (hn.symm.trans Z.hours))
  subst e1 e2
  have hctl : controllerOf ctl = .fixedOrder := by
    rw [← Z.chosen]
    unfold Says at hc
    rw [hc]
    rfl
  have hmax : pa.tsMax = 0 := by
    exact_mod_cast (Except.ok.inj (congrArg numOf (hstore.symm.trans Z.tsMax))).symm
  have hmin : pa.tsMin = 0 := by
    exact_mod_cast (Except.ok.inj (congrArg numOf (hstore'.symm.trans Z.tsMin))).symm
  have hzero : ∀ z ∈ sizes, z.2 = 0 := by
    intro z hz
    obtain ⟨hps, tss, -, h2, e⟩ := combos_ok.mp Z.combos
    unfold Para.tsSizes at h2
    rw [if_pos (hmin.trans hmax.symm)] at h2
    rw [e, mem_pairs, ← Except.ok.inj h2, List.mem_singleton] at hz
    rw [hz.2, hmin]
  have hsolve : ∀ z ∈ sizes, ∃ rs, s.solve (Para.folderName z) = .ok (.fixed rs) ∧ rs.length = n := by
    intro z hz
    obtain ⟨c, hcont, hsol⟩ := Z.solve z hz
    obtain ⟨S, hS⟩ := hstart z.1
    rw [← hzero z hz] at hS
    obtain ⟨rs, hrs, hl⟩ := C99_simulates_partial hL ht hk (hzero z hz) hS hf hn hyear
    exact ⟨rs, by rw [hsol, hctl]; exact (solve_fixed hcont hf hn).mpr ⟨rs, hrs, rfl⟩, hl⟩
  obtain ⟨st, hst⟩ := singleLoop_total (P := s.parts out) (names := s.names) .empty (fun m hm => by
    rw [Z.names] at hm
    obtain ⟨z, hz, rfl⟩ := List.mem_map.mp hm
    obtain ⟨rs, hrs, -⟩ := hsolve z hz
    exact ⟨_, hrs, hplot _ _⟩)
  obtain ⟨k, hkk⟩ := hkpi st.results
  have hsingle : Main.single (s.parts out) s.names = (.ok k, st) := by
    unfold Main.single
    split
    · rename_i hnil
      rw [Z.names, List.map_eq_nil_iff] at hnil
      exact absurd hnil Z.nonempty
    · rename_i heq
      rw [hst]
      exact Prod.ext hkk rfl
  refine ⟨k, st, ?_, pa, sizes, ⟨Z.hpMax, Z.hpMin, Z.tsMax, Z.tsMin, Z.hpStep, Z.tsStep⟩, Z.combos, ?_⟩
  · unfold Ends
    rw [hs]
    exact Or.inl hsingle.symm
  · intro z hz
    obtain ⟨rs, hrs, hl⟩ := hsolve z hz
    obtain ⟨r, hr, e, -⟩ := (singleLoop_ok hst).1 (Para.folderName z)
      (by rw [Z.names]; exact List.mem_map_of_mem hz)
    have hr' : s.solve (Para.folderName z) = .ok r := hr
    cases Except.ok.inj (hr'.symm.trans hrs)
    exact ⟨rs, e, hl⟩

/-- C99: with ranges from a minimum to a maximum that the steps divide, and a step of the heat pump not above
that of the store, the combinations are all the pairs of the two ladders of sizes, each once. Partial for the
same reasons as `C41_hp_partial` and `C41_ts_partial`. -/
theorem C99_sizes_partial {pa : Para.Ranges} {sizes : List (ℤ × ℤ)} (h : Para.combos pa = .ok sizes)
    (h1 : pa.hpMin ≤ pa.hpMax) (h2 : 0 < pa.hpStep) (h3 : pa.hpStep ∣ pa.hpMax - pa.hpMin)
    (h4 : pa.tsMin ≤ pa.tsMax) (h5 : 0 < pa.tsStep) (h6 : pa.tsStep ∣ pa.tsMax - pa.tsMin)
    (h7 : pa.hpStep ≤ pa.tsStep) :
    ∃ hps tss, Ladder pa.hpMin pa.hpMax pa.hpStep hps ∧ Ladder pa.tsMin pa.tsMax pa.tsStep tss ∧
      sizes.Nodup ∧ ∀ hp ts, (hp, ts) ∈ sizes ↔ hp ∈ hps ∧ ts ∈ tss := by
  obtain ⟨hps, e1, L1⟩ := C41_hp_partial h1 h2 h3
  obtain ⟨tss, e2, L2⟩ := C41_ts_partial h4 h5 h6 h2 h7
  obtain ⟨hps', tss', f1, f2, rfl⟩ := combos_ok.mp h
  cases Except.ok.inj (e1.symm.trans f1)
  cases Except.ok.inj (e2.symm.trans f2)
  exact ⟨hps, tss, L1, L2, pairs_nodup (hpSizes_nodup f1) (tsSizes_nodup f2), fun hp ts => mem_pairs⟩

/-! ## The sample workbook meets the hypotheses -/

namespace Sample

theorem says_inj {wb : Pandas.Workbook} {sheet : String} {c : Char} {r : ℕ} {s t : String}
    (h : Says wb sheet c r s) (h' : Says wb sheet c r t) : s = t :=
  Except.ok.inj (congrArg textOf (h.symm.trans h'))

theorem holds_inj {wb : Pandas.Workbook} {sheet : String} {c : Char} {r : ℕ} {x y : ℚ}
    (h : Holds wb sheet c r x) (h' : Holds wb sheet c r y) : x = y :=
  Except.ok.inj (congrArg numOf (h.symm.trans h'))

theorem lists_above {model : String} {p : ℤ} (h : Lists (book model) 8 p) : p ∈ [(1 : ℤ), 2, 3, 8, 9] :=
  lists_mem h ⟨"1, 2, 3, 8, 9", rfl, by decide +kernel⟩

theorem lists_below {model : String} {p : ℤ} (h : Lists (book model) 9 p) : p ∈ [(1 : ℤ), 2, 6, 9] :=
  lists_mem h ⟨"1,2,6,9", rfl, by decide +kernel⟩

theorem known (model : String) : KnownProcesses (book model) := by
  refine ⟨fun p h => ?_, fun p h => ?_⟩
  · have := lists_above h
    simp only [List.mem_cons, List.not_mem_nil, or_false] at this
    omega
  · have := lists_below h
    simp only [List.mem_cons, List.not_mem_nil, or_false] at this
    omega

theorem batteryRow {s : Pandas.Sheet} (model : String) (hs : book model "Electrical storage" = some s) :
    FirstComplete s [5] [0, 1] 6 := by
  cases Option.some.inj hs
  refine ⟨by decide, by decide, by decide, fun r h1 h2 => ?_⟩
  interval_cases r <;> decide

theorem sensible (model : String) : Sensible (book model) := by
  refine { battery := ?_, heat := ?_, network := ?_, above := ?_, below := ?_ }
  · intro s row hs hrow
    cases firstComplete_unique hrow (batteryRow model hs)
    constructor
    · simp only [List.forall_mem_cons, List.not_mem_nil, false_implies, implies_true, and_true]
      refine ⟨fun y h => ?_, fun y h => ?_, fun y h => ?_, fun y h => ?_, fun y h => ?_, fun y h => ?_,
        fun y h => ?_⟩
      · rw [holds_inj h (show Holds _ _ _ _ 10 from rfl)]; norm_num
      · rw [holds_inj h (show Holds _ _ _ _ (1 / 2) from rfl)]; norm_num
      · rw [holds_inj h (show Holds _ _ _ _ 4 from rfl)]; norm_num
      · rw [holds_inj h (show Holds _ _ _ _ 3 from rfl)]; norm_num
      · rw [holds_inj h (show Holds _ _ _ _ (9 / 10) from rfl)]; norm_num
      · rw [holds_inj h (show Holds _ _ _ _ (9 / 10) from rfl)]; norm_num
      · rw [holds_inj h (show Holds _ _ _ _ (1 / 100) from rfl)]; norm_num
    · simp only [List.forall_mem_cons, List.not_mem_nil, false_implies, implies_true, and_true]
      refine ⟨fun y h => ?_, fun y h => ?_, fun y h => ?_, fun y h => ?_⟩
      · rw [holds_inj h (show Holds _ _ _ _ (1 / 2) from rfl)]; norm_num
      · rw [holds_inj h (show Holds _ _ _ _ (9 / 10) from rfl)]; norm_num
      · rw [holds_inj h (show Holds _ _ _ _ (9 / 10) from rfl)]; norm_num
      · rw [holds_inj h (show Holds _ _ _ _ (1 / 100) from rfl)]; norm_num
  · intro r hr y h
    have e : y = ((r % 7 : ℕ) : ℚ) := holds_inj h (if_neg (by omega))
    rw [e]
    exact Nat.cast_nonneg _
  · intro ret hret r hr y h
    rw [holds_inj hret (show Holds _ _ _ _ 40 from rfl)]
    have e : y = 60 := holds_inj h (if_neg (by omega))
    rw [e]
    norm_num
  · intro t order h1 h2
    cases says_inj h1 (show Says _ _ _ _ "1, 2, 3, 8, 9" from rfl)
    cases Except.ok.inj (h2.symm.trans (show InputText.readOrder "1, 2, 3, 8, 9".toList = .ok [1, 2, 3, 8, 9] by decide +kernel))
    exact ⟨by decide, by unfold SafeOrder NoOvershoot; decide⟩
  · intro t order h1 h2
    cases says_inj h1 (show Says _ _ _ _ "1,2,6,9" from rfl)
    cases Except.ok.inj (h2.symm.trans (show InputText.readOrder "1,2,6,9".toList = .ok [1, 2, 6, 9] by decide +kernel))
    exact ⟨by decide, by unfold SafeOrder NoOvershoot; decide⟩

/-- Libraries that know the module of the sample and never give power. -/
def libs : Libs where
  kernels := ⟨fun _ _ _ _ _ => 3, fun _ => ⟨[]⟩, fun _ => ⟨[]⟩⟩
  knownModule s := s = "Some_Module"
  pvAc _ _ _ _ _ _ _ _ _ _ _ := .ok (List.replicate 8760 none)
  userTurbine _ _ _ _ _ := .ok (List.replicate 8760 0)
  dataTurbine _ _ _ _ := .ok (List.replicate 8760 0)
  windFarm _ _ _ _ _ _ := .ok (List.replicate 8760 0)
  wall _ _ _ := 0
  connection _ _ _ _ _ _ := 0

theorem libs_year : WholeYear libs := by
  refine ⟨fun a b c d w xs h => ?_, fun a b c w xs h => ?_⟩ <;>
  · rw [← Except.ok.inj h]
    exact List.length_replicate

theorem ranges : RangesIn (book "Simple") ⟨0, 20, 10, 0, 0, 10⟩ :=
  ⟨rfl, rfl, rfl, rfl, fun _ => rfl, fun _ => rfl⟩

theorem sizes : Para.combos ⟨0, 20, 10, 0, 0, 10⟩ = .ok [(0, 0), (10, 0), (20, 0)] := by decide +kernel

example : ∃ hps tss, Ladder 0 20 10 hps ∧ Ladder 0 0 10 tss ∧
    [((0 : ℤ), (0 : ℤ)), (10, 0), (20, 0)].Nodup ∧
    ∀ hp ts, (hp, ts) ∈ [((0 : ℤ), (0 : ℤ)), (10, 0), (20, 0)] ↔ hp ∈ hps ∧ ts ∈ tss :=
  C99_sizes_partial sizes (by decide) (by decide) (by decide) (by decide) (by decide) (by decide) (by decide)

theorem from24 : Holds (book "Simple") "Controller" 'G' 5 (24 : ℕ) := rfl
theorem for48 : Holds (book "Simple") "Controller" 'G' 6 (48 : ℕ) := rfl
theorem no_store : Holds (book "Simple") "Parametric" 'D' 7 0 ∧ Holds (book "Simple") "Parametric" 'E' 7 0 :=
  ⟨rfl, rfl⟩
theorem fixed_order : Says (book "Simple") "Controller" 'D' 5 "Fixed order control" := rfl

theorem good_pump {L : Libs} {size : ℤ × ℤ} (h0 : 0 ≤ size.1) {S : RunIn (List ℚ)}
    (h : runInputs L (book "Simple") size = .ok S) : GoodPump S := by
  refine C99_simple_pump h (Or.inr ⟨h0, ⟨"Simple", rfl, by decide +kernel⟩, fun cop hc => ?_⟩)
  rw [holds_inj hc (show Holds _ _ _ _ 3 from rfl)]
  norm_num

theorem sample_setup {L : Libs} (hk : L.knownModule "Some_Module" = true) (gekko : Gekko) :
    ∃ s, setup L gekko (book "Simple") = .ok s := by
  refine (C99_sets_up (top _)).mpr ⟨readable _, ⟨0, 20, 10, 0, 0, 10⟩, [(0, 0), (10, 0), (20, 0)], 24, 48,
    ranges, sizes, by decide, from24, for48, fun size _ => ?_⟩
  obtain ⟨S, hS⟩ := run_made hk size
  unfold runInputs at hS
  obtain ⟨c, hc, -⟩ := except_bind_ok.mp hS
  exact ⟨c, hc⟩

end Sample

attribute [local irreducible] Ends Sample.book

/-- The study of the sample workbook ends. There are results for the heat pump sizes 0, 10 and 20, each with
48 hours from hour 24, and each hour is as `HourReport` says. -/
theorem sample_study_ends {L : Libs} (hL : WholeYear L) (hk : L.knownModule "Some_Module" = true) (gekko : Gekko)
    {out : Outputs F K} (hplot : ∀ name r, (out.plot name r).2 = none)
    (hkpi : ∀ rs, ∃ k, out.kpis rs = .ok k) :
    ∃ k st, Ends L gekko (Sample.book "Simple") out (.ok k, st) ∧
    ∀ size ∈ [((0 : ℤ), (0 : ℤ)), (10, 0), (20, 0)], ∃ rs,
      st.results (Para.folderName size) = some (.fixed rs) ∧ rs.length = 48 ∧
      ∀ i r, rs[i]? = some r → HourReport (Sample.book "Simple") size (24 + i) r := by
  obtain ⟨s, hs⟩ := Sample.sample_setup hk gekko
  obtain ⟨k, st, hend, pa, sizes, hpa, hcom, hall⟩ := C99_ends_partial (wb := Sample.book "Simple") hL
    (Sample.top "Simple") (Sample.known "Simple") hs Sample.fixed_order
    (fun hp => Sample.run_made hk _) Sample.no_store.1 Sample.no_store.2 Sample.from24 Sample.for48
    (show 24 + 48 ≤ 8760 by omega) hplot hkpi
  have e := Except.ok.inj (hcom.symm.trans ((ranges_combos hpa Sample.ranges).trans Sample.sizes))
  obtain ⟨pb, sizes', hpb, hcom', -, hall', -⟩ :=
    C99_study (L := L) (gekko := gekko) (wb := Sample.book "Simple") (out := out) (k := k) (st := st)
      Sample.fixed_order hend
  have e' := Except.ok.inj (hcom'.symm.trans ((ranges_combos hpb Sample.ranges).trans Sample.sizes))
  refine ⟨k, st, hend, fun size hz => ?_⟩
  obtain ⟨rs, hrs, hl⟩ := hall size (by rw [e]; exact hz)
  obtain ⟨rs', hsim, hres, -⟩ := hall' size (by rw [e']; exact hz)
  have e2 := Option.some.inj (hrs.symm.trans hres)
  cases e2
  have h0 : 0 ≤ size.1 ∧ 0 ≤ size.2 := by
    simp only [List.mem_cons, List.not_mem_nil, or_false] at hz
    rcases hz with rfl | rfl | rfl <;> exact ⟨by decide, by decide⟩
  obtain ⟨first, hf, -, -, hrep⟩ := C99_combination (Sample.top _) (Sample.sensible _) h0.2
    (fun S hS => Sample.good_pump h0.1 hS) hsim
  have ef : first = 24 := by exact_mod_cast Sample.holds_inj hf Sample.from24
  rw [ef] at hrep
  exact ⟨rs, hrs, hl, hrep⟩

example (gekko : Gekko) : ∃ k st, Ends Sample.libs gekko (Sample.book "Simple")
    (⟨fun _ _ => ([], none), fun _ => .ok ()⟩ : Outputs Unit Unit) (.ok k, st) := by
  obtain ⟨k, st, h, -⟩ := sample_study_ends Sample.libs_year rfl gekko
    (out := ⟨fun _ _ => ([], none), fun _ => .ok ()⟩) (fun _ _ => rfl) (fun _ => ⟨(), rfl⟩)
  exact ⟨k, st, h⟩

/-- C99: the study of the sample workbook also ends on two cores, with the same folders. -/
example (gekko : Gekko) : ∃ k st, ∀ two : Bool,
    (∃ answer, Spec.EndsUndisturbed two Sample.libs gekko (Sample.book "Simple")
      (⟨fun _ _ => ([], none), fun _ => .ok ()⟩ : Outputs Unit Unit) answer) ∧
    ∀ answer, Spec.EndsUndisturbed two Sample.libs gekko (Sample.book "Simple")
      (⟨fun _ _ => ([], none), fun _ => .ok ()⟩ : Outputs Unit Unit) answer → answer = (.ok k, st) := by
  obtain ⟨k, st, h, -⟩ := sample_study_ends Sample.libs_year rfl gekko
    (out := ⟨fun _ _ => ([], none), fun _ => .ok ()⟩) (fun _ _ => rfl) (fun _ => ⟨(), rfl⟩)
  exact ⟨k, st, C99_any_cores h⟩

end Verif
