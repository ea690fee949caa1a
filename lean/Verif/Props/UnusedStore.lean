import Verif.Props.TankIdle
import Verif.Props.Report
import Verif.Props.Words
import Verif.Props.SampleIgnored

/-!
# Studies with stores which the orders never use (C99, C101)
-/

set_option autoImplicit false

namespace Verif
open Pandas Simulation Spec Programme FixedOrder Tank

variable {L : Libs} {gekko : Gekko} {wb : Pandas.Workbook} {root : String}

/-- The processes the workbook lists are known and none of them charges or discharges the store: above the
setpoint not 6, 10 and 11, below it not 7, 10, 11 and 12. -/
def Spec.NoStoreProcesses (wb : Pandas.Workbook) : Prop :=
  (∀ p, Lists wb 8 p → p ∈ [(1 : ℤ), 2, 3, 4, 5, 7, 8, 9, 12, 13]) ∧
  (∀ p, Lists wb 9 p → p ∈ [(1 : ℤ), 2, 3, 4, 5, 6, 8, 9, 13, 14, 15])

/-- What the workbook says of a store of capacity `ts` standing idle: at least two layers, an insulation the
program knows (it conducts at most 144 J/hmK), indoors, no loss at its openings, a wall through which a layer
loses in an hour at most its excess over the air, and a return temperature water can have. -/
structure Spec.IdleStore (L : Libs) (wb : Pandas.Workbook) (ts : ℤ) : Prop where
  positive : 0 < ts
  layers : ∀ n : ℕ, Holds wb "Thermal storage" 'D' 8 n → 2 ≤ n ∧
    ∀ fi fe, Holds wb "Thermal storage" 'D' 22 fi → Holds wb "Thermal storage" 'D' 23 fe →
      0 ≤ L.wall fe fi ts ∧ L.wall fe fi ts * 144 ≤ ts / n * 4178
  insulation : ∃ t, Says wb "Thermal storage" 'D' 6 t ∧
    ∃ word ∈ ["polyurethane", "fibreglass", "polystyrene"], Spells t word
  inside : ∃ t, Says wb "Thermal storage" 'D' 7 t ∧ Spells t "inside"
  sealed : ∀ a da u du i di, Holds wb "Thermal storage" 'D' 14 a → Holds wb "Thermal storage" 'D' 15 da →
    Holds wb "Thermal storage" 'D' 16 u → Holds wb "Thermal storage" 'D' 17 du →
    Holds wb "Thermal storage" 'D' 18 i → Holds wb "Thermal storage" 'D' 19 di → L.connection a da u du i di = 0
  water : ∀ ret, Holds wb "Demand input" 'I' 6 ret → 0 ≤ ret ∧ ret ≤ 100

/-- The tank made from such entries is slow. -/
theorem idle_tank {size : ℤ × ℤ} {o : Objects} (h : objects L wb size = .ok o) (H : IdleStore L wb size.2)
    {ret : ℚ} (hr : Holds wb "Demand input" 'I' 6 ret) : SlowTank o.tank (min 15 ret) (max 15 ret) := by
  obtain ⟨e1, e2, -, -, ⟨fi, fe, f1, f2, e5⟩, ⟨a, da, u, du, i, di, g1, g2, g3, g4, g5, g6, e6⟩⟩ := C91_tank h
  obtain ⟨t, ht, word, hword, hsp⟩ := H.insulation
  obtain ⟨t', ht', hsp'⟩ := H.inside
  obtain ⟨k1, k2, -⟩ := C91_tank_words h ht ht'
  obtain ⟨h2, hw⟩ := H.layers _ e2
  obtain ⟨w0, w1⟩ := hw fi fe f1 f2
  obtain ⟨r0, r1⟩ := H.water ret hr
  have hk : ∃ k, o.tank.kValue = .ok k ∧ k ≤ 144 := by
    have hin := (k1 word hword).mpr hsp
    unfold kValue
    rw [hin]
    simp only [List.mem_cons, List.not_mem_nil, or_false] at hword
    rcases hword with rfl | rfl | rfl
    · exact ⟨_, if_pos rfl, by norm_num⟩
    · exact ⟨_, (if_neg (by decide)).trans (if_pos rfl), by norm_num⟩
    · exact ⟨_, (if_neg (by decide)).trans ((if_neg (by decide)).trans (if_pos rfl)), by norm_num⟩
  obtain ⟨k, hk, hk'⟩ := hk
  refine
    { usable := ⟨by rw [e1]; exact_mod_cast H.positive, h2⟩, sealed := by rw [e6]; exact H.sealed _ _ _ _ _ _ g1 g2 g3 g4 g5 g6,
      wall := by rw [e5]; exact w0, insulation := ⟨k, hk, ?_⟩,
      range := ⟨le_min (by norm_num) r0, max_le (by norm_num) r1⟩,
      air := fun hour _ => ⟨15, ?_, min_le_left _ _, le_max_left _ _⟩ }
  · rw [e5]
    refine le_trans (mul_le_mul_of_nonneg_left hk' w0) ?_
    unfold nodeMass
    rw [e1]
    exact w1
  · unfold ambTemp
    rw [k2.mpr hsp']

/-- C99: with a store that the orders never use and a heat pump without minimum output, the simulation of a
combination never stops half-way. Partial: a store that is used can make the program raise, see
`C30_full_tank_flat` and `C33_offer_raises`. -/
theorem C99_unused_store_partial (hL : WholeYear L) {size : ℤ × ℤ} {S : RunIn (List ℚ)} (ht : TopRowsEmpty wb)
    (hp : NoStoreProcesses wb) (hmin : Holds wb "Heat pump" 'D' 8 0) (hs : IdleStore L wb size.2)
    (h : runInputs L wb size = .ok S) {first n : ℕ} (hf : Holds wb "Controller" 'G' 5 first)
    (hn : Holds wb "Controller" 'G' 6 n) (hyear : first + n ≤ 8760) :
    ∃ rs, simulate L wb size = .ok rs ∧ rs.length = n := by
  obtain ⟨o, T⟩ := start_ok h
  obtain ⟨-, -, o', source, flow, ret, delta, ho', htank, -, -, hret, -⟩ := C93_demand ht h
  cases Except.ok.inj (ho'.symm.trans T.objects)
  obtain ⟨-, -, ⟨a, a1, a2⟩, ⟨b, b1, b2⟩⟩ := C91_controller h
  have hm0 : S.hp.minimumOutput = 0 := by
    rw [T.hp]
    exact Sample.holds_inj (C91_heat_pump T.objects).2.2.2.1 hmin
  obtain ⟨rs, hrs⟩ := C27_accepts_unused_store htank (idle_tank T.objects hs hret)
    ⟨min_le_right _ _, le_max_right _ _⟩ (C99_whole_year hL ht h) hm0
    (fun m hm => by
      have := hp.1 m ⟨a, _, a1, a2, hm⟩
      simp only [List.mem_cons, List.not_mem_nil, or_false] at this
      rcases this with h | h | h | h | h | h | h | h | h | h <;> subst h <;> exact ⟨_, rfl, rfl⟩)
    (fun m hm => by
      have := hp.2 m ⟨b, _, b1, b2, hm⟩
      simp only [List.mem_cons, List.not_mem_nil, or_false] at this
      rcases this with h | h | h | h | h | h | h | h | h | h | h <;> subst h <;> exact ⟨_, rfl, rfl⟩) hyear
  exact ⟨rs, simulate_ok.mpr ⟨S, first, n, h, hf, hn, hrs⟩, C27_one_result_per_hour hrs⟩

/-- The processes of an order that never uses the store are known. -/
theorem known_of_noStore (hp : NoStoreProcesses wb) : KnownProcesses wb := by
  refine ⟨fun p h => ?_, fun p h => ?_⟩
  · have := hp.1 p h
    simp only [List.mem_cons, List.not_mem_nil, or_false] at this
    omega
  · have := hp.2 p h
    simp only [List.mem_cons, List.not_mem_nil, or_false] at this
    omega

/-- C101: a study over sizes of heat pump and of store, whose orders never use the store, gets to its end: six
tables, eight charts and no exception. Partial: studies that use their stores need not finish (C31). -/
theorem C101_unused_store_partial (hL : WholeYear L) (ht : TopRowsEmpty wb) (hp : NoStoreProcesses wb)
    (hmin : Holds wb "Heat pump" 'D' 8 0) {s : Setup} (hs : setup L gekko wb = .ok s)
    (hc : Says wb "Controller" 'D' 5 "Fixed order control") {first n : ℕ}
    (hf : Holds wb "Controller" 'G' 5 first) (hn : Holds wb "Controller" 'G' 6 n) (h2 : 2 ≤ n)
    (hyear : first + n ≤ 8760) (hinc : Incentive wb) {pa : Para.Ranges} {sizes : List (ℤ × ℤ)}
    (hpa : RangesIn wb pa) (hz : Para.combos pa = .ok sizes)
    (hstart : ∀ z ∈ sizes, ∃ S, runInputs L wb z = .ok S)
    (hpos : ∀ z ∈ sizes, 0 ≤ z.1 ∧ (z.2 = 0 ∨ IdleStore L wb z.2)) (htwo : TwoDimensional sizes) (root : String) :
    ∃ files st, Report.Ends L gekko wb root (.ok (files, none), st) ∧
      files.map (·.1) = Spec.tableFiles root ++ Spec.chartFiles := by
  obtain ⟨⟨files, e⟩, st, h⟩ := C101_ends_partial hs hpa hz (fun z hzm => by
    obtain ⟨S, hS⟩ := hstart z hzm
    rcases (hpos z hzm).2 with h0 | hi
    · obtain ⟨rs, hrs, -⟩ := C99_simulates_partial hL ht (known_of_noStore hp) h0 hS hf hn hyear
      exact ⟨rs, Or.inl ⟨hc, hrs⟩⟩
    · obtain ⟨rs, hrs, -⟩ := C99_unused_store_partial hL ht hp hmin hi hS hf hn hyear
      exact ⟨rs, Or.inl ⟨hc, hrs⟩⟩) hn h2 root
  obtain ⟨hw, rfl⟩ := (C101_written ht h hinc hpa hz fun z hzm => ⟨(hpos z hzm).1, by
    rcases (hpos z hzm).2 with h0 | hi
    · exact le_of_eq h0.symm
    · exact hi.positive.le⟩).1 htwo
  exact ⟨files, st, h, hw⟩

/-! ## A sample study of three heat pumps and two stores -/

namespace Sample

/-- The sample with stores of 0 and 10 litres. -/
def stores : Pandas.Workbook := fun name =>
  if name = "Parametric" then some (sheet 6 7 (put (all 10) [((6, 3), num 20), ((6, 4), num 0), ((7, 3), num 10),
    ((7, 4), num 0)]))
  else book "Simple" name

/-- Libraries whose tanks lose heat through the wall. -/
def wallLibs : Libs := { libs with wall := fun _ _ _ => 1 / 100 }

theorem wallLibs_year : WholeYear wallLibs := ⟨libs_year.1, libs_year.2⟩

theorem stores_top : TopRowsEmpty stores := by
  intro name s hs k
  unfold stores at hs
  split_ifs at hs
  · cases Option.some.inj hs; rfl
  · exact top "Simple" name s hs k

theorem stores_readable : Readable stores :=
  { parametric := ⟨_, rfl, by decide, by decide⟩, controller := ⟨_, rfl, by decide, by decide⟩,
    weather := ⟨_, rfl, by decide, by decide⟩, demandGen := ⟨_, rfl, by decide, by decide⟩,
    demandInput := ⟨_, rfl, by decide, by decide⟩, pv := ⟨_, rfl, by decide, by decide⟩,
    wind := ⟨_, rfl, by decide, by decide⟩, windFarm := ⟨_, rfl, by decide, by decide⟩,
    battery := ⟨_, rfl, by decide, by decide⟩, grid := ⟨_, rfl, by decide, by decide⟩,
    aux := ⟨_, rfl, by decide, by decide⟩, thermal := ⟨_, rfl, by decide, by decide⟩,
    heatPump := ⟨pump "Simple", rfl, Nat.le_refl 19, by show 26 ≤ 47; decide⟩,
    orderAbove := ⟨"1, 2, 3, 8, 9", [1, 2, 3, 8, 9], rfl, by decide +kernel⟩,
    orderBelow := ⟨"1,2,6,9", [1, 2, 6, 9], rfl, by decide +kernel⟩,
    fuel := ⟨"Gas", rfl, by decide +kernel⟩, fuel1 := ⟨"Wood chips", rfl, by decide +kernel⟩,
    fuel2 := ⟨"gas", rfl, by decide +kernel⟩, fuel3 := ⟨"Kerosene", rfl, by decide +kernel⟩ }

theorem stores_usable : Usable stores where
  top := stores_top
  readable := stores_readable
  store := ⟨_, rfl, by decide, by decide⟩
  tail := tail_of_height (s := pump "Simple") rfl (Nat.le_refl 47)
  pump := fun _ s h => by
    cases Option.some.inj h
    exact ⟨rfl, (by decide : 36 ≤ 47)⟩
  inverter := usable.inverter

theorem stores_shape {sheet : String} (h : stores sheet = book "Simple" sheet) :
    SameShape (book "Simple") stores sheet := by
  intro s s' hs hs'
  cases Option.some.inj (hs.symm.trans (h.symm.trans hs'))
  exact ⟨rfl, rfl, fun _ _ => rfl⟩

theorem stores_same : SameUsed (book "Simple") stores where
  cells := by
    simp only [usedCells, List.forall_mem_cons, List.not_mem_nil, false_implies, implies_true, and_true]
    refine ⟨?_, ?_, ?_, ?_, ?_, ?_, ?_, ?_, ?_, ?_, ?_, ?_, ?_, ?_, ?_, ?_, ?_, ?_, ?_, ?_, ?_, ?_⟩ <;>
      (repeat' constructor)
  columns := by
    simp only [usedColumns, List.forall_mem_cons, List.not_mem_nil, false_implies, implies_true, and_true]
    refine ⟨?_, ?_, ?_, ?_, ?_, ?_, ?_, ?_, ?_, ?_, ?_, ?_, ?_, ?_, ?_, ?_, ?_, ?_, ?_⟩ <;>
      exact fun _ _ => rfl
  lengths := by
    simp only [List.forall_mem_cons, List.not_mem_nil, false_implies, implies_true, and_true]
    exact ⟨rfl, rfl, rfl, rfl⟩
  prices := fun _ _ _ => rfl
  tests := fun _ _ _ _ _ => rfl
  batteryShape := stores_shape rfl
  battery := fun _ _ _ _ _ _ => rfl
  turbineShape := stores_shape rfl
  turbines := fun _ _ _ => rfl
  panelShape := stores_shape rfl
  panels := fun _ _ _ _ _ _ => rfl
  site := fun _ _ _ _ _ _ => rfl

theorem stores_made {L : Libs} (hk : L.knownModule "Some_Module" = true) (size : ℤ × ℤ) :
    ∃ S, runInputs L stores size = .ok S :=
  Depends.start_same stores_same usable stores_usable (run_made hk size)

theorem stores_ranges : RangesIn stores ⟨0, 20, 10, 0, 10, 10⟩ :=
  ⟨rfl, rfl, rfl, rfl, fun _ => rfl, fun _ => rfl⟩

theorem stores_sizes : Para.combos ⟨0, 20, 10, 0, 10, 10⟩ =
    .ok [(0, 0), (0, 10), (10, 0), (10, 10), (20, 0), (20, 10)] := by decide +kernel

theorem stores_setup {L : Libs} (hk : L.knownModule "Some_Module" = true) (gekko : Gekko) :
    ∃ s, setup L gekko stores = .ok s := by
  refine (C99_sets_up stores_top).mpr ⟨stores_readable, ⟨0, 20, 10, 0, 10, 10⟩, _, 24, 48,
    stores_ranges, stores_sizes, by decide, rfl, rfl, fun size _ => ?_⟩
  obtain ⟨S, hS⟩ := stores_made hk size
  unfold runInputs at hS
  obtain ⟨c, hc, -⟩ := except_bind_ok.mp hS
  exact ⟨c, hc⟩

theorem stores_processes : NoStoreProcesses stores :=
  ⟨fun p h => Depends.sub (l := [1, 2, 3, 8, 9]) (by decide) (lists_mem h ⟨"1, 2, 3, 8, 9", rfl, by decide +kernel⟩),
    fun p h => Depends.sub (l := [1, 2, 6, 9]) (by decide) (lists_mem h ⟨"1,2,6,9", rfl, by decide +kernel⟩)⟩

theorem stores_idle : IdleStore wallLibs stores 10 where
  positive := by decide
  layers n h := by
    have e : n = 5 := by exact_mod_cast holds_inj h (show Holds stores "Thermal storage" 'D' 8 5 from rfl)
    subst e
    refine ⟨by decide, fun _ _ _ _ => ?_⟩
    show (0 : ℚ) ≤ 1 / 100 ∧ (1 / 100 : ℚ) * 144 ≤ ((10 : ℤ) : ℚ) / ((5 : ℕ) : ℚ) * 4178
    norm_num
  insulation := ⟨"Polyurethane", rfl, "polyurethane", by decide, 0, 0, "Polyurethane".toList, by decide, by decide⟩
  inside := ⟨"Inside", rfl, 0, 0, "Inside".toList, by decide, by decide⟩
  sealed _ _ _ _ _ _ _ _ _ _ _ _ := rfl
  water ret h := by
    rw [holds_inj h (show Holds stores "Demand input" 'I' 6 40 from rfl)]
    norm_num

theorem stores_cells : Holds stores "Heat pump" 'D' 8 0 ∧ Says stores "Controller" 'D' 5 "Fixed order control" ∧
    Holds stores "Controller" 'G' 5 (24 : ℕ) ∧ Holds stores "Controller" 'G' 6 (48 : ℕ) :=
  ⟨rfl, rfl, rfl, rfl⟩

theorem stores_incentive : Incentive stores := ⟨Or.inl rfl, Or.inl ⟨rfl, 20, rfl⟩⟩

end Sample

attribute [local irreducible] Report.Ends Sample.stores

/-- The study of the sample with stores ends without an exception and writes all its files. -/
theorem sample_study_written (gekko : Gekko) (root : String) : ∃ files st,
    Report.Ends Sample.wallLibs gekko Sample.stores root (.ok (files, none), st) ∧
      files.map (·.1) = Spec.tableFiles root ++ Spec.chartFiles := by
  obtain ⟨s, hs⟩ := Sample.stores_setup (L := Sample.wallLibs) rfl gekko
  obtain ⟨c1, c2, c3, c4⟩ := Sample.stores_cells
  refine C101_unused_store_partial Sample.wallLibs_year Sample.stores_top Sample.stores_processes c1 hs c2 c3 c4
    (by omega) (by omega) Sample.stores_incentive Sample.stores_ranges Sample.stores_sizes
    (fun z _ => Sample.stores_made rfl z) (fun z hz => ?_) ⟨⟨(0, 0), by decide, (10, 0), by decide, by decide⟩,
      ⟨(0, 0), by decide, (0, 10), by decide, by decide⟩⟩ root
  simp only [List.mem_cons, List.not_mem_nil, or_false] at hz
  rcases hz with rfl | rfl | rfl | rfl | rfl | rfl
  · exact ⟨by decide, Or.inl rfl⟩
  · exact ⟨by decide, Or.inr Sample.stores_idle⟩
  · exact ⟨by decide, Or.inl rfl⟩
  · exact ⟨by decide, Or.inr Sample.stores_idle⟩
  · exact ⟨by decide, Or.inl rfl⟩
  · exact ⟨by decide, Or.inr Sample.stores_idle⟩

/-- C99: the run of the heat pump of size 10 with the store of 10 litres gives 48 hours. -/
example : ∃ rs, simulate Sample.wallLibs Sample.stores (10, 10) = .ok rs ∧ rs.length = 48 := by
  obtain ⟨S, hS⟩ := Sample.stores_made (L := Sample.wallLibs) rfl (10, 10)
  obtain ⟨c1, -, c3, c4⟩ := Sample.stores_cells
  exact C99_unused_store_partial Sample.wallLibs_year Sample.stores_top Sample.stores_processes c1
    Sample.stores_idle hS c3 c4 (by omega)

/-- C101: a chart of this study shows a point for each of the six combinations. -/
example (gekko : Gekko) : ∃ files st s,
    Report.Ends Sample.wallLibs gekko Sample.stores "study" (.ok (files, none), st) ∧
    (Spec.chartFiles.head (by decide), .surface s) ∈ files ∧ s.points.length = 6 := by
  obtain ⟨files, st, h, hf⟩ := sample_study_written gekko "study"
  have hm : Spec.chartFiles.head (by decide) ∈ files.map (·.1) := by
    rw [hf]
    exact List.mem_append_right _ (List.head_mem _)
  obtain ⟨⟨name, x⟩, hx, rfl⟩ := List.mem_map.mp hm
  cases x with
  | table t =>
    have := (C101_tables Sample.stores_top h hx).1
    exact absurd (List.mem_map_of_mem (f := (·.1)) this)
      (show Spec.chartFiles.head (by decide) ∉ (Spec.tableColumns "study").map (·.1) by decide)
  | surface s =>
    obtain ⟨column, -, pa, sizes, hpa, hz, hlen, -⟩ := C101_charts Sample.stores_top h hx
    cases Except.ok.inj (hz.symm.trans ((ranges_combos hpa Sample.stores_ranges).trans Sample.stores_sizes))
    exact ⟨files, st, s, h, hx, hlen⟩

end Verif
