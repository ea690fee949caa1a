import Verif.Props.OtherSettings
import Verif.Props.SampleSheets

/-!
# Workbooks with another battery (C116), other hours (C28, C103) and another setpoint (C29)
-/

set_option autoImplicit false

namespace Verif
open Spec Pandas Workbook InputReader Simulation HpConfig FixedOrder Programme

namespace Sample

/-- The workbook of C112 with a battery of this capacity, this setpoint and these hours, and with orders that
use the battery after heat. -/
def kept (cap x : ℚ) (first n : ℕ) : Pandas.Workbook := fun name =>
  if name = "Electrical storage" then some (sheet 9 6 (fun r c => if r = 6 then [num 0, num 0, num cap, num (1 / 2),
    num 4, num 3, num (9 / 10), num (9 / 10), num (1 / 100)].getD c none else none))
  else if name = "Controller" then some (sheet 7 9 (put (all 1) [((5, 3), text "Fixed order control"),
    ((5, 6), num first), ((6, 6), num n), ((7, 3), num x), ((8, 3), text "1,2,3,4,5,6,8,9,10,11,12,13"),
    ((9, 3), text "1,2,3,4,5,6,7,9,10,11,12,13,15")]))
  else storeless name

variable {cap x : ℚ} {first n : ℕ}

theorem kept_top : TopRowsEmpty (kept cap x first n) := by
  intro name s hs k
  unfold kept at hs
  split_ifs at hs
  · cases Option.some.inj hs; rfl
  · cases Option.some.inj hs; rfl
  · exact storeless_top name s hs k

theorem kept_row {s : Pandas.Sheet} (hs : kept cap x first n "Electrical storage" = some s) :
    FirstComplete s [5] [0, 1] 6 := by
  cases Option.some.inj hs
  refine ⟨⟨by decide, Nat.le_refl 6⟩, by decide, fun k hk _ => ?_, fun r h1 h2 _ hf => ?_⟩
  · have hk' : k < 9 := hk
    interval_cases k <;> rfl
  · have := hf 8 (show 8 < 9 by decide) (by decide)
    interval_cases r <;> exact absurd (show false = true from this) (by decide)

theorem kept_above : InputText.readOrder "1,2,3,4,5,6,8,9,10,11,12,13".toList =
    .ok [1, 2, 3, 4, 5, 6, 8, 9, 10, 11, 12, 13] := by decide +kernel

theorem kept_below : InputText.readOrder "1,2,3,4,5,6,7,9,10,11,12,13,15".toList =
    .ok [1, 2, 3, 4, 5, 6, 7, 9, 10, 11, 12, 13, 15] := by decide +kernel

theorem kept_readable : Readable (kept cap x first n) :=
  let R := storeless_readable
  { parametric := R.parametric, controller := ⟨_, rfl, by show _ ≤ 7; decide, by show _ ≤ 9; decide⟩, weather := R.weather,
    demandGen := R.demandGen, demandInput := R.demandInput, pv := R.pv, wind := R.wind, windFarm := R.windFarm,
    battery := ⟨_, rfl, by show _ ≤ 9; decide, by show _ ≤ 6; decide⟩, grid := R.grid, aux := R.aux, thermal := R.thermal,
    heatPump := R.heatPump, orderAbove := ⟨_, _, rfl, kept_above⟩, orderBelow := ⟨_, _, rfl, kept_below⟩,
    fuel := R.fuel, fuel1 := R.fuel1, fuel2 := R.fuel2, fuel3 := R.fuel3 }

theorem kept_filled {L : Libs} (hk : L.knownModule "Some_Module" = true) : Filled L (kept cap x first n) :=
  let F := storeless_filled hk
  { readable := kept_readable, weather := F.weather, air := F.air, water := F.water, demand := F.demand,
    source := F.source, ret := F.ret,
    battery := ⟨_, 6, rfl, Nat.le_refl 9, kept_row (cap := cap) (x := x) (first := first) (n := n) rfl, by
      simp only [List.forall_mem_cons, List.not_mem_nil, false_implies, implies_true, and_true]
      exact ⟨⟨_, rfl⟩, ⟨_, rfl⟩, ⟨_, rfl⟩, ⟨_, rfl⟩, ⟨_, rfl⟩, ⟨_, rfl⟩, ⟨_, rfl⟩⟩⟩,
    turbines := F.turbines, pv := F.pv, tank := F.tank, layers := F.layers, tankNumbers := F.tankNumbers,
    hpType := F.hpType, hpData := F.hpData, hpNumbers := F.hpNumbers, duties := F.duties, model := F.model,
    efficiency := ⟨1, rfl⟩, fuel := F.fuel,
    tariff := ⟨_, "Flat rates", rfl, rfl, by decide, fun _ => ⟨3, rfl⟩,
        fun h => absurd h (by decide), fun h => absurd h (by decide), fun h => absurd h (by decide)⟩ }

theorem kept_ready (hp : ℤ) : Ready wallLibs (kept cap x first n) hp :=
  let R := storeless_ready hp
  { objects := kept_filled rfl, demand := R.demand, delta := R.delta, exportPrice := R.exportPrice,
    setpoint := ⟨x, rfl⟩
    prices := fun t h => by
      cases says_inj h (show Says _ _ _ _ "Flat rates" from rfl)
      exact ⟨fun h => absurd h (by decide), fun h => absurd h (by decide), fun h => absurd h (by decide),
        fun h => absurd h (by decide)⟩
    turbines := R.turbines, panels := R.panels,
    performance := R.performance }

theorem kept_run (size : ℤ × ℤ) : ∃ S, runInputs wallLibs (kept cap x first n) size = .ok S :=
  (C94_ready (fun _ _ _ _ _ _ xs h => by rw [← Except.ok.inj h]; exact List.length_replicate) kept_top
    (tail_of_height (s := pump "Simple") rfl (Nat.le_refl 47))).mpr (kept_ready size.1)

theorem kept_sensible (hc : 0 ≤ cap) : Sensible (kept cap x first n) :=
  let S := storeless_plain.sensible
  { heat := S.heat, network := S.network
    above := fun t order h1 h2 => by
      cases says_inj h1 (show Says _ _ _ _ "1,2,3,4,5,6,8,9,10,11,12,13" from rfl)
      cases Except.ok.inj (h2.symm.trans kept_above)
      exact ⟨by decide, by decide, fun h => by cases h⟩
    below := fun t order h1 h2 => by
      cases says_inj h1 (show Says _ _ _ _ "1,2,3,4,5,6,7,9,10,11,12,13,15" from rfl)
      cases Except.ok.inj (h2.symm.trans kept_below)
      exact ⟨by decide, by decide, fun _ => ⟨by decide, by decide⟩⟩
    battery := fun s row hs hrow => by
      cases firstComplete_unique hrow (kept_row hs)
      constructor
      · simp only [List.forall_mem_cons, List.not_mem_nil, false_implies, implies_true, and_true]
        refine ⟨fun y h => ?_, fun y h => ?_, fun y h => ?_, fun y h => ?_, fun y h => ?_, fun y h => ?_,
          fun y h => ?_⟩
        · rw [holds_inj h (show Holds _ _ _ _ cap from rfl)]; exact hc
        · rw [holds_inj h (show Holds _ _ _ _ (1 / 2) from rfl)]; norm_num
        · rw [holds_inj h (show Holds _ _ _ _ 4 from rfl)]; norm_num
        · rw [holds_inj h (show Holds _ _ _ _ 3 from rfl)]; norm_num
        · rw [holds_inj h (show Holds _ _ _ _ (9 / 10) from rfl)]; norm_num
        · rw [holds_inj h (show Holds _ _ _ _ (9 / 10) from rfl)]; norm_num
        · rw [holds_inj h (show Holds _ _ _ _ (1 / 100) from rfl)]; norm_num
      · simp only [List.forall_mem_cons, List.not_mem_nil, false_implies, implies_true, and_true]
        refine ⟨fun y h => ?_, fun y h => ?_, fun y h => ?_, fun y h => ?_⟩
        · rw [holds_inj h (show Holds _ _ _ _ (1 / 2) from rfl)]; norm_num
        · rw [holds_inj h (show Holds _ _ _ _ (9 / 10) from rfl)]; norm_num
        · rw [holds_inj h (show Holds _ _ _ _ (9 / 10) from rfl)]; norm_num
        · rw [holds_inj h (show Holds _ _ _ _ (1 / 100) from rfl)]; norm_num }

theorem kept_known : KnownProcesses (kept cap x first n) := by
  refine ⟨fun p h => ?_, fun p h => ?_⟩
  · have := lists_mem h ⟨"1,2,3,4,5,6,8,9,10,11,12,13", rfl, kept_above⟩
    simp only [List.mem_cons, List.not_mem_nil, or_false] at this
    omega
  · have := lists_mem h ⟨"1,2,3,4,5,6,7,9,10,11,12,13,15", rfl, kept_below⟩
    simp only [List.mem_cons, List.not_mem_nil, or_false] at this
    omega

theorem kept_pump {L : Libs} {hp ts : ℤ} (h0 : 0 ≤ hp) (S : RunIn (List ℚ))
    (h : runInputs L (kept cap x first n) (hp, ts) = .ok S) : GoodPump S :=
  C99_simple_pump h (Or.inr ⟨h0, ⟨"Simple", rfl, by decide +kernel⟩, fun cop hc => by
    rw [holds_inj hc (show Holds _ _ _ _ 3 from rfl)]; norm_num⟩)

theorem kept_heat_first : HeatFirstOnSheet (kept cap x first n) := by
  intro t order h
  refine ⟨fun h1 => ?_, fun h1 => ?_⟩
  · cases says_inj h1 (show Says _ _ _ _ "1,2,3,4,5,6,8,9,10,11,12,13" from rfl)
    cases Except.ok.inj (h.symm.trans kept_above)
    unfold HeatFirst
    decide
  · cases says_inj h1 (show Says _ _ _ _ "1,2,3,4,5,6,7,9,10,11,12,13,15" from rfl)
    cases Except.ok.inj (h.symm.trans kept_below)
    unfold HeatFirst
    decide

theorem kept_larger {cap' : ℚ} (h : cap ≤ cap') : LargerOnSheet (kept cap x first n) (kept cap' x first n) := by
  intro s s' row row' hs hs' hrow hrow'
  cases firstComplete_unique hrow (kept_row hs)
  cases firstComplete_unique hrow' (kept_row hs')
  refine ⟨?_, fun c c' hc hc' => ?_⟩
  · simp only [List.forall_mem_cons, List.not_mem_nil, false_implies, implies_true, and_true]
    exact ⟨rfl, rfl, rfl, rfl, rfl, rfl⟩
  · rw [holds_inj hc (show Holds _ _ _ _ cap from rfl), holds_inj hc' (show Holds _ _ _ _ cap' from rfl)]
    exact h

theorem kept_battery {cap' : ℚ} : SameBut ["Electrical storage"] (kept cap x first n) (kept cap' x first n) := by
  intro name hn
  simp only [List.mem_cons, List.not_mem_nil, or_false] at hn
  unfold kept
  rw [if_neg hn, if_neg hn]

theorem kept_controller {x' : ℚ} {first' n' : ℕ} :
    SameBut ["Controller"] (kept cap x first n) (kept cap x' first' n') := by
  intro name hn
  simp only [List.mem_cons, List.not_mem_nil, or_false] at hn
  unfold kept
  split_ifs <;> rfl

theorem kept_orders {cap' x' : ℚ} {first' n' : ℕ} :
    SameOrders (kept cap x first n) (kept cap' x' first' n') := by
  unfold SameOrders
  simp only [List.forall_mem_cons, List.not_mem_nil, false_implies, implies_true, and_true]
  exact ⟨rfl, rfl⟩

theorem kept_cells : Holds (kept cap x first n) "Controller" 'D' 7 x ∧
    Holds (kept cap x first n) "Controller" 'G' 5 first ∧ Holds (kept cap x first n) "Controller" 'G' 6 n := ⟨rfl, rfl, rfl⟩

theorem kept_same_hours {cap' x' : ℚ} : ∀ r ∈ [5, 6], excel (kept cap x first n) "Controller" 'G' r =
    excel (kept cap' x' first n) "Controller" 'G' r := by
  simp only [List.forall_mem_cons, List.not_mem_nil, false_implies, implies_true, and_true]
  exact ⟨rfl, rfl⟩

theorem kept_first {cap' x' : ℚ} {n' : ℕ} : excel (kept cap x first n) "Controller" 'G' 5 =
    excel (kept cap' x' first n') "Controller" 'G' 5 := rfl

theorem kept_setpoint {cap' : ℚ} {first' n' : ℕ} : excel (kept cap x first n) "Controller" 'D' 7 =
    excel (kept cap' x first' n') "Controller" 'D' 7 := rfl

theorem kept_empty : ∀ s row, kept 0 x first n "Electrical storage" = some s → FirstComplete s [5] [0, 1] row →
    Holds (kept 0 x first n) "Electrical storage" 'C' row 0 := by
  intro s row hs hrow
  cases firstComplete_unique hrow (kept_row hs)
  rfl

theorem kept_price {L : Libs} {size : ℤ × ℤ} {rs : List (Results (List ℚ))}
    (h : simulate L (kept cap x first n) size = .ok rs) : ∀ r ∈ rs, r.grid.importPrice = 3 := by
  obtain ⟨S, first, n, hS, -, -, hrun⟩ := simulate_ok.mp h
  obtain ⟨o, T⟩ := start_ok hS
  obtain ⟨c, -, hc⟩ := T.importPrice
  obtain ⟨x, hx, hxs⟩ := flat_prices kept_top T.objects hc rfl
  intro r hr
  obtain ⟨k, hk, rfl⟩ := List.mem_iff_getElem.mp hr
  have g := run_importPrice hrun (List.getElem?_eq_getElem hk) (C27_one_result_per_hour hrun ▸ hk)
  rw [hxs] at g
  exact (List.eq_of_mem_replicate (List.mem_of_getElem? g)).trans (holds_inj hx (show Holds _ _ _ _ 3 from rfl))

theorem kept_simulates {hp : ℤ} (h : first + n ≤ 8760) :
    ∃ rs, simulate wallLibs (kept cap x first n) (hp, 0) = .ok rs ∧ rs.length = n := by
  obtain ⟨S, hS⟩ := kept_run (cap := cap) (x := x) (first := first) (n := n) (hp, 0)
  exact C99_simulates_partial wallLibs_year kept_top kept_known rfl hS kept_cells.2.1 kept_cells.2.2 h

end Sample

attribute [local irreducible] Sample.kept simulate

/-- C116: a battery of 8 in place of one of 2. -/
example : ∃ rs rs', simulate Sample.wallLibs (Sample.kept 2 1 24 48) (10, 0) = .ok rs ∧
    simulate Sample.wallLibs (Sample.kept 8 1 24 48) (10, 0) = .ok rs' ∧ rs.length = 48 ∧
    List.Forall₂ (fun r r' => r'.grid.totalImport ≤ r.grid.totalImport ∧
      r.es.finalSoc ≤ r'.es.finalSoc ∧ r'.hp = r.hp ∧ r'.ts = r.ts ∧ r'.aux = r.aux) rs rs' := by
  obtain ⟨rs, h, hl⟩ := Sample.kept_simulates (cap := 2) (x := 1) (first := 24) (n := 48) (hp := 10) (by omega)
  obtain ⟨rs', h', -⟩ := Sample.kept_simulates (cap := 8) (x := 1) (first := 24) (n := 48) (hp := 10) (by omega)
  exact ⟨rs, rs', h, h', hl, C116_workbook Sample.kept_top Sample.kept_top (Sample.kept_sensible (by norm_num)) le_rfl
    (Sample.kept_pump (by decide)) Sample.kept_battery (Sample.kept_larger (by norm_num)) Sample.kept_heat_first h h'⟩

/-- C28: the first day of a study of two days. -/
example : ∃ rs, simulate Sample.wallLibs (Sample.kept 8 1 24 48) (10, 0) = .ok rs ∧ rs.length = 48 ∧
    simulate Sample.wallLibs (Sample.kept 8 1 24 24) (10, 0) = .ok (rs.take 24) := by
  obtain ⟨rs, h, hl⟩ := Sample.kept_simulates (cap := 8) (x := 1) (first := 24) (n := 48) (hp := 10) (by omega)
  obtain ⟨rs', h', -⟩ := Sample.kept_simulates (cap := 8) (x := 1) (first := 24) (n := 24) (hp := 10) (by omega)
  refine ⟨rs, h, hl, ?_⟩
  rw [← C28_workbook Sample.kept_controller Sample.kept_orders Sample.kept_setpoint Sample.kept_first
    Sample.kept_cells.2.2 Sample.kept_cells.2.2 (by omega) h h']
  exact h'

/-- C103: without stores, hour 60 is the same in a study from hour 24 and in a study from hour 50. -/
example : ∃ rs rs', simulate Sample.wallLibs (Sample.kept 0 1 24 48) (10, 0) = .ok rs ∧
    simulate Sample.wallLibs (Sample.kept 0 1 50 100) (10, 0) = .ok rs' ∧ rs.length = 48 ∧ rs[36]? = rs'[10]? := by
  obtain ⟨rs, h, hl⟩ := Sample.kept_simulates (cap := 0) (x := 1) (first := 24) (n := 48) (hp := 10) (by omega)
  obtain ⟨rs', h', hl'⟩ := Sample.kept_simulates (cap := 0) (x := 1) (first := 50) (n := 100) (hp := 10) (by omega)
  exact ⟨rs, rs', h, h', hl, C103_workbook Sample.kept_top (Sample.kept_sensible le_rfl) Sample.kept_empty
    (Sample.kept_pump (by decide)) Sample.kept_controller Sample.kept_orders Sample.kept_setpoint
    Sample.kept_cells.2.1 Sample.kept_cells.2.1 h h' (by omega) (by omega) (by omega)⟩

/-- C29: at a price of 3, setpoints of 1 and of 2 give the same two days. -/
example : ∃ rs, simulate Sample.wallLibs (Sample.kept 8 1 24 48) (10, 0) = .ok rs ∧ rs.length = 48 ∧
    simulate Sample.wallLibs (Sample.kept 8 2 24 48) (10, 0) = .ok rs := by
  obtain ⟨rs, h, hl⟩ := Sample.kept_simulates (cap := 8) (x := 1) (first := 24) (n := 48) (hp := 10) (by omega)
  obtain ⟨rs', h', -⟩ := Sample.kept_simulates (cap := 8) (x := 2) (first := 24) (n := 48) (hp := 10) (by omega)
  have e := C29_workbook Sample.kept_controller Sample.kept_orders Sample.kept_same_hours Sample.kept_cells.1
    Sample.kept_cells.1 h h' fun r hr => by
      rw [Sample.kept_price h r hr]
      norm_num
  exact ⟨rs, h, hl, e ▸ h'⟩

end Verif
