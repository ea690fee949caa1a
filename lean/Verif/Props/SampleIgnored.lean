import Verif.Props.Ignored
import Verif.Props.Completes

/-!
# Examples for C97 and C98: the sample workbook and an edited copy of it
-/

set_option autoImplicit false

namespace Verif
namespace Sample
open Pandas Workbook InputReader Enums Simulation Spec FixedOrder Programme

/-- The sample with other entries in the demand generation sheet, the air density, the name of the inverter,
the height, width and insulation thickness of the store. -/
def edited : Pandas.Workbook := fun name =>
  if name = "Weather resources" then some (sheet 15 8765 (fun _ c => if c = 11 then num 99 else num 10))
  else if name = "Demand gen" then some (sheet 8 37 (all 7))
  else if name = "PV inputs" then some (sheet 8 20 (fun r c =>
      if r = 16 ∧ c ≤ 5 then num 50
      else if r = 20 then (if c = 3 then text "Another Inverter" else if c ≤ 3 then text "Some Module" else num 0)
      else none))
  else if name = "Thermal storage" then some (sheet 14 23 (put (all 1) [((6, 3), text "Polyurethane"),
      ((7, 3), text "Inside"), ((8, 3), num 5), ((10, 3), num 9), ((11, 3), num 9), ((12, 3), num 9)]))
  else book "Simple" name

theorem edited_top : TopRowsEmpty edited := by
  intro name s hs k
  unfold edited at hs
  split_ifs at hs
  · cases Option.some.inj hs; rfl
  · cases Option.some.inj hs; rfl
  · cases Option.some.inj hs; rfl
  · cases Option.some.inj hs; rfl
  · exact top "Simple" name s hs k

theorem edited_readable : Readable edited :=
  { parametric := ⟨_, rfl, by decide, by decide⟩, controller := ⟨_, rfl, by decide, by decide⟩,
    weather := ⟨_, rfl, by decide, by decide⟩, demandGen := ⟨_, rfl, by decide, by decide⟩,
    demandInput := ⟨_, rfl, by decide, by decide⟩, pv := ⟨_, rfl, by decide, by decide⟩,
    wind := ⟨_, rfl, by decide, by decide⟩, windFarm := ⟨_, rfl, by decide, by decide⟩,
    battery := ⟨_, rfl, by decide, by decide⟩, grid := ⟨_, rfl, by decide, by decide⟩,
    aux := ⟨_, rfl, by decide, by decide⟩, thermal := ⟨_, rfl, by decide, by decide⟩,
    heatPump := ⟨pump "Simple", rfl, Nat.le_refl 19, by show 26 ≤ 47; decide⟩,
    orderAbove := ⟨"1, 2, 3, 8, 9", [1, 2, 3, 8, 9], rfl, by decide +kernel⟩,
    orderBelow := ⟨"1,2,6,9", [1, 2, 6, 9], rfl, by decide +kernel⟩,
    fuel := ⟨"Gas", rfl, by decide +kernel⟩, fuel1 := ⟨"Wood chips", rfl, by decide +kernel⟩,
    fuel2 := ⟨"gas", rfl, by decide +kernel⟩, fuel3 := ⟨"Kerosene", rfl, by decide +kernel⟩ }

theorem usable : Usable (book "Simple") where
  top := top _
  readable := readable _
  store := ⟨_, rfl, by decide, by decide⟩
  tail := tail_of_height (s := pump "Simple") rfl (Nat.le_refl 47)
  pump := fun _ s h => by
    cases Option.some.inj h
    exact ⟨rfl, (by decide : 36 ≤ 47)⟩
  inverter s row hs hrow := by
    cases firstComplete_unique hrow (pvRow "Simple" hs)
    exact ⟨"Some Module", rfl⟩

theorem edited_pvRow {s : Pandas.Sheet} (hs : edited "PV inputs" = some s) :
    FirstComplete s [19] [0, 1] 20 := by
  cases Option.some.inj hs
  refine ⟨by decide, by decide, by decide, fun r h1 h2 => ?_⟩
  interval_cases r <;> decide

theorem edited_usable : Usable edited where
  top := edited_top
  readable := edited_readable
  store := ⟨_, rfl, by decide, by decide⟩
  tail := tail_of_height (s := pump "Simple") rfl (Nat.le_refl 47)
  pump := fun _ s h => by
    cases Option.some.inj h
    exact ⟨rfl, (by decide : 36 ≤ 47)⟩
  inverter s row hs hrow := by
    cases firstComplete_unique hrow (edited_pvRow hs)
    exact ⟨"Another Inverter", rfl⟩

theorem same_shape {sheet : String} (h : edited sheet = book "Simple" sheet) :
    SameShape (book "Simple") edited sheet := by
  intro s s' hs hs'
  cases Option.some.inj (hs.symm.trans (h.symm.trans hs'))
  exact ⟨rfl, rfl, fun _ _ => rfl⟩

theorem same_used : SameUsed (book "Simple") edited where
  cells := by
    simp only [usedCells, List.forall_mem_cons, List.not_mem_nil, false_implies, implies_true, and_true]
    refine ⟨?_, ?_, ?_, ?_, ?_, ?_, ?_, ?_, ?_, ?_, ?_, ?_, ?_, ?_, ?_, ?_, ?_, ?_, ?_, ?_, ?_, ?_⟩ <;>
      (repeat' constructor)
  columns := by
    simp only [usedColumns, List.forall_mem_cons, List.not_mem_nil, false_implies, implies_true, and_true]
    refine ⟨?_, ?_, ?_, ?_, ?_, ?_, ?_, ?_, ?_, ?_, ?_, ?_, ?_, ?_, ?_, ?_, ?_, ?_, ?_⟩ <;>
      exact fun _ _ => rfl
  lengths := by
    simp only [List.forall_mem_cons, List.not_mem_nil, false_implies, implies_true, and_true]
    exact ⟨rfl, rfl, rfl, rfl⟩
  prices := fun _ _ _ => rfl
  tests := fun _ _ _ _ _ => rfl
  batteryShape := same_shape rfl
  battery := fun _ _ _ _ _ _ => rfl
  turbineShape := same_shape rfl
  turbines := fun _ _ _ => rfl
  panelShape := by
    intro s s' hs hs'
    cases Option.some.inj hs
    cases Option.some.inj hs'
    refine ⟨rfl, rfl, fun r k => ?_⟩
    unfold sheet
    dsimp only
    split_ifs <;> rfl
  panels := by
    intro s row hs hrow
    cases firstComplete_unique hrow (pvRow "Simple" hs)
    simp only [List.forall_mem_cons, List.not_mem_nil, false_implies, implies_true, and_true]
    exact ⟨rfl, rfl, rfl, rfl⟩
  site := by
    intro s row hs hrow
    have h16 : FirstComplete s [15, 19, 20] [0, 1, 6, 7] 16 := by
      cases Option.some.inj hs
      refine ⟨by decide, by decide, by decide, fun r h1 h2 => ?_⟩
      interval_cases r <;> decide
    cases firstComplete_unique hrow h16
    simp only [List.forall_mem_cons, List.not_mem_nil, false_implies, implies_true, and_true]
    exact ⟨rfl, rfl⟩

end Sample

open Pandas Workbook InputReader Enums Simulation Spec FixedOrder Programme Sample

/-- The edited workbook is another workbook. -/
example : excel edited "Demand gen" 'C' 6 ≠ excel (book "Simple") "Demand gen" 'C' 6 ∧
    excel edited "Weather resources" 'L' 6 ≠ excel (book "Simple") "Weather resources" 'L' 6 ∧
    excel edited "PV inputs" 'D' 20 ≠ excel (book "Simple") "PV inputs" 'D' 20 ∧
    excel edited "Thermal storage" 'D' 10 ≠ excel (book "Simple") "Thermal storage" 'D' 10 := by
  refine ⟨fun h => ?_, fun h => ?_, fun h => ?_, fun h => ?_⟩
  · exact absurd (Except.ok.inj (congrArg numOf h)) (show ¬ (7 : ℚ) = 1 by norm_num)
  · exact absurd (Except.ok.inj (congrArg numOf h)) (show ¬ (99 : ℚ) = 10 by norm_num)
  · exact absurd (Except.ok.inj (congrArg textOf h)) (show ¬ "Another Inverter" = "Some Module" by decide)
  · exact absurd (Except.ok.inj (congrArg numOf h)) (show ¬ (9 : ℚ) = 1 by norm_num)

/-- C98: yet every combination without a store is simulated, with the same results. -/
example {L : Libs} (hL : WholeYear L) (hk : L.knownModule "Some_Module" = true) (hp : ℤ) :
    ∃ rs, simulate L edited (hp, 0) = .ok rs ∧ simulate L (book "Simple") (hp, 0) = .ok rs ∧
      rs.length = 48 := by
  obtain ⟨S, hS⟩ := run_made hk (hp, 0)
  obtain ⟨rs, h, hl⟩ := C99_simulates_partial hL (top _) (known "Simple") rfl hS
    (first := 24) (n := 48) (show Holds _ _ _ _ _ from rfl) (show Holds _ _ _ _ _ from rfl) (by decide)
  exact ⟨rs, (C98_unchanged usable edited_usable same_used).mp h, h, hl⟩

end Verif
