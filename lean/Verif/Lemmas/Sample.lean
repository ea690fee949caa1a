import Verif.Props.Start
import Mathlib.Tactic.IntervalCases

/-!
# A workbook filled in as the template asks, for the examples

Cells not mentioned hold some number, except in the sheets whose first complete row counts. The heat pump
is of the given model, with the sizes 0, 10 and 20; there is no store, no turbine, no panel, and the tariff
is flat. The fixed order controller runs 48 hours from hour 24.
-/

set_option autoImplicit false

namespace Verif
namespace Sample
open Pandas Workbook InputReader Enums Simulation Spec FixedOrder Tariff

/-- A sheet with an empty top row. -/
def sheet (width height : ℕ) (cell : ℕ → ℕ → Value) : Sheet :=
  ⟨width, height, fun r c => if r ≤ 1 then none else cell r c⟩

/-- Every cell holds this number. -/
def all (x : ℚ) : ℕ → ℕ → Value := fun _ _ => some (.num x)

/-- The sheet with some cells replaced. -/
def put (f : ℕ → ℕ → Value) (l : List ((ℕ × ℕ) × Value)) : ℕ → ℕ → Value := fun r c =>
  match l.lookup (r, c) with
  | some v => v
  | none => f r c

def text (s : String) : Value := some (.text s)
def num (x : ℚ) : Value := some (.num x)

/-- Heat demand by hour, electrical demand 2, flow temperature 60, source temperature 55,
return temperature 40. -/
def demandCell (r c : ℕ) : Value :=
  if c = 3 then num ((r % 7 : ℕ) : ℚ)
  else if c = 4 then num 2
  else if c = 5 then num 60
  else if c = 6 then num 55
  else if c = 8 then num (if r = 6 then 40 else 5)
  else num 1

/-- The workbook. -/
def book (model : String) : Pandas.Workbook := fun name =>
  [("Parametric", sheet 6 7 (put (all 10) [((6, 3), num 20), ((6, 4), num 0), ((7, 3), num 0), ((7, 4), num 0)])),
   ("Controller", sheet 7 9 (put (all 1) [((5, 3), text "Fixed order control"), ((5, 6), num 24),
      ((6, 6), num 48), ((8, 3), text "1, 2, 3, 8, 9"), ((9, 3), text "1,2,6,9")])),
   ("Weather resources", sheet 15 8765 (all 10)),
   ("Demand gen", sheet 8 37 (all 1)),
   ("Demand input", sheet 9 8765 demandCell),
   ("PV inputs", sheet 8 20 (fun r c =>
      if r = 16 ∧ c ≤ 5 then num 50
      else if r = 20 then (if c ≤ 3 then text "Some Module" else num 0)
      else none)),
   ("Wind inputs", sheet 7 25 (fun r c =>
      if r = 15 ∧ c ≤ 5 then num 0
      else if r = 20 then num 0
      else if 24 ≤ r ∧ c ≤ 3 then num r
      else none)),
   ("Wind farm", sheet 7 19 (all 1)),
   ("Electrical storage", sheet 9 6 (fun r c => if r = 6 then [num 0, num 0, num 10, num (1 / 2), num 4, num 3,
      num (9 / 10), num (9 / 10), num (1 / 100)].getD c none else none)),
   ("Grid", sheet 23 42 (put (all 3) [((5, 3), text "Flat rates")])),
   ("Aux heat", sheet 5 11 (put (all 1) [((6, 2), text "Gas"), ((9, 2), text "Wood chips"),
      ((10, 2), text "gas"), ((11, 2), text "Kerosene")])),
   ("Thermal storage", sheet 14 23 (put (all 1) [((6, 3), text "Polyurethane"), ((7, 3), text "Inside"),
      ((8, 3), num 5)])),
   ("Heat pump", sheet 19 47 (put (all 20) [((3, 3), text "ashp"), ((4, 3), text model), ((8, 3), num 0),
      ((9, 3), text "Integrated performance"), ((12, 3), num 3), ((30, 2), none),
      ((5, 13), text "Domestic"), ((6, 13), text "Fixed")]))].lookup name

theorem mem_of_lookup {α β : Type} [BEq α] [LawfulBEq α] {l : List (α × β)} {a : α} {b : β}
    (h : l.lookup a = some b) : (a, b) ∈ l := by
  induction l with
  | nil => cases h
  | cons p l ih =>
    obtain ⟨a', b'⟩ := p
    rw [List.lookup_cons] at h
    split at h
    · rename_i heq
      rw [eq_of_beq heq, Option.some.inj h]
      exact List.mem_cons_self
    · exact List.mem_cons_of_mem _ (ih h)

theorem top (model : String) : TopRowsEmpty (book model) := by
  intro name s hs k
  have hm : (name, s) ∈ _ := mem_of_lookup hs
  simp only [List.mem_cons, Prod.mk.injEq, List.not_mem_nil, or_false] at hm
  rcases hm with ⟨-, rfl⟩ | ⟨-, rfl⟩ | ⟨-, rfl⟩ | ⟨-, rfl⟩ | ⟨-, rfl⟩ | ⟨-, rfl⟩ | ⟨-, rfl⟩ | ⟨-, rfl⟩ |
    ⟨-, rfl⟩ | ⟨-, rfl⟩ | ⟨-, rfl⟩ | ⟨-, rfl⟩ | ⟨-, rfl⟩ <;> rfl

/-- The names of the three models that can be chosen. -/
def models : List String := ["Simple", "Lorentz", "Standard test regression"]

/-- The heat pump sheet. -/
def pump (model : String) : Pandas.Sheet :=
  sheet 19 47 (put (all 20) [((3, 3), text "ashp"), ((4, 3), text model), ((8, 3), num 0),
      ((9, 3), text "Integrated performance"), ((12, 3), num 3), ((30, 2), none),
      ((5, 13), text "Domestic"), ((6, 13), text "Fixed")])

theorem pump_sheet (model : String) : book model "Heat pump" = some (pump model) := rfl

theorem tables (model : String) : TestTables (pump model) := by
  refine ⟨rfl, (by decide : 36 ≤ 47), ?_, ?_, ?_, ?_, ?_⟩
  · intro i hi h1 h2 h3 h4 h5
    interval_cases i <;> first | exact ⟨⟨20, rfl⟩, ⟨20, rfl⟩, ⟨20, rfl⟩, ⟨20, rfl⟩⟩ | cases h1
  · intro i hi _ _ _ _ _
    interval_cases i <;> exact ⟨⟨20, rfl⟩, ⟨20, rfl⟩, ⟨20, rfl⟩, ⟨20, rfl⟩⟩
  · intro i hi _ _ _ _ _
    interval_cases i <;> exact ⟨⟨20, rfl⟩, ⟨20, rfl⟩, ⟨20, rfl⟩, ⟨20, rfl⟩⟩
  · intro i hi _ _ _ _ _
    interval_cases i <;> exact ⟨⟨20, rfl⟩, ⟨20, rfl⟩, ⟨20, rfl⟩, ⟨20, rfl⟩⟩
  · intro h
    have : (testPoints (pump model) 1).length = 29 := rfl
    rw [h] at this
    cases this

theorem readable (model : String) : Readable (book model) := by
  refine
    { parametric := ⟨_, rfl, by decide, by decide⟩, controller := ⟨_, rfl, by decide, by decide⟩,
      weather := ⟨_, rfl, by decide, by decide⟩, demandGen := ⟨_, rfl, by decide, by decide⟩,
      demandInput := ⟨_, rfl, by decide, by decide⟩, pv := ⟨_, rfl, by decide, by decide⟩,
      wind := ⟨_, rfl, by decide, by decide⟩, windFarm := ⟨_, rfl, by decide, by decide⟩,
      battery := ⟨_, rfl, by decide, by decide⟩, grid := ⟨_, rfl, by decide, by decide⟩,
      aux := ⟨_, rfl, by decide, by decide⟩, thermal := ⟨_, rfl, by decide, by decide⟩,
      heatPump := ⟨pump model, rfl, Nat.le_refl 19, by show 26 ≤ 47; decide⟩,
      orderAbove := ⟨"1, 2, 3, 8, 9", [1, 2, 3, 8, 9], rfl, by decide +kernel⟩,
      orderBelow := ⟨"1,2,6,9", [1, 2, 6, 9], rfl, by decide +kernel⟩,
      fuel := ⟨"Gas", rfl, by decide +kernel⟩, fuel1 := ⟨"Wood chips", rfl, by decide +kernel⟩,
      fuel2 := ⟨"gas", rfl, by decide +kernel⟩, fuel3 := ⟨"Kerosene", rfl, by decide +kernel⟩ }

theorem number_lower {model : String} {r : ℕ} (h : 6 ≤ r) :
    Number (book model) "Weather resources" 'K' r ∧ Number (book model) "Weather resources" 'M' r ∧
    Number (book model) "Demand input" 'D' r ∧ Number (book model) "Demand input" 'E' r ∧
    Number (book model) "Demand input" 'F' r ∧ Number (book model) "Demand input" 'G' r := by
  have h1 : ¬ r ≤ 1 := by omega
  exact ⟨⟨10, if_neg h1⟩, ⟨10, if_neg h1⟩, ⟨_, if_neg h1⟩, ⟨2, if_neg h1⟩, ⟨60, if_neg h1⟩, ⟨55, if_neg h1⟩⟩

/-- The sample is filled in. -/
theorem filled {L : Libs} (hk : L.knownModule "Some_Module" = true) {model : String} (hm : model ∈ models) :
    Filled L (book model) := by
  refine
    { readable := readable model, weather := ⟨_, rfl, rfl⟩, air := fun r h _ => (number_lower h).1,
      water := fun r h _ => (number_lower h).2.1, demand := ⟨_, rfl, rfl⟩,
      source := fun r h _ => (number_lower h).2.2.2.2.2, ret := ⟨40, rfl⟩,
      battery := ⟨_, 6, rfl, Nat.le_refl 9, ⟨by decide, by decide, by decide, ?_⟩, ?_⟩,
      turbines := ⟨_, rfl, ⟨20, ⟨by decide, by decide, by decide, ?_⟩⟩,
        ⟨15, ⟨by decide, by decide, by decide, ?_⟩⟩, ?_⟩,
      pv := ⟨_, rfl, ⟨20, "Some Module", "Some Module", ⟨by decide, by decide, by decide, ?_⟩, rfl, rfl, hk⟩,
        ⟨16, ⟨by decide, by decide, by decide, ?_⟩⟩⟩,
      tank := ⟨_, rfl, by decide, by decide⟩, layers := ⟨5, rfl⟩, tankNumbers := ?_,
      hpType := ⟨.ashp, "ashp", rfl, by decide +kernel⟩,
      hpData := ⟨.integrated, "Integrated performance", rfl, by decide +kernel⟩, hpNumbers := ?_,
      duties := ?_, model := ?_, efficiency := ⟨1, rfl⟩,
      fuel := ⟨.gas, show fuelOf (text "Gas") = _ by decide +kernel, fun _ => ⟨10, by decide, by decide,
        show fuelOf (text "gas") = _ by decide +kernel, ?_, ⟨1, rfl⟩, ⟨1, rfl⟩⟩⟩,
      tariff := ⟨_, "Flat rates", rfl, rfl, by decide, fun _ => ⟨3, rfl⟩,
        fun h => absurd h (by decide), fun h => absurd h (by decide), fun h => absurd h (by decide)⟩ }
  · intro r h1 h2
    interval_cases r <;> decide
  · simp only [List.forall_mem_cons, List.not_mem_nil, false_implies, implies_true, and_true]
    exact ⟨⟨_, rfl⟩, ⟨_, rfl⟩, ⟨_, rfl⟩, ⟨_, rfl⟩, ⟨_, rfl⟩, ⟨_, rfl⟩, ⟨_, rfl⟩⟩
  · intro r h1 h2
    interval_cases r <;> decide
  · intro r h1 h2
    interval_cases r <;> decide
  · intro r hr
    have hr' : r ∈ [24, 25] := hr
    simp only [List.mem_cons, List.not_mem_nil, or_false] at hr'
    rcases hr' with rfl | rfl
    · exact ⟨fun t (h : num _ = _) => (nomatch h), fun t (h : num _ = _) => (nomatch h)⟩
    · exact ⟨fun t (h : num _ = _) => (nomatch h), fun t (h : num _ = _) => (nomatch h)⟩
  · intro r h1 h2
    interval_cases r <;> decide
  · intro r h1 h2
    interval_cases r <;> decide
  · simp only [List.forall_mem_cons, List.not_mem_nil, false_implies, implies_true, and_true]
    exact ⟨⟨_, rfl⟩, ⟨_, rfl⟩, ⟨_, rfl⟩, ⟨_, rfl⟩, ⟨_, rfl⟩, ⟨_, rfl⟩, ⟨_, rfl⟩, ⟨_, rfl⟩⟩
  · simp only [List.forall_mem_cons, List.not_mem_nil, false_implies, implies_true, and_true]
    exact ⟨⟨_, rfl⟩, ⟨_, rfl⟩, ⟨_, rfl⟩, ⟨_, rfl⟩⟩
  · intro col hcol r hr t ht
    have hr' : 27 ≤ r ∧ r ≤ 47 := by omega
    obtain ⟨h1, h2⟩ := hr'
    simp only [List.mem_cons, List.not_mem_nil, or_false] at hcol
    rcases hcol with rfl | rfl <;> interval_cases r <;> cases ht
  · simp only [models, List.mem_cons, List.not_mem_nil, or_false] at hm
    have hl : ∀ model, ∀ r ∈ [15, 16, 17, 18, 19, 20], Number (book model) "Heat pump" 'D' r := by
      intro model
      simp only [List.forall_mem_cons, List.not_mem_nil, false_implies, implies_true, and_true]
      exact ⟨⟨20, rfl⟩, ⟨20, rfl⟩, ⟨20, rfl⟩, ⟨20, rfl⟩, ⟨20, rfl⟩, ⟨20, rfl⟩⟩
    rcases hm with rfl | rfl | rfl
    · exact ⟨.simple, ⟨_, rfl, by decide +kernel⟩, by decide, fun _ => ⟨3, rfl⟩, fun _ => hl _,
        fun _ => ⟨_, rfl, tables _⟩⟩
    · exact ⟨.lorentz, ⟨_, rfl, by decide +kernel⟩, by decide, fun _ => ⟨3, rfl⟩, fun _ => hl _,
        fun _ => ⟨_, rfl, tables _⟩⟩
    · exact ⟨.standard, ⟨_, rfl, by decide +kernel⟩, by decide, fun _ => ⟨3, rfl⟩, fun _ => hl _,
        fun _ => ⟨_, rfl, tables _⟩⟩
  · intro r h1 h2
    interval_cases r
    show fuelOf (text "Kerosene") ≠ _
    decide +kernel

theorem objects_made {L : Libs} (hk : L.knownModule "Some_Module" = true) {model : String}
    (hm : model ∈ models) (size : ℤ × ℤ) : ∃ o, objects L (book model) size = .ok o :=
  (C94_filled size (top model) (tail_of_height (pump_sheet model) (Nat.le_refl 47))).mpr (filled hk hm)

theorem userRow {s : Pandas.Sheet} (model : String) (hs : book model "Wind inputs" = some s) :
    FirstComplete s [19] [0, 1] 20 := by
  cases Option.some.inj hs
  refine ⟨by decide, by decide, by decide, fun r h1 h2 => ?_⟩
  interval_cases r <;> decide

theorem databaseRow {s : Pandas.Sheet} (model : String) (hs : book model "Wind inputs" = some s) :
    FirstComplete s [14, 19, 20] [0, 1, 6] 15 := by
  cases Option.some.inj hs
  refine ⟨by decide, by decide, by decide, fun r h1 h2 => ?_⟩
  interval_cases r <;> decide

theorem pvRow {s : Pandas.Sheet} (model : String) (hs : book model "PV inputs" = some s) :
    FirstComplete s [19] [0, 1] 20 := by
  cases Option.some.inj hs
  refine ⟨by decide, by decide, by decide, fun r h1 h2 => ?_⟩
  interval_cases r <;> decide

/-- There are no turbines and no panels. -/
theorem no_power {L : Libs} {model : String} {size : ℤ × ℤ} {o : Objects}
    (h : objects L (book model) size = .ok o) :
    userSeries L o.windUser = .ok (List.replicate 8760 0) ∧
    databaseSeries L o.windDatabase = .ok (List.replicate 8760 0) ∧
    pvSeries L o.pv = .ok (List.replicate 8760 0) := by
  obtain ⟨s, hs, ⟨r1, f1, -, -, -, m1, -⟩, -, ⟨r2, f2, -, -, -, m2⟩⟩ := C91_turbines (top model) h
  obtain ⟨s', hs', ⟨r3, _, f3, -, -, m3, -⟩, -⟩ := C91_pv_partial (top model) h
  cases firstComplete_unique f1 (userRow model hs)
  cases firstComplete_unique f2 (databaseRow model hs)
  cases firstComplete_unique f3 (pvRow model hs')
  have e1 : numOf o.windUser.multiplier = .ok 0 := by rw [m1]; rfl
  have e2 : numOf o.windDatabase.multiplier = .ok 0 := by rw [m2]; rfl
  have e3 : numOf o.pv.multiplier = .ok 0 := by rw [m3]; rfl
  refine ⟨?_, ?_, ?_⟩
  · unfold userSeries Renewables.userPower
    rw [e1, okBind, if_pos rfl, if_pos rfl]
    rfl
  · unfold databaseSeries Renewables.databasePower
    rw [e2, okBind, if_pos rfl, if_pos rfl]
    rfl
  · unfold pvSeries Renewables.pvPower
    rw [e3, okBind, if_pos rfl, if_pos rfl]

/-- The price is 3 at every hour. -/
theorem prices {L : Libs} {model : String} {size : ℤ × ℤ} {o : Objects} (c : Container)
    (h : objects L (book model) size = .ok o) :
    importPrices L c o.grid = .ok (List.replicate 8760 3) := by
  obtain ⟨G1, G2, -⟩ := C91_grid (top model) h
  obtain ⟨-, V1, -⟩ := C91_tariff h
  have htar : o.grid.tariff = "Flat rates" := by
    have := G1.symm.trans (show excel (book model) "Grid" 'D' 5 = some (.text "Flat rates") from rfl)
    exact Except.ok.inj (congrArg textOf this)
  obtain ⟨x, hx⟩ := Option.isSome_iff_exists.mp (V1.mpr (Or.inl htar))
  have hx3 : x = 3 := by
    have := (G2 x hx).symm.trans (show excel (book model) "Grid" 'C' 9 = some (.num 3) from rfl)
    exact Except.ok.inj (congrArg numOf this)
  unfold importPrices usesFarm importCostSeries flatRatesSeries
  rw [if_neg (by rw [htar]; decide), okBind]
  dsimp only
  rw [if_pos htar, hx, hx3]
  rfl

/-- The controller can start on the sample with the simple model. -/
theorem run_made {L : Libs} (hk : L.knownModule "Some_Module" = true) (size : ℤ × ℤ) :
    ∃ S, runInputs L (book "Simple") size = .ok S := by
  obtain ⟨o, ho⟩ := objects_made hk (model := "Simple") (by decide) size
  have ho' := ho
  unfold objects at ho'
  simp only [except_bind_ok] at ho'
  obtain ⟨c, hc, -⟩ := ho'
  obtain ⟨h1, h2, h3⟩ := no_power ho
  refine (C94_start (top _)).mpr ⟨c, o, hc, ho, ?_, ⟨5, rfl⟩, ⟨3, rfl⟩, ⟨1, rfl⟩, ⟨_, prices c ho⟩, ⟨_, h1⟩,
    ⟨_, h2⟩, ⟨_, h3⟩, Or.inr (Or.inl ⟨"Simple", rfl, by decide +kernel⟩)⟩
  simp only [List.forall_mem_cons, List.not_mem_nil, false_implies, implies_true, and_true]
  exact ⟨fun r h _ => (number_lower h).2.2.1, fun r h _ => (number_lower h).2.2.2.1,
    fun r h _ => (number_lower h).2.2.2.2.1⟩

end Sample
end Verif
