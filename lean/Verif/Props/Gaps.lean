import Verif.Props.SampleIgnored

/-!
# Property C95: an entry missing in the table of the battery, the panels or the turbines
-/

set_option autoImplicit false

namespace Verif
open Pandas Workbook InputReader Enums Simulation Spec FixedOrder Programme

/-- The tables whose first complete row counts: sheet, rows and columns that do not count. -/
def Spec.rowTables : List (String × List ℕ × List ℕ) :=
  [("Electrical storage", [5], [0, 1]), ("PV inputs", [19], [0, 1]),
   ("PV inputs", [15, 19, 20], [0, 1, 6, 7]), ("Wind inputs", [19], [0, 1]),
   ("Wind inputs", [14, 19, 20], [0, 1, 6])]

/-- C95: without a complete row in each of these tables nothing can be simulated. -/
theorem C95_complete_row {L : Libs} {wb : Pandas.Workbook} {size : ℤ × ℤ} {o : Objects}
    (ht : TopRowsEmpty wb) (h : objects L wb size = .ok o) :
    ∀ x ∈ Spec.rowTables, ∃ s row, wb x.1 = some s ∧ FirstComplete s x.2.1 x.2.2 row := by
  obtain ⟨s1, r1, h1, f1, -⟩ := C91_battery ht h
  obtain ⟨s2, h2, ⟨r2, _, f2, -⟩, ⟨r3, f3, -⟩⟩ := C91_pv_partial ht h
  obtain ⟨s4, h4, ⟨r4, f4, -⟩, -, ⟨r5, f5, -⟩⟩ := C91_turbines ht h
  simp only [Spec.rowTables, List.forall_mem_cons, List.not_mem_nil, false_implies, implies_true, and_true]
  exact ⟨⟨s1, r1, h1, f1⟩, ⟨s2, r2, h2, f2⟩, ⟨s2, r3, h2, f3⟩, ⟨s4, r4, h4, f4⟩, ⟨s4, r5, h4, f5⟩⟩

/-- C95: one stray entry to the right of such a table stops every run: every row of the table then has a gap
in the column of the stray entry, and the row of the stray entry has gaps elsewhere. -/
theorem C95_stray_entry_stops {L : Libs} {wb : Pandas.Workbook} {size : ℤ × ℤ} (ht : TopRowsEmpty wb)
    {x : String × List ℕ × List ℕ} (hx : x ∈ Spec.rowTables) {s : Pandas.Sheet} (hs : wb x.1 = some s)
    (hgap : ∀ r, 2 ≤ r → r ≤ s.height → r ∉ x.2.1 → ∃ k < s.width, k ∉ x.2.2 ∧ s.cell r k = none) :
    ¬ ∃ S, runInputs L wb size = .ok S := by
  rintro ⟨S, hS⟩
  obtain ⟨o, T⟩ := start_ok hS
  obtain ⟨s', row, hs', f⟩ := C95_complete_row ht T.objects x hx
  cases Option.some.inj (hs.symm.trans hs')
  obtain ⟨k, hk, hskip, he⟩ := hgap row f.inside.1 f.inside.2 f.notSkipped
  have := f.complete k hk hskip
  rw [he] at this
  cases this

/-- C95: a row with a gap is passed over without a word: the battery of the run is that of the next complete
row, whatever the row with the gap says. -/
theorem C95_gap_skips_row {L : Libs} {wb : Pandas.Workbook} {size : ℤ × ℤ} {o : Objects}
    (ht : TopRowsEmpty wb) (h : objects L wb size = .ok o) {s : Pandas.Sheet}
    (hs : wb "Electrical storage" = some s) {row : ℕ} (hrow : 6 ≤ row) (hin : row ≤ s.height)
    (hfull : FullRow s [0, 1] row)
    (hgap : ∀ r, 2 ≤ r → r < row → r ≠ 5 → ∃ k < s.width, k ∉ [0, 1] ∧ s.cell r k = none) :
    Holds wb "Electrical storage" 'C' row o.battery.capacity ∧
      Holds wb "Electrical storage" 'E' row o.battery.chargeMax ∧
      Holds wb "Electrical storage" 'F' row o.battery.dischargeMax := by
  obtain ⟨s', row', hs', f, h1, -, h3, h4, -⟩ := C91_battery ht h
  cases Option.some.inj (hs.symm.trans hs')
  have f' : FirstComplete s [5] [0, 1] row := by
    refine ⟨⟨by omega, hin⟩, ?_, hfull, fun r h2 hlt h5 hc => ?_⟩
    · rw [List.mem_singleton]; omega
    · obtain ⟨k, hk, hskip, he⟩ := hgap r h2 hlt (fun e => h5 (List.mem_singleton.mpr e))
      have := hc k hk hskip
      rw [he] at this
      cases this
  cases firstComplete_unique f f'
  exact ⟨h1, h3, h4⟩

namespace Sample

/-- The sample with a note in J4 beside the table of the battery. -/
def noted : Pandas.Workbook := fun name =>
  if name = "Electrical storage" then some (sheet 10 6 (fun r c =>
    if r = 4 ∧ c = 9 then text "lithium"
    else if r = 6 then [num 0, num 0, num 10, num (1 / 2), num 4, num 3, num (9 / 10), num (9 / 10),
      num (1 / 100)].getD c none else none))
  else book "Simple" name

/-- The sample with two batteries, the first without its self-discharge. -/
def twoBatteries : Pandas.Workbook := fun name =>
  if name = "Electrical storage" then some (sheet 9 7 (fun r c =>
    if r = 6 then [num 0, num 0, num 10, num (1 / 2), num 4, num 3, num (9 / 10), num (9 / 10)].getD c none
    else if r = 7 then [num 0, num 0, num 70, num (1 / 2), num 9, num 8, num (9 / 10), num (9 / 10),
      num (1 / 100)].getD c none else none))
  else book "Simple" name

theorem noted_top : TopRowsEmpty noted := by
  intro name s hs k
  unfold noted at hs
  split_ifs at hs
  · cases Option.some.inj hs; rfl
  · exact top "Simple" name s hs k

theorem two_top : TopRowsEmpty twoBatteries := by
  intro name s hs k
  unfold twoBatteries at hs
  split_ifs at hs
  · cases Option.some.inj hs; rfl
  · exact top "Simple" name s hs k

theorem two_readable : Readable twoBatteries :=
  { readable "Simple" with battery := ⟨_, rfl, by decide, by decide⟩ }

theorem two_filled {L : Libs} (hk : L.knownModule "Some_Module" = true) : Filled L twoBatteries :=
  let F := filled hk (model := "Simple") (by decide)
  { readable := two_readable, weather := F.weather, air := F.air, water := F.water, demand := F.demand,
    source := F.source, ret := F.ret,
    battery := ⟨_, 7, rfl, Nat.le_refl 9, ⟨by decide, by decide, by decide,
        fun r h1 h2 => by interval_cases r <;> decide⟩, by
      simp only [List.forall_mem_cons, List.not_mem_nil, false_implies, implies_true, and_true]
      exact ⟨⟨_, rfl⟩, ⟨_, rfl⟩, ⟨_, rfl⟩, ⟨_, rfl⟩, ⟨_, rfl⟩, ⟨_, rfl⟩, ⟨_, rfl⟩⟩⟩,
    turbines := F.turbines, pv := F.pv, tank := F.tank, layers := F.layers, tankNumbers := F.tankNumbers,
    hpType := F.hpType, hpData := F.hpData, hpNumbers := F.hpNumbers, duties := F.duties, model := F.model,
    efficiency := F.efficiency, fuel := F.fuel,
    tariff := ⟨_, "Flat rates", rfl, rfl, by decide, fun _ => ⟨3, rfl⟩,
        fun h => absurd h (by decide), fun h => absurd h (by decide), fun h => absurd h (by decide)⟩ }

end Sample

open Sample in
/-- C95: the sample runs, the sample with a note beside the table of the battery does not. -/
example {L : Libs} (hk : L.knownModule "Some_Module" = true) :
    (∃ S, runInputs L (book "Simple") (10, 0) = .ok S) ∧ ¬ ∃ S, runInputs L noted (10, 0) = .ok S := by
  refine ⟨run_made hk (10, 0), C95_stray_entry_stops noted_top
    (x := ("Electrical storage", [5], [0, 1])) (by decide) (s := _) rfl ?_⟩
  intro r h1 h2 h5
  have h2' : r ≤ 6 := h2
  interval_cases r
  · exact ⟨9, by decide, by decide, rfl⟩
  · exact ⟨9, by decide, by decide, rfl⟩
  · exact ⟨2, by decide, by decide, rfl⟩
  · exact ⟨9, by decide, by decide, rfl⟩
  · exact ⟨9, by decide, by decide, rfl⟩

open Sample in
/-- C95: of two batteries the second is used, because the first has no self-discharge written. -/
example {L : Libs} (hk : L.knownModule "Some_Module" = true) (size : ℤ × ℤ) :
    ∃ o, objects L twoBatteries size = .ok o ∧ o.battery.capacity = 70 ∧ o.battery.chargeMax = 9 := by
  obtain ⟨o, h⟩ := (C94_filled size two_top (tail_of_height (s := pump "Simple") rfl (Nat.le_refl 47))).mpr
    (two_filled hk)
  obtain ⟨h1, h2, -⟩ := C95_gap_skips_row two_top h (s := _) rfl (row := 7) (by decide) (by decide) (by decide)
    (fun r h1 h2 h3 => by interval_cases r <;> first | exact absurd rfl h3 | exact ⟨8, by decide, by decide, rfl⟩)
  exact ⟨o, h, holds_inj h1 rfl, holds_inj h2 rfl⟩

end Verif
