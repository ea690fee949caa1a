import Verif.Props.SampleObjects

/-!
# Properties C94 and C96 on sheets that are not of the size of the template
-/

set_option autoImplicit false

namespace Verif
open Pandas Workbook InputReader Enums Simulation Spec FixedOrder Tariff

/-- C94: a heat pump described by test data cannot be made from a sheet that has an entry to the right of
column S, or that ends above row 36. -/
theorem C94_stray_column {L : Libs} {wb : Pandas.Workbook} (size : ℤ × ℤ) {s : Pandas.Sheet}
    (ht : TopRowsEmpty wb) (he : TailEmpty wb) (hs : wb "Heat pump" = some s)
    (hm : Reads wb "Heat pump" 'D' 4 ModelName.standard) (hz : 19 < s.width ∨ s.height < 36) :
    ¬ ∃ o, objects L wb size = .ok o := by
  intro h
  obtain ⟨m, hr, -, -, -, hstd⟩ := ((C94_filled size ht he).mp h).model
  cases reads_unique hm hr
  obtain ⟨s', hs', T⟩ := hstd rfl
  cases Option.some.inj (hs.symm.trans hs')
  have h1 := T.width
  have h2 := T.height
  omega

namespace Sample

/-- The heat pump sheet of the sample cut off below row `h`, with `w` columns. -/
def cut (w h : ℕ) (model : String) : Pandas.Sheet :=
  ⟨w, h, fun r c => if h < r then none else (pump model).cell r c⟩

/-- The sample with this heat pump sheet. -/
def sized (w h : ℕ) (model : String) : Pandas.Workbook := fun name =>
  if name = "Heat pump" then some (cut w h model) else book model name

variable {w h : ℕ} {model : String}

theorem sized_top : TopRowsEmpty (sized w h model) := by
  intro name s hs k
  unfold sized at hs
  split_ifs at hs
  · cases Option.some.inj hs
    show (if h < 1 then none else none) = none
    split_ifs <;> rfl
  · exact top model name s hs k

theorem sized_tail : TailEmpty (sized w h model) := by
  intro s hs r c h1 _
  cases Option.some.inj hs
  exact if_pos h1

theorem cut_cell {r c : ℕ} (hr : r ≤ h) : (cut w h model).cell r c = (pump model).cell r c :=
  if_neg (by omega)

theorem sized_filled {L : Libs} (hk : L.knownModule "Some_Module" = true) (hm : model ∈ models)
    (hw : 19 ≤ w) (hh : 26 ≤ h)
    (hstd : Reads (book model) "Heat pump" 'D' 4 ModelName.standard → TestTables (cut w h model)) :
    Filled L (sized w h model) := by
  have F := filled hk hm
  have e : ∀ (col : Char) r, r ≤ h → excel (sized w h model) "Heat pump" col r =
      excel (book model) "Heat pump" col r := fun col r hr => cut_cell hr
  have hread : Readable (sized w h model) := { readable model with heatPump := ⟨_, rfl, hw, hh⟩ }
  have num : ∀ r, r ≤ h → Number (book model) "Heat pump" 'D' r →
      Number (sized w h model) "Heat pump" 'D' r := by
    intro r hr hn
    unfold Number Holds at *
    rw [e 'D' r hr]
    exact hn
  have rd : ∀ {α : Type} [StrEnum α] [DecidableEq α] (r : ℕ) (a : α), r ≤ h →
      Reads (book model) "Heat pump" 'D' r a → Reads (sized w h model) "Heat pump" 'D' r a := by
    intro α _ _ r a hr hn
    unfold Reads Says at *
    rw [e 'D' r hr]
    exact hn
  refine
    { readable := hread, weather := F.weather, air := F.air, water := F.water, demand := F.demand,
      source := F.source, ret := F.ret, battery := F.battery, turbines := F.turbines, pv := F.pv,
      tank := F.tank, layers := F.layers, tankNumbers := F.tankNumbers,
      hpType := F.hpType.imp fun p => rd 3 p (by omega), hpData := F.hpData.imp fun p => rd 9 p (by omega),
      hpNumbers := fun r hr => num r ?_ (F.hpNumbers r hr), duties := fun col hcol r hr t ht => ?_,
      model := ?_, efficiency := F.efficiency, fuel := F.fuel, tariff := ?_ }
  · simp only [List.mem_cons, List.not_mem_nil, or_false] at hr
    omega
  · by_cases hin : r ≤ h
    · unfold Says at ht
      rw [e col r hin] at ht
      exact F.duties col hcol r hr t ht
    · have : (cut w h model).cell r (col.toNat - 'A'.toNat) = none := if_pos (by omega)
      exact absurd (this.symm.trans ht) (by simp)
  · obtain ⟨m, h1, h2, h3, h4, -⟩ := F.model
    refine ⟨m, rd 4 m (by omega) h1, h2, fun x => num 12 (by omega) (h3 x), fun x r hr => num r ?_ (h4 x r hr),
      fun x => ⟨_, rfl, hstd (x ▸ h1)⟩⟩
    simp only [List.mem_cons, List.not_mem_nil, or_false] at hr
    omega
  · obtain ⟨s, t, h1, h2, T⟩ := F.tariff
    exact ⟨s, t, h1, h2, T.known, T.flat, T.periods, T.market, T.ppa⟩

/-- C94: with the simple model the heat pump sheet may be wider than the template, or stop before its tables. -/
example {L : Libs} (hk : L.knownModule "Some_Module" = true) (hw : 19 ≤ w) (hh : 26 ≤ h) (size : ℤ × ℤ) :
    ∃ o, objects L (sized w h "Simple") size = .ok o :=
  (C94_filled size sized_top sized_tail).mpr (sized_filled hk (by decide) hw hh fun hr =>
    absurd (reads_unique hr ⟨"Simple", rfl, (by decide +kernel : _ = Except.ok ModelName.simple)⟩) (by decide))

/-- C94: with test data one more column is one too many. -/
example {L : Libs} (size : ℤ × ℤ) : ¬ ∃ o, objects L (sized 20 47 "Standard test regression") size = .ok o :=
  C94_stray_column size sized_top sized_tail rfl ⟨_, rfl, by decide +kernel⟩ (.inl (Nat.lt_succ_self 19))

theorem short_tables : TestTables (cut 19 36 "Standard test regression") := by
  refine ⟨rfl, Nat.le_refl 36, ?_, ?_, ?_, ?_, ?_⟩
  · intro i hi h1 h2 h3 h4 h5
    interval_cases i <;> first | exact ⟨⟨20, rfl⟩, ⟨20, rfl⟩, ⟨20, rfl⟩, ⟨20, rfl⟩⟩ | cases h1
  · intro i hi _ _ _ _ _
    interval_cases i <;> exact ⟨⟨20, rfl⟩, ⟨20, rfl⟩, ⟨20, rfl⟩, ⟨20, rfl⟩⟩
  · intro i hi h1 _ _ _ _
    interval_cases i <;> cases h1
  · intro i hi h1 _ _ _ _
    interval_cases i <;> cases h1
  · decide +kernel

/-- C96: a sheet that ends at row 36 has the points of the upper two tables. -/
example {L : Libs} (hk : L.knownModule "Some_Module" = true) (size : ℤ × ℤ) :
    ∃ o data, objects L (sized 19 36 "Standard test regression") size = .ok o ∧
      o.heatPump.model = .standard data ∧ data.points.length = 15 := by
  obtain ⟨o, ho⟩ := (C94_filled (L := L) size sized_top sized_tail).mpr
    (sized_filled (w := 19) (h := 36) (model := "Standard test regression") hk (by decide) (by decide)
      (by decide) fun _ => short_tables)
  obtain ⟨-, -, -, -, -, -, ⟨u, m, u1, u2, -, -, -, u3⟩⟩ := C91_heat_pump ho
  cases says_inj u1 (show Says _ _ _ _ "Standard test regression" from rfl)
  cases Except.ok.inj (u2.symm.trans
    (show InputText.readEnum ModelName "Standard test regression" = .ok .standard by decide +kernel))
  obtain ⟨data, hd⟩ := u3 rfl
  obtain ⟨cap, -, c2⟩ := C96_test_points sized_top sized_tail ho rfl hd
  refine ⟨o, data, ho, hd, ?_⟩
  rw [c2]
  generalize (if cap = 0 then 0 else pyRound ((size.1 : ℚ) / cap) 2) = x
  rfl

end Sample
end Verif
