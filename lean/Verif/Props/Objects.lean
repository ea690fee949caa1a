import Verif.Lemmas.Needed
import Verif.Props.Template
import Verif.Props.Workbook

/-!
# Property C94: for which workbooks the objects of a combination can be made

The sheets are of any size; only what lies below the used range of the heat pump sheet is taken to be empty.
-/

set_option autoImplicit false

namespace Verif
open Pandas Workbook InputReader Enums Simulation Spec FixedOrder Tariff

namespace Spec

/-- The cell holds a number. -/
def Number (wb : Pandas.Workbook) (sheet : String) (col : Char) (row : ℕ) : Prop :=
  ∃ x, Holds wb sheet col row x

/-- The cell is empty or holds a number. -/
def NotText (wb : Pandas.Workbook) (sheet : String) (col : Char) (row : ℕ) : Prop :=
  ∀ t, ¬ Says wb sheet col row t

/-- The cell names the member `a` of an enumeration. -/
def Reads {α : Type} [StrEnum α] [DecidableEq α] (wb : Pandas.Workbook) (sheet : String) (col : Char)
    (row : ℕ) (a : α) : Prop := ∃ t, Says wb sheet col row t ∧ InputText.readEnum α t = .ok a

/-- If the four entries of a row of a test table and the flow temperature of the table are all there, then
the ambient temperature, the performance, the duty and the flow temperature are numbers. -/
def TestRow (s : Pandas.Sheet) (flow : Value) (c r : ℕ) : Prop :=
  (s.cell r c).isSome → (s.cell r (c + 1)).isSome → (s.cell r (c + 2)).isSome →
    (s.cell r (c + 3)).isSome → flow.isSome →
    (∃ x, s.cell r c = some (.num x)) ∧ (∃ x, s.cell r (c + 1) = some (.num x)) ∧
      (∃ x, s.cell r (c + 2) = some (.num x)) ∧ ∃ x, flow = some (.num x)

/-- The four test tables (C27:F34, G27:J34, C41:F47, G41:J47, measured at D23, H23, D36, H36) have numbers
in the rows that are filled in, and there is such a row. The sheet has the nineteen columns of the template
and no other, and reaches the second flow temperatures. -/
structure TestTables (s : Pandas.Sheet) : Prop where
  width : s.width = 19
  height : 36 ≤ s.height
  left : ∀ i < 8, TestRow s (s.cell 23 3) 2 (i + 27)
  right : ∀ i < 8, TestRow s (s.cell 23 7) 6 (i + 27)
  lowerLeft : ∀ i < 7, TestRow s (s.cell 36 3) 2 (i + 41)
  lowerRight : ∀ i < 7, TestRow s (s.cell 36 7) 6 (i + 41)
  some : testPoints s 1 ≠ []

/-- The numbers a tariff uses are on the sheet "Grid". -/
structure TariffFilled (wb : Pandas.Workbook) (s : Pandas.Sheet) (t : String) : Prop where
  known : t ∈ ["Flat rates", "Variable periods", "Time of use - WM", "Time of use - PPA + FR",
    "Time of use - PPA + WM", "Time of use - PPA + VP"]
  flat : t = "Flat rates" ∨ t = "Time of use - PPA + FR" → Number wb "Grid" 'C' 9
  periods : t = "Variable periods" ∨ t = "Time of use - PPA + VP" →
    (∃ y : ℤ, Holds wb "Grid" 'N' 42 y) ∧ ∀ h < 24, ∀ d, Number wb "Grid" (dayLetter d) (18 + h)
  market : t = "Time of use - WM" ∨ t = "Time of use - PPA + WM" → Number wb "Grid" 'G' 9 ∧
    Number wb "Grid" 'H' 9 ∧ ∀ r, 12 ≤ r → r ≤ s.height → r ≤ 8771 → Number wb "Grid" 'C' r
  ppa : t ∈ Spec.ppa → ∀ col ∈ ['J', 'K', 'L', 'M'], Number wb "Grid" col 9

/-- Everything the objects need is filled in. -/
structure Filled (L : Libs) (wb : Pandas.Workbook) : Prop where
  readable : Readable wb
  weather : ∃ s, wb "Weather resources" = some s ∧ s.height = 8765
  air : ∀ r, 6 ≤ r → r ≤ 8765 → Number wb "Weather resources" 'K' r
  water : ∀ r, 6 ≤ r → r ≤ 8765 → Number wb "Weather resources" 'M' r
  demand : ∃ s, wb "Demand input" = some s ∧ s.height = 8765
  source : ∀ r, 6 ≤ r → r ≤ 8765 → Number wb "Demand input" 'G' r
  ret : Number wb "Demand input" 'I' 6
  battery : ∃ s row, wb "Electrical storage" = some s ∧ 9 ≤ s.width ∧ FirstComplete s [5] [0, 1] row ∧
    ∀ col ∈ ['C', 'D', 'E', 'F', 'G', 'H', 'I'], Number wb "Electrical storage" col row
  turbines : ∃ s, wb "Wind inputs" = some s ∧ (∃ row, FirstComplete s [19] [0, 1] row) ∧
    (∃ row, FirstComplete s [14, 19, 20] [0, 1, 6] row) ∧
    ∀ r ∈ completeRows s [14, 15, 19, 20, 23] [0, 1, 4, 5, 6],
      NotText wb "Wind inputs" 'C' r ∧ NotText wb "Wind inputs" 'D' r
  pv : ∃ s, wb "PV inputs" = some s ∧
    (∃ row m i, FirstComplete s [19] [0, 1] row ∧ Says wb "PV inputs" 'C' row m ∧
      Says wb "PV inputs" 'D' row i ∧ L.knownModule (pvName m) = true) ∧
    ∃ row, FirstComplete s [15, 19, 20] [0, 1, 6, 7] row
  tank : Reaches wb "Thermal storage" 'N' 23
  layers : ∃ n : ℕ, Holds wb "Thermal storage" 'D' 8 n
  tankNumbers : ∀ r ∈ [14, 15, 16, 17, 18, 19, 22, 23], Number wb "Thermal storage" 'D' r
  hpType : ∃ p : HPType, Reads wb "Heat pump" 'D' 3 p
  hpData : ∃ d : DataInput, Reads wb "Heat pump" 'D' 9 d
  hpNumbers : ∀ r ∈ [5, 6, 7, 8], Number wb "Heat pump" 'D' r
  duties : ∀ col ∈ ['E', 'I'], ∀ r, 27 ≤ r ∧ r ≤ 34 ∨ 41 ≤ r ∧ r ≤ 47 → NotText wb "Heat pump" col r
  model : ∃ m : ModelName, Reads wb "Heat pump" 'D' 4 m ∧ m ≠ .generic ∧
    (m = .simple → Number wb "Heat pump" 'D' 12) ∧
    (m = .lorentz → ∀ r ∈ [15, 16, 17, 18, 19, 20], Number wb "Heat pump" 'D' r) ∧
    (m = .standard → ∃ s, wb "Heat pump" = some s ∧ TestTables s)
  efficiency : Number wb "Aux heat" 'D' 6
  fuel : ∃ fuel, fuelOf (excel wb "Aux heat" 'C' 6) = .ok fuel ∧ (fuel ≠ .electric → ∃ row, 9 ≤ row ∧
    row ≤ 11 ∧ fuelOf (excel wb "Aux heat" 'C' row) = .ok fuel ∧
    (∀ r, row < r → r ≤ 11 → fuelOf (excel wb "Aux heat" 'C' r) ≠ .ok fuel) ∧
    Number wb "Aux heat" 'D' row ∧ Number wb "Aux heat" 'E' row)
  tariff : ∃ s t, wb "Grid" = some s ∧ Says wb "Grid" 'D' 5 t ∧ TariffFilled wb s t

end Spec

theorem testPoints_empty (s : Pandas.Sheet) (r : ℚ) : testPoints s r = [] ↔ testPoints s 1 = [] := by
  have key : ∀ (l : List ℕ) (v : Value) (c : ℕ),
      l.filterMap (testPoint s r v c) = [] ↔ l.filterMap (testPoint s 1 v c) = [] := by
    intro l v c
    rw [List.filterMap_eq_nil_iff, List.filterMap_eq_nil_iff]
    refine forall_congr' fun i => imp_congr_right fun _ => ?_
    unfold testPoint
    split <;> simp
  unfold testPoints
  simp only [List.append_eq_nil_iff, key]

theorem filled_objects {L : Libs} {wb : Pandas.Workbook} {size : ℤ × ℤ}
    (ht : TopRowsEmpty wb) (he : TailEmpty wb) (F : Filled L wb) : ∃ o, objects L wb size = .ok o := by
  obtain ⟨b, hr⟩ := (C92_readable ht).mpr F.readable
  have R := readInputs_ok hr
  -- sizes
  obtain ⟨s, hs, hf1⟩ := R.heatPump
  obtain ⟨hwidth, hheight⟩ := (heatPump_iff (blank ht hs)).mp ⟨_, hf1⟩
  obtain ⟨s2, hw2, hf2⟩ := R.thermalStorage
  obtain ⟨s2', hw2', _, hh2⟩ := F.tank
  cases Option.some.inj (hw2.symm.trans hw2')
  have hcap := F.hpNumbers
  unfold Number Holds at hcap
  simp only [excel_eq hs, List.forall_mem_cons, List.not_mem_nil, false_implies, implies_true,
    and_true] at hcap
  obtain ⟨hcap5, ⟨adt, hadt⟩, ⟨mrt, hmrt⟩, ⟨mot, hmot⟩⟩ := hcap
  have hdut := F.duties
  unfold NotText Says at hdut
  simp only [excel_eq hs] at hdut
  obtain ⟨c, hc⟩ := resize_total size (blank ht hs) hf1 hf2 hwidth hheight hh2 hcap5
    (fun i hi => ⟨hdut 'E' (by simp) (i + 27) (by omega), hdut 'I' (by simp) (i + 27) (by omega)⟩)
    (fun i hi => ⟨hdut 'E' (by simp) (i + 41) (by omega), hdut 'I' (by simp) (i + 41) (by omega)⟩)
  obtain ⟨-, e1, e2, e3, e4, e5, e6, e7, e8, e9, -, -, e12, e13, e14, e15, e16, e17, e18⟩ := resize_rest hc
  -- turbines
  obtain ⟨s3, hw3, ⟨row3, hrow3⟩, ⟨row3', hrow3'⟩, hcurve⟩ := F.turbines
  obtain ⟨s3', hw3', g1, g2, g3⟩ := R.wind
  cases Option.some.inj (hw3.symm.trans hw3')
  obtain ⟨s3'', hw3'', hwd3, -⟩ := F.readable.wind
  cases Option.some.inj (hw3.symm.trans hw3'')
  unfold NotText Says at hcurve
  simp only [excel_eq hw3] at hcurve
  obtain ⟨curve, hu⟩ := user_total (c := c) (blank ht hw3) (e8 ▸ g2) (e9 ▸ g3) hwd3 hrow3 hcurve
  have hdb := database_total (c := c) (blank ht hw3) (e7 ▸ g1) (le_trans (by decide) hwd3) hrow3'
  -- weather
  obtain ⟨s4, hw4, hh4⟩ := F.weather
  obtain ⟨s4', hw4', g4⟩ := R.resources
  cases Option.some.inj (hw4.symm.trans hw4')
  obtain ⟨s4'', hw4'', hwd4, -⟩ := F.readable.weather
  cases Option.some.inj (hw4.symm.trans hw4'')
  obtain ⟨w, hwe, hwcol⟩ := weather_total (c := c) (blank ht hw4) (e2 ▸ g4) (le_trans (by decide) hwd4)
  have ha1 := hwcol ("air_temperature", 10) (by simp [weatherColumns])
  have ha2 := hwcol ("water_temperature", 12) (by simp [weatherColumns])
  have hair := F.air
  have hwater := F.water
  unfold Number Holds at hair hwater
  simp only [excel_eq hw4] at hair hwater
  obtain ⟨air, hn1, hl1⟩ := numbers_total (n := s4.height - 5) (g := fun t => s4.cell (t + 6) 10)
    (fun t htt => hair (t + 6) (by omega) (by omega))
  obtain ⟨water, hn2, hl2⟩ := numbers_total (n := s4.height - 5) (g := fun t => s4.cell (t + 6) 12)
    (fun t htt => hwater (t + 6) (by omega) (by omega))
  -- demand
  obtain ⟨s5, hw5, hh5⟩ := F.demand
  obtain ⟨s5', hw5', g5⟩ := R.demandInput
  cases Option.some.inj (hw5.symm.trans hw5')
  obtain ⟨s5'', hw5'', hwd5, -⟩ := F.readable.demandInput
  cases Option.some.inj (hw5.symm.trans hw5'')
  have hd := demands_total (c := c) (blank ht hw5) (e3 ▸ e4 ▸ g5) (le_trans (by decide) hwd5)
  have hsrc := F.source
  unfold Number Holds at hsrc
  simp only [excel_eq hw5] at hsrc
  obtain ⟨source, hn3, hl3⟩ := numbers_total (n := s5.height - 5) (g := fun t => s5.cell (t + 6) 6)
    (fun t htt => hsrc (t + 6) (by omega) (by omega))
  obtain ⟨ret, hret⟩ := F.ret
  unfold Holds at hret
  rw [excel_eq hw5] at hret
  -- photovoltaics
  obtain ⟨s6, hw6, ⟨row6, m6, i6, hrow6, hm6, hi6, hk6⟩, ⟨row6', hrow6'⟩⟩ := F.pv
  obtain ⟨s6', hw6', g6, g6'⟩ := R.pv
  cases Option.some.inj (hw6.symm.trans hw6')
  obtain ⟨s6'', hw6'', hwd6, -⟩ := F.readable.pv
  cases Option.some.inj (hw6.symm.trans hw6'')
  unfold Says at hm6 hi6
  rw [excel_eq hw6] at hm6 hi6
  obtain ⟨pd, hpd, pvo, hpv⟩ := pv_total (c := c) (L := L) w (blank ht hw6) (e5 ▸ g6) (e6 ▸ g6') hwd6
    hrow6 hm6 hi6 hk6 hrow6'
  -- tank
  obtain ⟨cap, basics, r1, r2, r3, r4, ts, -, hset, k1, k2, k3, k4, hset', hceq⟩ := resizeContainer_ok hc
  have hsetb : b.heatPump.basics.setCell (.pos 0) (.named "capacity") (some (.num size.1)) =
      .ok c.heatPump.basics := by rw [hceq]; exact hset
  have hsett : b.thermalStorage.setCell (.pos 0) (.named "capacity") (some (.num size.2)) =
      .ok c.thermalStorage := by rw [hceq]; exact hset'
  obtain ⟨n, hn⟩ := F.layers
  have htn := F.tankNumbers
  unfold Number Holds at htn
  unfold Holds at hn
  simp only [excel_eq hw2] at htn hn
  obtain ⟨ti, hti, tk, htk⟩ := thermal_total (c := c) (L := L) air hf2 hsett hh2 hn htn
  -- heat pump
  obtain ⟨hb1, -, hb2, hb3, t1, t2, t3, t4, q1, q2, q3, q4⟩ := heatPump_ok hf1
  obtain ⟨pt, a1, ha1t, ha1r⟩ := F.hpType
  obtain ⟨pdt, a3, ha3t, ha3r⟩ := F.hpData
  obtain ⟨pm, ⟨a2, ha2t, ha2r⟩, hgen, hsim, hlor, hstd⟩ := F.model
  unfold Says at ha1t ha2t ha3t
  rw [excel_eq hs] at ha1t ha2t ha3t
  have hbas := basics_total (c := c) hb1 hsetb (by omega) ha1t ha1r ha2t ha2r ha3t ha3r
  have hsc : Scaled s (Para.ratio size.1 cap) c.heatPump := by
    rw [hceq]
    exact ⟨⟨_, q1, k1⟩, ⟨_, q2, k2⟩, ⟨_, q3, k3⟩, ⟨_, q4, k4⟩, t1, t2, t3, t4⟩
  have hmc : ModelCells s (Para.ratio size.1 cap) pm := by
    refine ⟨hgen, ?_, ?_, ?_⟩
    · intro h
      have := hsim h
      unfold Number Holds at this
      rw [excel_eq hs] at this
      exact this
    · intro h
      have := hlor h
      unfold Number Holds at this
      simp only [excel_eq hs] at this
      exact this
    · intro h
      obtain ⟨s', hs', T⟩ := hstd h
      cases Option.some.inj (hs.symm.trans hs')
      exact ⟨T.width, T.height, ⟨T.left, T.right, T.lowerLeft, T.lowerRight⟩, fun h0 => T.some ((testPoints_empty _ _).mp h0)⟩
  obtain ⟨args, hargs, hpo, hpoc⟩ := hp_total (w := w)
    (b := ⟨pt, some (.num size.1), pm, s.cell 6 3, s.cell 7 3, pdt, s.cell 8 3⟩) (adt := adt) (cap := size.1)
    (ret := ret) (blank ht hs) hheight (he s hs) hsc (e17 ▸ hb2) (e18 ▸ hb3) hd rfl hn3
    (congrArg Except.ok hret) ha1 hn1 ha2 hn2 rfl hadt (by omega) (by omega) (by omega) hmc
  -- battery
  obtain ⟨s7, row7, hw7, hwd7, hrow7, hn7⟩ := F.battery
  obtain ⟨s7', hw7', g7⟩ := R.electricalStorage
  cases Option.some.inj (hw7.symm.trans hw7')
  unfold Number Holds at hn7
  simp only [excel_eq hw7, List.forall_mem_cons, List.not_mem_nil, false_implies, implies_true,
    and_true] at hn7
  obtain ⟨bat, hbat⟩ := battery_total (c := c) (blank ht hw7) (e12 ▸ g7) hrow7 hwd7 (by
    simp only [List.forall_mem_cons, List.not_mem_nil, false_implies, implies_true, and_true]
    exact hn7)
  -- heater
  obtain ⟨s8, hw8, g8⟩ := R.aux
  obtain ⟨fuel, hfuel, hftab⟩ := F.fuel
  have heff := F.efficiency
  unfold Number Holds at heff hftab
  simp only [excel_eq hw8] at heff hfuel hftab
  obtain ⟨ax, hax⟩ := aux_total (c := c) (e14 ▸ e15 ▸ e16 ▸ g8) heff hfuel hftab
  -- grid
  obtain ⟨s9, t9, hw9, ht9, T⟩ := F.tariff
  obtain ⟨s9', hw9', g9⟩ := R.grid
  cases Option.some.inj (hw9.symm.trans hw9')
  obtain ⟨s9'', hw9'', hwd9, -⟩ := F.readable.grid
  cases Option.some.inj (hw9.symm.trans hw9'')
  unfold Says at ht9
  rw [excel_eq hw9] at ht9
  have hT : TariffCells s9 t9 := by
    obtain ⟨u1, u2, u3, u4, u5⟩ := T
    unfold Number Holds at u2 u3 u4 u5
    simp only [excel_eq hw9] at u2 u3 u4 u5
    refine ⟨u1, u2, ?_, ?_, ?_⟩
    · intro h
      obtain ⟨hy, hp⟩ := u3 h
      exact ⟨hy, fun h' hh' d => by rw [Nat.add_comm]; exact hp h' hh' d⟩
    · intro h
      obtain ⟨v1, v2, v3⟩ := u4 h
      exact ⟨v1, v2, fun r h1 h2 h3 => v3 r h1 h2 (by omega)⟩
    · intro h
      have := u5 (by simp only [Spec.ppa, List.mem_cons, List.not_mem_nil, or_false]; exact h)
      simp only [List.forall_mem_cons, List.not_mem_nil, false_implies, implies_true, and_true] at this ⊢
      exact this
  obtain ⟨gr, hgr⟩ := grid_total g9 (blank ht hw9) hwd9 ht9 hT
  unfold objects containerOf
  rw [hr, okBind, hc, okBind]
  unfold init
  rw [← e13] at hgr
  have hmrt' : numOf (s.cell 7 3) = .ok mrt := congrArg numOf hmrt
  have hmot' : numOf (s.cell 8 3) = .ok mot := congrArg numOf hmot
  simp only [hu, hwe, okBind, hdb, dict_cons, reduceIte, String.reduceEq, hpd, hpv, ha1, hn1, hti, htk, hbas,
    hargs, hpoc, hmrt', hmot', hbat, hax, hgr]
  exact ⟨_, rfl⟩

theorem hourly_numbers {wb : Pandas.Workbook} {sheet : String} {col : Char} {xs : List ℚ}
    (h : Hourly wb sheet col 6 xs) (hl : xs.length = 8760) :
    (∃ s, wb sheet = some s ∧ s.height = 8765) ∧
      ∀ r, 6 ≤ r → r ≤ 8765 → Number wb sheet col r := by
  obtain ⟨s, hw, hlen, hx⟩ := h
  refine ⟨⟨s, hw, by omega⟩, fun r h1 h2 => ?_⟩
  have hlt : r - 6 < xs.length := by omega
  have := hx (r - 6) xs[r - 6] (List.getElem?_eq_getElem hlt)
  rw [show 6 + (r - 6) = r by omega] at this
  exact ⟨_, this⟩

theorem objects_filled {L : Libs} {wb : Pandas.Workbook} {size : ℤ × ℤ} {o : Objects}
    (ht : TopRowsEmpty wb) (he : TailEmpty wb) (h : objects L wb size = .ok o) : Filled L wb := by
  obtain ⟨air, water, source, ret, A1, A2, A3, A4, l1, l2, l3, -⟩ := C93_temperatures ht h
  obtain ⟨K1, K2⟩ := hourly_numbers A1 l1
  obtain ⟨-, K4⟩ := hourly_numbers A2 l2
  obtain ⟨K5, K6⟩ := hourly_numbers A3 l3
  obtain ⟨-, T1, -, -, ⟨fi, fe, T2, T3, -⟩, ⟨a, da, u, du, i, di, T4, T5, T6, T7, T8, T9, -⟩⟩ := C91_tank h
  obtain ⟨-, H6, H7, H8, ⟨p1, q1, P1, Q1, -⟩, ⟨p2, q2, P2, Q2, -⟩, ⟨p3, q3, P3, Q3, hgen, hsim, hlor, -⟩⟩ :=
    C91_heat_pump h
  obtain ⟨fuel, F1, F2, -, F3⟩ := C91_heater h
  obtain ⟨s7, row7, hw7, hrow7, B1, B2, B3, B4, B5, B6, B7⟩ := C91_battery ht h
  obtain ⟨s3, hw3, ⟨row3, hrow3, -⟩, -, ⟨row3', hrow3', -⟩⟩ := C91_turbines ht h
  obtain ⟨G1, G2, G3, G4, G5, G6, G7, G8, G9, G10, G11⟩ := C91_grid ht h
  obtain ⟨V0, V1, V2, V3, V4, V5, V6, V7, V8, V9, V10⟩ := C91_tariff h
  obtain ⟨b, c, hr, hre, ho⟩ := objects_ok h
  have R := readInputs_ok hr
  have hread : Readable wb := (C92_readable ht).mp ⟨b, hr⟩
  obtain ⟨-, e1, e2, e3, e4, e5, e6, e7, e8, e9, -, -, e12, e13, e14, e15, e16, e17, e18⟩ := resize_rest hre
  obtain ⟨cap, basics, r1, r2, r3, r4, ts, hcap, hset, k1, k2, k3, k4, hset', hceq⟩ := resizeContainer_ok hre
  have M := init_ok ho
  obtain ⟨uu, curve, hu, -⟩ := M.user
  obtain ⟨w, hwe, -, -, ⟨pd, hpd, hpv⟩, ⟨-, -, ti, -, -, hti, -⟩, ⟨bs, args, hbs, hargs, hcon, -⟩⟩ := M.weather
  -- heat pump
  obtain ⟨s, hs, hf1⟩ := R.heatPump
  obtain ⟨hwidth, hheight⟩ := (heatPump_iff (blank ht hs)).mp ⟨_, hf1⟩
  obtain ⟨hb1, -, hb2, hb3, t1, t2, t3, t4, q1', q2', q3', q4'⟩ := heatPump_ok hf1
  have hb := blank ht hs
  obtain ⟨tb1, tb2, tb3, tb4⟩ := tables hb hwidth hheight q1' q2' q3' q4'
  have d1 := scaleDuty_noText tb1 k1
  have d2 := scaleDuty_noText tb2 k2
  have d3 := scaleDuty_noText tb3 k3
  have d4 := scaleDuty_noText tb4 k4
  have hsc : Scaled s (Para.ratio size.1 cap) c.heatPump := by
    rw [hceq]
    exact ⟨⟨_, q1', k1⟩, ⟨_, q2', k2⟩, ⟨_, q3', k3⟩, ⟨_, q4', k4⟩, t1, t2, t3, t4⟩
  have hsetb : b.heatPump.basics.setCell (.pos 0) (.named "capacity") (some (.num size.1)) =
      .ok c.heatPump.basics := by rw [hceq]; exact hset
  have hsett : b.thermalStorage.setCell (.pos 0) (.named "capacity") (some (.num size.2)) =
      .ok c.thermalStorage := by rw [hceq]; exact hset'
  have H5 : Holds wb "Heat pump" 'D' 5 cap := by
    have hB := basics_at hb1
    unfold Holds
    rw [excel_eq hs]
    obtain ⟨i, j, hj, hi, hv⟩ := get_ok hcap
    rw [hB.row] at hi
    cases Option.some.inj hi
    have := hB.col ("capacity", 5) (by decide) j hj
    subst this
    rw [hB.cell] at hv
    exact hv.symm
  have hstd : q3 = .standard → TestTables s := by
    intro hq
    have happ : bs.approach = .standard := by
      obtain ⟨-, -, -, -, -, ⟨t, ht1, ht2⟩, -⟩ := basics_cells hb1 hsetb hbs
      unfold Says at P3
      rw [excel_eq hs] at P3
      have hpt : p3 = t := by
        have := P3.symm.trans ht1
        injection this with this
        injection this
      rw [hpt, ht2] at Q3
      rw [Except.ok.inj Q3, hq]
    have A := hpArgs_ok hargs
    obtain ⟨x, cosp, duty, data, z1, z2, z3⟩ := A.standard happ
    have hc := built_standard hcon (by rw [A.approach, happ]) z3
    have h19 := standard_width hb hwidth hheight hsc z1 z2 hc
    obtain ⟨hp, h36⟩ := standard_numeric hb h19 hheight (he s hs) hsc z1 z2
    have hn := standard_some hb h19 hheight (he s hs) hsc z1 z2 hc
    exact ⟨h19, h36, hp.left, hp.right, hp.lowerLeft, hp.lowerRight, fun h0 => hn ((testPoints_empty _ _).mpr h0)⟩
  -- tank
  obtain ⟨s2, hw2, hf2⟩ := R.thermalStorage
  have hh2 := thermal_height hf2 hsett hti
  obtain ⟨s2', hw2', hwd2, -⟩ := hread.thermal
  cases Option.some.inj (hw2.symm.trans hw2')
  -- photovoltaics
  obtain ⟨s6, hw6, g6, g6'⟩ := R.pv
  obtain ⟨-, hkn, -, ⟨row6, m6, hrow6, hm6, hnm, -⟩, ⟨row6', hrow6', -⟩⟩ :=
    pv_rows (blank ht hw6) (e5 ▸ g6) (e6 ▸ g6') hpd hpv
  obtain ⟨row6'', i6, hrow6'', hi6⟩ := pv_inverter (blank ht hw6) (e6 ▸ g6') hpd hpv
  cases firstComplete_unique hrow6 hrow6''
  -- turbines
  obtain ⟨s3', hw3', g1, g2, g3⟩ := R.wind
  cases Option.some.inj (hw3.symm.trans hw3')
  have hcurve := curve_noText (c := c) (blank ht hw3) (e9 ▸ g3) hu
  -- battery
  obtain ⟨s7', hw7', g7⟩ := R.electricalStorage
  cases Option.some.inj (hw7.symm.trans hw7')
  have hwd7 := battery_width (blank ht hw7) (e12 ▸ g7) M.battery
  -- grid
  obtain ⟨s9, hw9, g9⟩ := R.grid
  obtain ⟨s9', hw9', hwd9, hh9⟩ := hread.grid
  cases Option.some.inj (hw9.symm.trans hw9')
  have GF := makeGrid_ok M.grid
  rw [e13] at GF
  have GC := grid_cells g9
  refine
    { readable := hread, weather := K1, air := K2, water := K4, demand := K5, source := K6,
      ret := ⟨ret, A4⟩, battery := ⟨s7, row7, hw7, hwd7, hrow7, ?_⟩,
      turbines := ⟨s3, hw3, ⟨row3, hrow3⟩, ⟨row3', hrow3'⟩, ?_⟩,
      pv := ⟨s6, hw6, ⟨row6, m6, i6, hrow6, ?_, ?_, hnm ▸ hkn⟩, row6', hrow6'⟩,
      tank := ⟨s2, hw2, hwd2, hh2⟩, layers := ⟨_, T1⟩, tankNumbers := ?_,
      hpType := ⟨q1, p1, P1, Q1⟩, hpData := ⟨q2, p2, P2, Q2⟩, hpNumbers := ?_, duties := ?_,
      model := ⟨q3, ⟨p3, P3, Q3⟩, hgen, ?_, ?_, fun hq => ⟨s, hs, hstd hq⟩⟩,
      efficiency := ⟨_, F2⟩, fuel := ⟨fuel, F1, ?_⟩, tariff := ⟨s9, o.grid.tariff, hw9, G1, ?_⟩ }
  · simp only [List.forall_mem_cons, List.not_mem_nil, false_implies, implies_true, and_true]
    exact ⟨⟨_, B1⟩, ⟨_, B2⟩, ⟨_, B3⟩, ⟨_, B4⟩, ⟨_, B5⟩, ⟨_, B6⟩, ⟨_, B7⟩⟩
  · unfold NotText Says
    simp only [excel_eq hw3]
    exact hcurve
  · unfold Says
    rw [excel_eq hw6]
    exact hm6
  · unfold Says
    rw [excel_eq hw6]
    exact hi6
  · simp only [List.forall_mem_cons, List.not_mem_nil, false_implies, implies_true, and_true]
    exact ⟨⟨_, T4⟩, ⟨_, T5⟩, ⟨_, T6⟩, ⟨_, T7⟩, ⟨_, T8⟩, ⟨_, T9⟩, ⟨_, T2⟩, ⟨_, T3⟩⟩
  · simp only [List.forall_mem_cons, List.not_mem_nil, false_implies, implies_true, and_true]
    exact ⟨⟨_, H5⟩, ⟨_, H6⟩, ⟨_, H7⟩, ⟨_, H8⟩⟩
  · unfold NotText Says
    simp only [excel_eq hs, List.forall_mem_cons, List.not_mem_nil, false_implies, implies_true, and_true]
    refine ⟨fun r hr => ?_, fun r hr => ?_⟩
    · rcases hr with hr | hr
      · by_cases hin : r ≤ s.height
        · have := d1 (r - 27) (by omega)
          rw [show r - 27 + 27 = r by omega] at this
          exact this
        · intro t ht
          exact absurd ((he s hs r _ (by omega) (by omega)).symm.trans ht) (by simp)
      · by_cases hin : r ≤ s.height
        · have := d3 (r - 41) (by omega)
          rw [show r - 41 + 41 = r by omega] at this
          exact this
        · intro t ht
          exact absurd ((he s hs r _ (by omega) (by omega)).symm.trans ht) (by simp)
    · rcases hr with hr | hr
      · by_cases hin : r ≤ s.height
        · have := d2 (r - 27) (by omega)
          rw [show r - 27 + 27 = r by omega] at this
          exact this
        · intro t ht
          exact absurd ((he s hs r _ (by omega) (by omega)).symm.trans ht) (by simp)
      · by_cases hin : r ≤ s.height
        · have := d4 (r - 41) (by omega)
          rw [show r - 41 + 41 = r by omega] at this
          exact this
        · intro t ht
          exact absurd ((he s hs r _ (by omega) (by omega)).symm.trans ht) (by simp)
  · intro hq
    obtain ⟨cop, hc, -⟩ := hsim hq
    exact ⟨_, hc⟩
  · intro hq
    obtain ⟨l, c1, c2, c3, c4, c5, c6, -⟩ := hlor hq
    simp only [List.forall_mem_cons, List.not_mem_nil, false_implies, implies_true, and_true]
    exact ⟨⟨_, c1⟩, ⟨_, c2⟩, ⟨_, c3⟩, ⟨_, c4⟩, ⟨_, c5⟩, ⟨_, c6⟩⟩
  · intro hne
    obtain ⟨row, x1, x2, x3, x4, x5, x6⟩ := F3 hne
    exact ⟨row, x1, x2, x3, x4, ⟨_, x5⟩, ⟨_, x6⟩⟩
  · refine ⟨V0, ?_, ?_, ?_, ?_⟩
    · intro hx
      obtain ⟨x, hx⟩ := Option.isSome_iff_exists.mp (V1.mpr hx)
      exact ⟨x, G2 x hx⟩
    · intro hx
      obtain ⟨p, hp⟩ := Option.isSome_iff_exists.mp (V2.mpr hx)
      obtain ⟨y, hy⟩ := Option.isSome_iff_exists.mp (V3.mpr hx)
      refine ⟨⟨y, G9 y hy⟩, fun hour hh d => ?_⟩
      obtain ⟨vs, hv1, hv2⟩ := GF.periods p hp d
      rw [GC.periods (blank ht hw9) d vs hv1] at hv2
      have hlen := (numbers_range hv2).1
      have hlt : hour < (p d).length := by omega
      exact ⟨_, (G10 p hp d hour _ (List.getElem?_eq_getElem hlt)).2⟩
    · intro hx
      obtain ⟨xs, hxs⟩ := Option.isSome_iff_exists.mp (V4.mpr hx)
      obtain ⟨y, hy⟩ := Option.isSome_iff_exists.mp (V5.mpr hx)
      obtain ⟨z, hz⟩ := Option.isSome_iff_exists.mp (V6.mpr hx)
      refine ⟨⟨y, G3 y hy⟩, ⟨z, G4 z hz⟩, fun r h1 h2 h3 => ?_⟩
      obtain ⟨vs, hv1, hv2⟩ := GF.wholesale xs hxs
      rw [GC.wholesale (blank ht hw9) vs hv1] at hv2
      have hlen := (numbers_range hv2).1
      have hlt : r - 12 < xs.length := by omega
      have := G11 xs hxs (r - 12) _ (List.getElem?_eq_getElem hlt)
      rw [show 12 + (r - 12) = r by omega] at this
      exact ⟨_, this⟩
    · intro hx
      obtain ⟨x1, h1⟩ := Option.isSome_iff_exists.mp (V7.mpr hx)
      obtain ⟨x2, h2⟩ := Option.isSome_iff_exists.mp (V8.mpr hx)
      obtain ⟨x3, h3⟩ := Option.isSome_iff_exists.mp (V9.mpr hx)
      obtain ⟨x4, h4⟩ := Option.isSome_iff_exists.mp (V10.mpr hx)
      simp only [List.forall_mem_cons, List.not_mem_nil, false_implies, implies_true, and_true]
      exact ⟨⟨_, G5 _ h1⟩, ⟨_, G6 _ h2⟩, ⟨_, G7 _ h3⟩, ⟨_, G8 _ h4⟩⟩

/-- A sheet that reaches the end of the tables has nothing below it to be asked for. -/
theorem tail_of_height {wb : Pandas.Workbook} {s : Pandas.Sheet} (hs : wb "Heat pump" = some s)
    (hh : 47 ≤ s.height) : TailEmpty wb := by
  intro s' hs' r c h1 h2
  cases Option.some.inj (hs.symm.trans hs')
  omega

/-- C94: the objects of a combination can be made exactly if the workbook is filled in; the sizes of the
combination do not matter. -/
theorem C94_filled {L : Libs} {wb : Pandas.Workbook} (size : ℤ × ℤ) (ht : TopRowsEmpty wb)
    (he : TailEmpty wb) : (∃ o, objects L wb size = .ok o) ↔ Filled L wb :=
  ⟨fun ⟨_, h⟩ => objects_filled ht he h, fun F => filled_objects ht he F⟩

/-- C94: if the objects of one combination can be made, so can those of every other. -/
theorem C94_every_size {L : Libs} {wb : Pandas.Workbook} (size size' : ℤ × ℤ) (ht : TopRowsEmpty wb)
    (he : TailEmpty wb) : (∃ o, objects L wb size = .ok o) ↔ ∃ o, objects L wb size' = .ok o :=
  (C94_filled size ht he).trans (C94_filled size' ht he).symm

end Verif
