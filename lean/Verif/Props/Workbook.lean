import Verif.Lemmas.Needed

/-!
# Properties C91, C93, C96: where the parameters come from

The workbook is named by sheet, column letter and row as in Excel. `TopRowsEmpty` is the layout of the
template: nothing in the first row of a sheet.
-/

set_option autoImplicit false

namespace Verif
open Pandas Workbook InputReader Enums Simulation Spec FixedOrder Tariff

/-- C91, battery: all seven parameters come from one row of the sheet, the first complete one (row 5 is
the heading of the template). -/
theorem C91_battery {L : Libs} {wb : Pandas.Workbook} {size : ℤ × ℤ} {o : Objects}
    (ht : TopRowsEmpty wb) (h : objects L wb size = .ok o) :
    ∃ s row, wb "Electrical storage" = some s ∧ FirstComplete s [5] [0, 1] row ∧
      Holds wb "Electrical storage" 'C' row o.battery.capacity ∧
      Holds wb "Electrical storage" 'D' row o.battery.initialState ∧
      Holds wb "Electrical storage" 'E' row o.battery.chargeMax ∧
      Holds wb "Electrical storage" 'F' row o.battery.dischargeMax ∧
      Holds wb "Electrical storage" 'G' row o.battery.chargeEff ∧
      Holds wb "Electrical storage" 'H' row o.battery.dischargeEff ∧
      Holds wb "Electrical storage" 'I' row o.battery.selfDischarge := by
  obtain ⟨b, c, hr, hs, ho⟩ := objects_ok h
  obtain ⟨s, hw, hf⟩ := (readInputs_ok hr).electricalStorage
  obtain ⟨-, -, -, -, -, -, -, -, -, -, -, -, he, -⟩ := resize_rest hs
  obtain ⟨row, hrow, h1, h2, h3, h4, h5, h6, h7⟩ := battery_row (blank ht hw) hf he (init_ok ho).battery
  refine ⟨s, row, hw, hrow, ?_⟩
  unfold Holds
  simp only [excel_eq hw]
  exact ⟨h1, h2, h3, h4, h5, h6, h7⟩

/-- C91, thermal store: its capacity is the size of the combination; the number of layers, the kind of
insulation, the location, the loss factors and the openings are the entries in column D. -/
theorem C91_tank {L : Libs} {wb : Pandas.Workbook} {size : ℤ × ℤ} {o : Objects}
    (h : objects L wb size = .ok o) :
    o.tank.capacity = size.2 ∧ Holds wb "Thermal storage" 'D' 8 o.tank.number ∧
    o.tank.insulation = lowered (excel wb "Thermal storage" 'D' 6) ∧
    o.tank.location = locationOf (excel wb "Thermal storage" 'D' 7) ∧
    (∃ fi fe, Holds wb "Thermal storage" 'D' 22 fi ∧ Holds wb "Thermal storage" 'D' 23 fe ∧
      o.tank.wall = L.wall fe fi size.2) ∧
    (∃ a da u du i di, Holds wb "Thermal storage" 'D' 14 a ∧ Holds wb "Thermal storage" 'D' 15 da ∧
      Holds wb "Thermal storage" 'D' 16 u ∧ Holds wb "Thermal storage" 'D' 17 du ∧
      Holds wb "Thermal storage" 'D' 18 i ∧ Holds wb "Thermal storage" 'D' 19 di ∧
      o.tank.connection = L.connection a da u du i di) := by
  obtain ⟨b, c, hr, hs, ho⟩ := objects_ok h
  obtain ⟨s, hw, hf⟩ := (readInputs_ok hr).thermalStorage
  obtain ⟨cap, basics, r1, r2, r3, r4, ts, -, -, -, -, -, -, hset, rfl⟩ := resizeContainer_ok hs
  obtain ⟨w, -, -, -, -, ⟨airs, air, t, -, -, hti, hmk⟩, -⟩ := (init_ok ho).weather
  obtain ⟨h1, -, h2, h3, h4, h5, h6⟩ := tank_cells hf hset hti hmk
  unfold Holds
  simp only [excel_eq hw]
  exact ⟨h1, h2, h3, h4, h5, h6⟩

/-- C91, heat pump: its capacity is the size of the combination, everything else is the entry of the
sheet. Of the three models only the entries of the chosen one are used; the fourth, generic, is refused. -/
theorem C91_heat_pump {L : Libs} {wb : Pandas.Workbook} {size : ℤ × ℤ} {o : Objects}
    (h : objects L wb size = .ok o) :
    o.heatPump.capacity = size.1 ∧ Holds wb "Heat pump" 'D' 6 o.heatPump.ambientDeltaT ∧
    Holds wb "Heat pump" 'D' 7 o.minimumRuntime ∧ Holds wb "Heat pump" 'D' 8 o.minimumOutput ∧
    (∃ t p, Says wb "Heat pump" 'D' 3 t ∧ InputText.readEnum HPType t = .ok p ∧
      o.heatPump.hpType = .member p) ∧
    (∃ t d, Says wb "Heat pump" 'D' 9 t ∧ InputText.readEnum DataInput t = .ok d ∧
      o.heatPump.dataInput = .member d) ∧
    (∃ t m, Says wb "Heat pump" 'D' 4 t ∧ InputText.readEnum ModelName t = .ok m ∧ m ≠ .generic ∧
      (m = .simple → ∃ cop, Holds wb "Heat pump" 'D' 12 cop ∧ o.heatPump.model = .simple cop size.1) ∧
      (m = .lorentz → ∃ l, Holds wb "Heat pump" 'D' 15 l.cop ∧ Holds wb "Heat pump" 'D' 16 l.flow ∧
        Holds wb "Heat pump" 'D' 17 l.ret ∧ Holds wb "Heat pump" 'D' 18 l.ambientIn ∧
        Holds wb "Heat pump" 'D' 19 l.ambientOut ∧ Holds wb "Heat pump" 'D' 20 l.elecCapacity ∧
        o.heatPump.model = .lorentz l) ∧
      (m = .standard → ∃ data, o.heatPump.model = .standard data)) := by
  obtain ⟨b, c, hr, hs, ho⟩ := objects_ok h
  obtain ⟨s, hw, hf⟩ := (readInputs_ok hr).heatPump
  obtain ⟨hb1, -, hb2, hb3, -⟩ := heatPump_ok hf
  obtain ⟨-, -, -, -, -, -, -, -, -, -, -, -, -, -, -, -, -, hsi, hlo⟩ := resize_rest hs
  obtain ⟨cap, basics, r1, r2, r3, r4, ts, -, hset, -, -, -, -, -, hc⟩ := resizeContainer_ok hs
  have hset' : b.heatPump.basics.setCell (.pos 0) (.named "capacity") (some (.num size.1)) =
      .ok c.heatPump.basics := by rw [hc]; exact hset
  obtain ⟨w, -, -, -, -, -, ⟨bs, a, hbs, ha, hcon, hmr, hmo⟩⟩ := (init_ok ho).weather
  obtain ⟨k1, k2, k3, k4, ⟨t1, k5, k6⟩, ⟨t2, k7, k8⟩, ⟨t3, k9, k10⟩⟩ := basics_cells hb1 hset' hbs
  have A := hpArgs_ok ha
  obtain ⟨-, -, -, -, -, hm, e1, e2, e3, e4, -⟩ := construct_ok hcon
  obtain ⟨m1, m2, -, m4⟩ := construct_model hcon
  have hcap : a.capacity = size.1 := by
    have := k1.symm.trans A.capacity
    injection this with this
    injection this with this
    exact this.symm
  unfold Holds Says
  simp only [excel_eq hw]
  refine ⟨by rw [e2, hcap], ?_, ?_, ?_, ⟨t1, bs.hpType, k5, k6, by rw [e1, A.hpType]⟩,
    ⟨t3, bs.dataInput, k9, k10, by rw [e4, A.dataInput]⟩,
    ⟨t2, bs.approach, k7, k8, A.generic, ?_, ?_, ?_⟩⟩
  · rw [e3]; exact k2.symm.trans A.ambientDeltaT
  · exact k3.symm.trans (numOf_ok.mp hmr)
  · exact k4.symm.trans (numOf_ok.mp hmo)
  · intro hsim
    obtain ⟨x, hx, hx'⟩ := A.simple hsim
    refine ⟨x, ?_, ?_⟩
    · rw [hsi] at hx
      exact (simple_cell hb2).symm.trans hx
    · rw [m1 x (by rw [A.approach, hsim]; exact Or.inl rfl) hx', hcap]
  · intro hl
    obtain ⟨d, l, hd, hl', g1, g2, g3, g4, g5, g6⟩ := A.lorentz hl
    rw [lorentz_cells (by rw [hlo]; exact hb3) hd] at g1 g2 g3 g4 g5 g6
    simp only [dict_cons, reduceIte, String.reduceEq, Except.ok.injEq] at g1 g2 g3 g4 g5 g6
    exact ⟨l, g1, g2, g3, g4, g5, g6, m2 l (by rw [A.approach, hl]; exact Or.inl rfl) hl'⟩
  · intro hst
    obtain ⟨x, cosp, duty, data, -, -, hd⟩ := A.standard hst
    exact ⟨data, m4 data (by rw [A.approach, hst]; exact Or.inl rfl) hd⟩

/-- C91, auxiliary heater: the fuel is named in C6 and the efficiency stands in D6. Price and energy content
come from the row of the fuel table (9 to 11) that names the fuel, the last such row if there are several. -/
theorem C91_heater {L : Libs} {wb : Pandas.Workbook} {size : ℤ × ℤ} {o : Objects}
    (h : objects L wb size = .ok o) :
    ∃ fuel, fuelOf (excel wb "Aux heat" 'C' 6) = .ok fuel ∧
      Holds wb "Aux heat" 'D' 6 o.aux.efficiency ∧ (o.aux.electric = true ↔ fuel = .electric) ∧
      (fuel ≠ .electric → ∃ row, 9 ≤ row ∧ row ≤ 11 ∧
        fuelOf (excel wb "Aux heat" 'C' row) = .ok fuel ∧
        (∀ r, row < r → r ≤ 11 → fuelOf (excel wb "Aux heat" 'C' r) ≠ .ok fuel) ∧
        Holds wb "Aux heat" 'D' row o.aux.energyDensity ∧ Holds wb "Aux heat" 'E' row o.aux.cost) := by
  obtain ⟨b, c, hr, hs, ho⟩ := objects_ok h
  obtain ⟨s, hw, hf⟩ := (readInputs_ok hr).aux
  obtain ⟨-, -, -, -, -, -, -, -, -, -, -, -, -, -, ha1, ha2, ha3, -⟩ := resize_rest hs
  obtain ⟨h1, h2, f1, f2, f3, g1, g2, g3, htab⟩ := aux_cells hf
  obtain ⟨k1, k2, k3⟩ := makeAux_ok (init_ok ho).aux
  unfold Holds
  simp only [excel_eq hw]
  refine ⟨b.auxFuel, h1, ?_, ?_, ?_⟩
  · rw [ha2] at k1
    exact h2.symm.trans k1
  · rw [k2, ha1]
    exact beq_iff_eq
  · intro hne
    rw [ha1, ha3] at k3
    obtain ⟨d, hd, hc, he⟩ := k3 hne
    rw [htab] at hd
    unfold fuelDict at hd
    simp only [List.reverse_cons, List.reverse_nil, List.nil_append, List.cons_append, List.lookup_cons,
      List.lookup_nil] at hd
    have hcell : ∀ v w : Value, d = [("energy_density", v), ("cost", w)] →
        v = some (.num o.aux.energyDensity) ∧ w = some (.num o.aux.cost) := by
      intro v w hvw
      rw [hvw] at hc he
      simp only [dict_cons, reduceIte, String.reduceEq, Except.ok.injEq] at hc he
      exact ⟨he, hc⟩
    by_cases e3 : b.auxFuel = f3
    · rw [beq_iff_eq.mpr e3] at hd
      obtain ⟨v1, v2⟩ := hcell _ _ (Option.some.inj hd).symm
      exact ⟨11, by omega, by omega, by rw [e3]; exact g3, fun r h1 h2 => by omega, v1, v2⟩
    · rw [beq_eq_false_iff_ne.mpr e3] at hd
      dsimp only at hd
      have n3 : ∀ r, 11 ≤ r → r ≤ 11 → fuelOf (s.cell r 2) ≠ .ok b.auxFuel := by
        intro r h1 h2 heq
        have : r = 11 := by omega
        subst this
        rw [g3] at heq
        exact e3 (Except.ok.inj heq).symm
      by_cases e2 : b.auxFuel = f2
      · rw [beq_iff_eq.mpr e2] at hd
        obtain ⟨v1, v2⟩ := hcell _ _ (Option.some.inj hd).symm
        exact ⟨10, by omega, by omega, by rw [e2]; exact g2, fun r h1 h2 => n3 r (by omega) h2, v1, v2⟩
      · rw [beq_eq_false_iff_ne.mpr e2] at hd
        dsimp only at hd
        by_cases e1 : b.auxFuel = f1
        · rw [beq_iff_eq.mpr e1] at hd
          obtain ⟨v1, v2⟩ := hcell _ _ (Option.some.inj hd).symm
          refine ⟨9, by omega, by omega, by rw [e1]; exact g1, fun r h1 h2 heq => ?_, v1, v2⟩
          rcases (by omega : r = 10 ∨ r = 11) with rfl | rfl
          · exact e2 (Except.ok.inj (g2.symm.trans heq)).symm
          · exact n3 11 (by omega) (by omega) heq
        · rw [beq_eq_false_iff_ne.mpr e1] at hd
          cases hd

/-- C91, grid: the tariff is named in D5; each number the tariff uses is the entry for it. -/
theorem C91_grid {L : Libs} {wb : Pandas.Workbook} {size : ℤ × ℤ} {o : Objects}
    (ht : TopRowsEmpty wb) (h : objects L wb size = .ok o) :
    Says wb "Grid" 'D' 5 o.grid.tariff ∧
    (∀ x, o.grid.flatRate = some x → Holds wb "Grid" 'C' 9 x) ∧
    (∀ x, o.grid.premium = some x → Holds wb "Grid" 'G' 9 x) ∧
    (∀ x, o.grid.maximum = some x → Holds wb "Grid" 'H' 9 x) ∧
    (∀ x, o.grid.lowerPercent = some x → Holds wb "Grid" 'J' 9 x) ∧
    (∀ x, o.grid.higherPercent = some x → Holds wb "Grid" 'K' 9 x) ∧
    (∀ x, o.grid.lowerPenalty = some x → Holds wb "Grid" 'L' 9 x) ∧
    (∀ x, o.grid.higherDiscount = some x → Holds wb "Grid" 'M' 9 x) ∧
    (∀ y, o.grid.year = some y → Holds wb "Grid" 'N' 42 y) ∧
    (∀ p, o.grid.periods = some p → ∀ (d : Weekday) (hour : ℕ) (x : ℚ), (p d)[hour]? = some x →
      hour < 24 ∧ Holds wb "Grid" (dayLetter d) (18 + hour) x) ∧
    (∀ xs, o.grid.wholesale = some xs → ∀ (t : ℕ) (x : ℚ), xs[t]? = some x →
      Holds wb "Grid" 'C' (12 + t) x) := by
  obtain ⟨b, c, hr, hs, ho⟩ := objects_ok h
  obtain ⟨s, hw, hf⟩ := (readInputs_ok hr).grid
  obtain ⟨-, -, -, -, -, -, -, -, -, -, -, -, -, hg, -⟩ := resize_rest hs
  have C := grid_cells hf
  have G := makeGrid_ok (init_ok ho).grid
  rw [hg] at G
  have hb := blank ht hw
  unfold Holds Says
  simp only [excel_eq hw]
  refine ⟨C.tariff.symm.trans G.tariff, ?_, ?_, ?_, ?_, ?_, ?_, ?_, ?_, ?_, ?_⟩
  · intro x hx
    have := G.flat x hx
    rw [C.flat] at this
    simp only [dict_cons, reduceIte, String.reduceEq, Except.ok.injEq] at this
    exact this
  · intro x hx
    have := G.premium x hx
    rw [C.wm] at this
    simp only [dict_cons, reduceIte, String.reduceEq, Except.ok.injEq] at this
    exact this
  · intro x hx
    have := G.maximum x hx
    rw [C.wm] at this
    simp only [dict_cons, reduceIte, String.reduceEq, Except.ok.injEq] at this
    exact this
  · intro x hx
    have := G.lowerPercent x hx
    rw [C.ppa] at this
    simp only [dict_cons, reduceIte, String.reduceEq, Except.ok.injEq] at this
    exact this
  · intro x hx
    have := G.higherPercent x hx
    rw [C.ppa] at this
    simp only [dict_cons, reduceIte, String.reduceEq, Except.ok.injEq] at this
    exact this
  · intro x hx
    have := G.lowerPenalty x hx
    rw [C.ppa] at this
    simp only [dict_cons, reduceIte, String.reduceEq, Except.ok.injEq] at this
    exact this
  · intro x hx
    have := G.higherDiscount x hx
    rw [C.ppa] at this
    simp only [dict_cons, reduceIte, String.reduceEq, Except.ok.injEq] at this
    exact this
  · intro y hy
    exact C.year.symm.trans (G.year y hy)
  · intro p hp d hour x hx
    obtain ⟨vs, h1, h2⟩ := G.periods p hp d
    rw [C.periods hb d vs h1] at h2
    obtain ⟨hl, h3⟩ := numbers_range h2
    have hlt : hour < (p d).length := (List.getElem?_eq_some_iff.mp hx).1
    refine ⟨by omega, ?_⟩
    rw [Nat.add_comm]
    exact h3 hour x hx
  · intro xs hxs t x hx
    obtain ⟨vs, h1, h2⟩ := G.wholesale xs hxs
    rw [C.wholesale hb vs h1] at h2
    rw [Nat.add_comm]
    exact (numbers_range h2).2 t x hx

/-- C91, wind turbines: the user's turbine is described in the first complete row of columns C to G (row 19
is its heading), the turbine of the database in the first complete row of columns C to F apart from the rows
of the other tables. The power curve is the list of the rows with both a wind speed (column D) and a power
(column C), apart from those of the other tables. -/
theorem C91_turbines {L : Libs} {wb : Pandas.Workbook} {size : ℤ × ℤ} {o : Objects}
    (ht : TopRowsEmpty wb) (h : objects L wb size = .ok o) :
    ∃ s, wb "Wind inputs" = some s ∧
    (∃ row, FirstComplete s [19] [0, 1] row ∧ o.windUser.name = excel wb "Wind inputs" 'C' row ∧
      o.windUser.hub = excel wb "Wind inputs" 'D' row ∧
      o.windUser.rotor = excel wb "Wind inputs" 'E' row ∧
      o.windUser.multiplier = excel wb "Wind inputs" 'F' row ∧
      o.windUser.nominal = excel wb "Wind inputs" 'G' row) ∧
    o.windUser.curve = (completeRows s [14, 15, 19, 20, 23] [0, 1, 4, 5, 6]).map
      (fun r => (excel wb "Wind inputs" 'D' r, excel wb "Wind inputs" 'C' r)) ∧
    (∃ row, FirstComplete s [14, 19, 20] [0, 1, 6] row ∧
      o.windDatabase.name = excel wb "Wind inputs" 'C' row ∧
      o.windDatabase.hub = excel wb "Wind inputs" 'D' row ∧
      o.windDatabase.rotor = excel wb "Wind inputs" 'E' row ∧
      o.windDatabase.multiplier = excel wb "Wind inputs" 'F' row) := by
  obtain ⟨b, c, hr, hs, ho⟩ := objects_ok h
  obtain ⟨s, hw, hf1, hf2, hf3⟩ := (readInputs_ok hr).wind
  obtain ⟨-, -, -, -, -, -, -, e1, e2, e3, -⟩ := resize_rest hs
  have M := init_ok ho
  obtain ⟨u, curve, hu, hcurve, g1, g2, g3, g4, g5⟩ := M.user
  obtain ⟨d, hd, k1, k2, k3, k4⟩ := M.database
  have hb := blank ht hw
  obtain ⟨hrow, hcv⟩ := user_rows hb (e2 ▸ hf2) (e3 ▸ hf3) hu g1 g2 g3 g4 g5
  have hdb := database_row hb (e1 ▸ hf1) hd k1 k2 k3 k4
  simp only [excel_eq hw]
  exact ⟨s, hw, hrow, hcurve.trans hcv, hdb⟩

/-- C91, photovoltaics: module, multiplier, tilt and azimuth come from the first complete row of columns C to
the end (row 19 is the heading); the site from the first complete row of columns C to F (and any right of H)
apart from the rows 15, 19, 20. The inverter is not the one named in the sheet. -/
theorem C91_pv_partial {L : Libs} {wb : Pandas.Workbook} {size : ℤ × ℤ} {o : Objects}
    (ht : TopRowsEmpty wb) (h : objects L wb size = .ok o) :
    ∃ s, wb "PV inputs" = some s ∧
    (∃ row m, FirstComplete s [19] [0, 1] row ∧ Says wb "PV inputs" 'C' row m ∧
      o.pv.moduleName = pvName m ∧ o.pv.multiplier = excel wb "PV inputs" 'E' row ∧
      o.pv.tilt = excel wb "PV inputs" 'F' row ∧ o.pv.azimuth = excel wb "PV inputs" 'G' row) ∧
    (∃ row, FirstComplete s [15, 19, 20] [0, 1, 6, 7] row ∧
      o.pv.latitude = excel wb "PV inputs" 'D' row ∧ o.pv.longitude = excel wb "PV inputs" 'E' row) := by
  obtain ⟨b, c, hr, hs, ho⟩ := objects_ok h
  obtain ⟨s, hw, hf1, hf2⟩ := (readInputs_ok hr).pv
  obtain ⟨-, -, -, -, -, e1, e2, -⟩ := resize_rest hs
  obtain ⟨w, -, -, -, ⟨d, hd, hmk⟩, -⟩ := (init_ok ho).weather
  obtain ⟨-, -, -, ⟨row, m, f1, g1, g2, g3, g4, g5, -⟩, ⟨row', f2, -, k1, k2, -⟩⟩ :=
    pv_rows (blank ht hw) (e1 ▸ hf1) (e2 ▸ hf2) hd hmk
  unfold Says
  simp only [excel_eq hw]
  exact ⟨s, hw, ⟨row, m, f1, g1, g2, g3, g4, g5⟩, ⟨row', f2, k1, k2⟩⟩

/-- C91, controller: the setpoint, the two orders of processes, the number of hours, the first hour and the
export price the controller runs with are the entries of the sheets. -/
theorem C91_controller {L : Libs} {wb : Pandas.Workbook} {size : ℤ × ℤ} {S : RunIn (List ℚ)}
    (h : runInputs L wb size = .ok S) :
    Holds wb "Controller" 'D' 7 S.setpoint ∧ Holds wb "Grid" 'D' 9 S.exportPrice ∧
    (∃ a, Says wb "Controller" 'D' 8 a ∧ InputText.readOrder a.toList = .ok S.orderAbove) ∧
    (∃ b, Says wb "Controller" 'D' 9 b ∧ InputText.readOrder b.toList = .ok S.orderBelow) := by
  unfold runInputs at h
  simp only [except_bind_ok] at h
  obtain ⟨c, hc, h⟩ := h
  obtain ⟨b, hr, hs⟩ := containerOf_ok hc
  obtain ⟨s, hw, hf⟩ := (readInputs_ok hr).controller
  obtain ⟨s', hw', hf'⟩ := (readInputs_ok hr).grid
  obtain ⟨-, e1, -, -, -, -, -, -, -, -, -, -, -, e2, -⟩ := resize_rest hs
  obtain ⟨-, k1, -, k2, k3⟩ := controller_cells hf
  have C := grid_cells hf'
  unfold fixedOrderIn at h
  simp only [except_bind_ok, except_pure_ok, numOf_ok] at h
  obtain ⟨o, -, ⟨d, f⟩, -, _, -, _, -, _, -, _, -, _, -, _, -, _, -, _, -, _, -, _, -, _, -, _, -, _, -,
    ep, hep, sp, hsp, _, -, _, -, _, -, _, -, rfl⟩ := h
  unfold Holds Says
  simp only [excel_eq hw, excel_eq hw']
  rw [e2] at hep
  rw [e1] at hsp
  rw [e1]
  exact ⟨k1.symm.trans hsp, C.exportPrice.symm.trans hep, k2, k3⟩

/-- C93: hour `t` of each demand series is row `6 + t`; all used rows are taken. -/
theorem C93_demand {L : Libs} {wb : Pandas.Workbook} {size : ℤ × ℤ} {S : RunIn (List ℚ)}
    (ht : TopRowsEmpty wb) (h : runInputs L wb size = .ok S) :
    Hourly wb "Demand input" 'D' 6 S.heatDemand ∧ Hourly wb "Demand input" 'E' 6 S.elecDemand ∧
    ∃ o source flow ret delta, objects L wb size = .ok o ∧
      S.tank = Tank.toTankI o.tank (fun t => ⟨source.getD t 0, delta, flow.getD t 0, ret⟩) ret ∧
      Hourly wb "Demand input" 'G' 6 source ∧ Hourly wb "Demand input" 'F' 6 flow ∧
      Holds wb "Demand input" 'I' 6 ret ∧ Holds wb "Demand input" 'I' 8 delta := by
  unfold runInputs at h
  simp only [except_bind_ok] at h
  obtain ⟨c, hc, h⟩ := h
  obtain ⟨b, hr, hs⟩ := containerOf_ok hc
  obtain ⟨s, hw, hf⟩ := (readInputs_ok hr).demandInput
  obtain ⟨-, -, -, e1, e2, -⟩ := resize_rest hs
  have D := demand_cells hf
  have hb := blank ht hw
  unfold fixedOrderIn at h
  simp only [except_bind_ok, except_pure_ok, numOf_ok] at h
  obtain ⟨o, ho, ⟨d, f⟩, hd, v1, h1, x1, n1, v2, h2, x2, n2, v3, h3, x3, n3, v4, h4, x4, n4, v5, h5, x5, n5,
    v6, h6, x6, n6, _, -, _, -, _, -, _, -, _, -, _, -, _, -, rfl⟩ := h
  obtain ⟨⟨w4, q4, g4⟩, ⟨w3, q3, g3⟩, ⟨w2, q2, g2⟩, ⟨w1, q1, g1⟩, ⟨w5, q5, g5⟩, ⟨w6, q6, g6⟩⟩ := demands_ok hd
  cases Except.ok.inj (h1.symm.trans q1)
  cases Except.ok.inj (h2.symm.trans q2)
  cases Except.ok.inj (h3.symm.trans q3)
  cases Except.ok.inj (h4.symm.trans q4)
  cases Except.ok.inj (h5.symm.trans q5)
  cases Except.ok.inj (h6.symm.trans q6)
  rw [e2] at g1 g2 g3 g4
  rw [e1, D.static] at g5 g6
  simp only [dict_cons, reduceIte, String.reduceEq, Except.ok.injEq] at g5 g6
  rw [D.source hb _ g1] at n1
  rw [D.flow hb _ g2] at n2
  rw [D.elec hb _ g3] at n3
  rw [D.heat hb _ g4] at n4
  have key : ∀ (col : Char) (xs : List ℚ),
      numbers ((List.range (s.height - 5)).map
        (fun t => s.cell (t + 6) (col.toNat - 'A'.toNat))) = .ok xs →
      Hourly wb "Demand input" col 6 xs := by
    intro col xs hn
    obtain ⟨hl, hx⟩ := numbers_range hn
    refine ⟨s, hw, by omega, fun t x hxt => ?_⟩
    unfold Holds
    rw [excel_eq hw, Nat.add_comm]
    exact hx t x hxt
  refine ⟨key 'D' _ n4, key 'E' _ n3, o, x1, x2, x5, x6, ?_, rfl, key 'G' _ n1, key 'F' _ n2, ?_, ?_⟩
  · unfold objects
    rw [hc]
    exact ho
  · unfold Holds
    rw [excel_eq hw]
    exact g5.trans n5
  · unfold Holds
    rw [excel_eq hw]
    exact g6.trans n6

/-- C91, grid: a tariff is one of six, and all the numbers it uses are there. -/
theorem C91_tariff {L : Libs} {wb : Pandas.Workbook} {size : ℤ × ℤ} {o : Objects}
    (h : objects L wb size = .ok o) :
    o.grid.tariff ∈ ["Flat rates", "Variable periods", "Time of use - WM", "Time of use - PPA + FR",
      "Time of use - PPA + WM", "Time of use - PPA + VP"] ∧
    (o.grid.flatRate.isSome ↔ o.grid.tariff = "Flat rates" ∨ o.grid.tariff = "Time of use - PPA + FR") ∧
    (o.grid.periods.isSome ↔
      o.grid.tariff = "Variable periods" ∨ o.grid.tariff = "Time of use - PPA + VP") ∧
    (o.grid.year.isSome ↔ o.grid.tariff = "Variable periods" ∨ o.grid.tariff = "Time of use - PPA + VP") ∧
    (o.grid.wholesale.isSome ↔
      o.grid.tariff = "Time of use - WM" ∨ o.grid.tariff = "Time of use - PPA + WM") ∧
    (o.grid.premium.isSome ↔
      o.grid.tariff = "Time of use - WM" ∨ o.grid.tariff = "Time of use - PPA + WM") ∧
    (o.grid.maximum.isSome ↔
      o.grid.tariff = "Time of use - WM" ∨ o.grid.tariff = "Time of use - PPA + WM") ∧
    (o.grid.lowerPercent.isSome ↔ o.grid.tariff ∈ Spec.ppa) ∧ (o.grid.higherPercent.isSome ↔ o.grid.tariff ∈ Spec.ppa) ∧
    (o.grid.lowerPenalty.isSome ↔ o.grid.tariff ∈ Spec.ppa) ∧ (o.grid.higherDiscount.isSome ↔ o.grid.tariff ∈ Spec.ppa) := by
  obtain ⟨b, c, hr, hs, ho⟩ := objects_ok h
  have hg := (init_ok ho).grid
  generalize o.grid = gr at hg ⊢
  unfold makeGrid at hg
  split at hg
  case h_7 => cases hg
  all_goals
    simp only [except_bind_ok, except_pure_ok] at hg
    first
      | obtain ⟨_, -, rfl⟩ := hg
      | obtain ⟨_, -, _, -, rfl⟩ := hg
      | obtain ⟨_, -, _, -, _, -, rfl⟩ := hg
    simp [Spec.ppa]

/-- C93: hour `t` of the air temperature the tank and the heat pump see, and of the water temperature, is row
`6 + t` of the weather sheet; the heat pump's flow temperature is the source temperature of the demand
sheet, and its return temperature is the entry there in every hour. All are a year long. -/
theorem C93_temperatures {L : Libs} {wb : Pandas.Workbook} {size : ℤ × ℤ} {o : Objects}
    (ht : TopRowsEmpty wb) (h : objects L wb size = .ok o) :
    ∃ air water source ret, Hourly wb "Weather resources" 'K' 6 air ∧
      Hourly wb "Weather resources" 'M' 6 water ∧ Hourly wb "Demand input" 'G' 6 source ∧
      Holds wb "Demand input" 'I' 6 ret ∧ air.length = 8760 ∧ water.length = 8760 ∧
      source.length = 8760 ∧ o.tank.air = air ∧ o.heatPump.ambient = air.zip water ∧
      o.heatPump.flow = .series source ∧ o.heatPump.ret = .array (List.replicate 8760 ret) := by
  obtain ⟨b, c, hr, hs, ho⟩ := objects_ok h
  obtain ⟨s, hw, hf⟩ := (readInputs_ok hr).resources
  obtain ⟨s', hw', hf'⟩ := (readInputs_ok hr).demandInput
  obtain ⟨-, -, e0, e1, e2, -⟩ := resize_rest hs
  have D := demand_cells hf'
  obtain ⟨w, hwe, -, -, -, ⟨airs, air, t, ha, hna, hti, hmk⟩, ⟨bs, a, hbs, har, hcon, -, -⟩⟩ :=
    (init_ok ho).weather
  have A := hpArgs_ok har
  obtain ⟨-, -, hflow, hret, hlen, -, -, -, -, -, hamb⟩ := construct_ok hcon
  obtain ⟨vs, xs, us, ys, q1, q2, q3, q4, q5⟩ := A.ambient
  obtain ⟨fv, fx, r1, r2, r3⟩ := A.flow
  obtain ⟨rv, rx, p1, p2, p3⟩ := A.ret
  cases Except.ok.inj (ha.symm.trans q1)
  cases Except.ok.inj (hna.symm.trans q2)
  rw [e0.symm] at hf
  obtain ⟨k, hk, hka⟩ := weather_cells (blank ht hw) hf hwe ha
  obtain ⟨k', hk', hkw⟩ := weather_cells (blank ht hw) hf hwe q3
  have kk : k = 10 := by simpa [weatherColumns] using hk
  have kk' : k' = 12 := by simpa [weatherColumns] using hk'
  subst kk kk'
  rw [hka] at hna
  rw [hkw] at q4
  rw [e2] at r1
  rw [D.source (blank ht hw') _ r1] at r2
  rw [e1, D.static] at p1
  simp only [dict_cons, reduceIte, String.reduceEq, Except.ok.injEq] at p1
  obtain ⟨l1, g1⟩ := numbers_range hna
  obtain ⟨l2, g2⟩ := numbers_range q4
  obtain ⟨l3, g3⟩ := numbers_range r2
  obtain ⟨cap, basics, z1, z2, z3, z4, ts, -, -, -, -, -, -, hset, hc⟩ := resizeContainer_ok hs
  obtain ⟨s'', -, hf''⟩ := (readInputs_ok hr).thermalStorage
  have hset' : b.thermalStorage.setCell (.pos 0) (.named "capacity") (some (.num size.2)) =
      .ok c.thermalStorage := by rw [hc]; exact hset
  obtain ⟨-, hair, -⟩ := tank_cells hf'' hset' hti hmk
  have hmin : min air.length ys.length = 8760 := by
    rw [← List.length_zip, ← q5]
    exact hlen
  have hfx : fx.length = 8760 ∧ o.heatPump.flow = .series fx := by
    rw [r3] at hflow
    unfold HpConfig.checkFullYear at hflow
    dsimp only at hflow
    by_cases hne : fx.length ≠ 8760
    · rw [if_pos hne] at hflow
      cases hflow
    · rw [if_neg hne] at hflow
      exact ⟨not_not.mp hne, (Except.ok.inj hflow).symm⟩
  have hry : o.heatPump.ret = .array (List.replicate 8760 rx) := by
    rw [p3] at hret
    exact (Except.ok.inj hret).symm
  have hle : air.length = 8760 ∧ ys.length = 8760 := by
    constructor <;> omega
  refine ⟨air, ys, fx, rx, ⟨s, hw, by omega, fun t x hx => ?_⟩, ⟨s, hw, by omega, fun t x hx => ?_⟩,
    ⟨s', hw', by omega, fun t x hx => ?_⟩, ?_, hle.1, hle.2, hfx.1, hair, hamb.trans q5, hfx.2, hry⟩
  · unfold Holds
    rw [excel_eq hw, Nat.add_comm]
    exact g1 t x hx
  · unfold Holds
    rw [excel_eq hw, Nat.add_comm]
    exact g2 t x hx
  · unfold Holds
    rw [excel_eq hw', Nat.add_comm]
    exact g3 t x hx
  · unfold Holds
    rw [excel_eq hw']
    exact p1.trans p2

/-- C96: if the heat pump is described by test data, the points are the complete rows of the four tables with the flow temperature of the table, the duties scaled by
the ratio of the size of the combination to the capacity on the sheet. -/
theorem C96_test_points {L : Libs} {wb : Pandas.Workbook} {size : ℤ × ℤ} {o : Objects} {s : Sheet}
    {data : TestData} (ht : TopRowsEmpty wb) (he : TailEmpty wb) (h : objects L wb size = .ok o)
    (hs : wb "Heat pump" = some s)
    (hm : o.heatPump.model = .standard data) :
    ∃ cap, Holds wb "Heat pump" 'D' 5 cap ∧
      data.points = testPoints s (if cap = 0 then 0 else pyRound ((size.1 : ℚ) / cap) 2) := by
  obtain ⟨b, c, hr, hre, ho⟩ := objects_ok h
  obtain ⟨s', hw, hf⟩ := (readInputs_ok hr).heatPump
  cases Option.some.inj (hs.symm.trans hw)
  obtain ⟨hb1, -, -, -, t1, t2, t3, t4, g1, g2, g3, g4⟩ := heatPump_ok hf
  obtain ⟨cap, basics, r1, r2, r3, r4, ts, hcap, -, k1, k2, k3, k4, -, hc⟩ := resizeContainer_ok hre
  obtain ⟨w, -, -, -, -, -, ⟨bs, a, hbs, ha, hcon, -, -⟩⟩ := (init_ok ho).weather
  have A := hpArgs_ok ha
  obtain ⟨m1, m2, -, m4⟩ := construct_model hcon
  have hB := basics_at hb1
  refine ⟨cap, ?_, ?_⟩
  · unfold Holds
    rw [excel_eq hw]
    obtain ⟨i, j, hj, hi, hv⟩ := get_ok hcap
    rw [hB.row] at hi
    cases Option.some.inj hi
    have := hB.col ("capacity", 5) (by decide) j hj
    subst this
    rw [hB.cell] at hv
    exact hv.symm
  · have hst : bs.approach = .standard := by
      cases hap : bs.approach with
      | simple =>
        obtain ⟨x, -, hx⟩ := A.simple hap
        rw [m1 x (by rw [A.approach, hap]; exact Or.inl rfl) hx] at hm
        cases hm
      | lorentz =>
        obtain ⟨d, l, -, hl, -⟩ := A.lorentz hap
        rw [m2 l (by rw [A.approach, hap]; exact Or.inl rfl) hl] at hm
        cases hm
      | generic => exact absurd hap A.generic
      | standard => rfl
    obtain ⟨x, cosp, duty, data', q1, q2, q3⟩ := A.standard hst
    rw [m4 data' (by rw [A.approach, hst]; exact Or.inl rfl) q3] at hm
    injection hm with hm
    subst hm
    have hsc : Scaled s (Para.ratio size.1 cap) c.heatPump := by
      rw [hc]
      exact ⟨⟨_, g1, k1⟩, ⟨_, g2, k2⟩, ⟨_, g3, k3⟩, ⟨_, g4, k4⟩, t1, t2, t3, t4⟩
    obtain ⟨f1, f2⟩ := (heatPump_iff (blank ht hw)).mp ⟨_, hf⟩
    exact test_points (blank ht hw) (standard_width (blank ht hw) f1 f2 hsc q1 q2
      (built_standard hcon (by rw [A.approach, hst]) q3)) f2 (he s hw) hsc q1 q2

end Verif
