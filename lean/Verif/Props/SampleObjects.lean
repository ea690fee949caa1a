import Verif.Props.Completes

/-!
# Examples for C91 to C96: the objects made from the sample workbook

The objects of the sample exist for every size (`Sample.objects_made`), so the hypotheses of the theorems about
them are met; here is what the theorems say of them.
-/

set_option autoImplicit false

namespace Verif
open Pandas Workbook InputReader Enums Simulation Spec FixedOrder Programme Sample

/-- C91, the battery. -/
example {L : Libs} (hk : L.knownModule "Some_Module" = true) (size : ℤ × ℤ) :
    ∃ o, objects L (book "Simple") size = .ok o ∧ o.battery = ⟨10, 1 / 2, 4, 3, 9 / 10, 9 / 10, 1 / 100⟩ := by
  obtain ⟨o, h⟩ := objects_made hk (model := "Simple") (by decide) size
  obtain ⟨s, row, hs, hrow, h1, h2, h3, h4, h5, h6, h7⟩ := C91_battery (top _) h
  cases firstComplete_unique hrow (batteryRow _ hs)
  refine ⟨o, h, ?_⟩
  have e1 := holds_inj h1 (show Holds _ _ _ _ 10 from rfl)
  have e2 := holds_inj h2 (show Holds _ _ _ _ (1 / 2) from rfl)
  have e3 := holds_inj h3 (show Holds _ _ _ _ 4 from rfl)
  have e4 := holds_inj h4 (show Holds _ _ _ _ 3 from rfl)
  have e5 := holds_inj h5 (show Holds _ _ _ _ (9 / 10) from rfl)
  have e6 := holds_inj h6 (show Holds _ _ _ _ (9 / 10) from rfl)
  have e7 := holds_inj h7 (show Holds _ _ _ _ (1 / 100) from rfl)
  cases hb : o.battery
  rw [hb] at e1 e2 e3 e4 e5 e6 e7
  dsimp only at e1 e2 e3 e4 e5 e6 e7
  rw [e1, e2, e3, e4, e5, e6, e7]

/-- C91, the tank: its size is that of the combination, the rest is written. -/
example {L : Libs} (hk : L.knownModule "Some_Module" = true) :
    ∃ o, objects L (book "Simple") (10, 500) = .ok o ∧ o.tank.capacity = 500 ∧ o.tank.number = 5 ∧
      o.tank.insulation = "polyurethane" ∧ o.tank.location = .inside ∧
      o.tank.wall = L.wall 1 1 500 ∧ o.tank.connection = L.connection 1 1 1 1 1 1 := by
  obtain ⟨o, h⟩ := objects_made hk (model := "Simple") (by decide) (10, 500)
  obtain ⟨h1, h2, h3, h4, ⟨fi, fe, w1, w2, w3⟩, ⟨a, da, u, du, i, di, c1, c2, c3, c4, c5, c6, c7⟩⟩ := C91_tank h
  refine ⟨o, h, h1, ?_, ?_, ?_, ?_, ?_⟩
  · exact_mod_cast holds_inj h2 (show Holds _ _ _ _ 5 from rfl)
  · rw [h3]; decide +kernel
  · rw [h4]; decide +kernel
  · rw [w3, holds_inj w1 (show Holds _ _ _ _ 1 from rfl), holds_inj w2 (show Holds _ _ _ _ 1 from rfl)]
    rfl
  · rw [c7, holds_inj c1 (show Holds _ _ _ _ 1 from rfl), holds_inj c2 (show Holds _ _ _ _ 1 from rfl),
      holds_inj c3 (show Holds _ _ _ _ 1 from rfl), holds_inj c4 (show Holds _ _ _ _ 1 from rfl),
      holds_inj c5 (show Holds _ _ _ _ 1 from rfl), holds_inj c6 (show Holds _ _ _ _ 1 from rfl)]

/-- C91, the heat pump with the simple model. -/
example {L : Libs} (hk : L.knownModule "Some_Module" = true) :
    ∃ o, objects L (book "Simple") (10, 0) = .ok o ∧ o.heatPump.capacity = 10 ∧
      o.heatPump.model = .simple 3 10 ∧ o.minimumOutput = 0 ∧ o.heatPump.hpType = .member .ashp := by
  obtain ⟨o, h⟩ := objects_made hk (model := "Simple") (by decide) (10, 0)
  obtain ⟨h1, -, -, h4, ⟨t, p, t1, t2, t3⟩, -, ⟨u, m, u1, u2, -, u3, -⟩⟩ := C91_heat_pump h
  cases says_inj t1 (show Says _ _ _ _ "ashp" from rfl)
  cases says_inj u1 (show Says _ _ _ _ "Simple" from rfl)
  cases Except.ok.inj (t2.symm.trans (show InputText.readEnum HPType "ashp" = .ok .ashp by decide +kernel))
  cases Except.ok.inj (u2.symm.trans
    (show InputText.readEnum ModelName "Simple" = .ok .simple by decide +kernel))
  obtain ⟨cop, c1, c2⟩ := u3 rfl
  refine ⟨o, h, h1, ?_, holds_inj h4 (show Holds _ _ _ _ 0 from rfl), t3⟩
  rw [c2, holds_inj c1 (show Holds _ _ _ _ 3 from rfl)]
  rfl

/-- C91, the heater: the gas of row 10. -/
example {L : Libs} (hk : L.knownModule "Some_Module" = true) (size : ℤ × ℤ) :
    ∃ o, objects L (book "Simple") size = .ok o ∧ o.aux = ⟨false, 1, 1, 1⟩ := by
  obtain ⟨o, h⟩ := objects_made hk (model := "Simple") (by decide) size
  obtain ⟨fuel, f1, f2, f3, f4⟩ := C91_heater h
  have e : fuel = .gas :=
    Except.ok.inj (f1.symm.trans (show fuelOf (text "Gas") = .ok .gas by decide +kernel))
  subst e
  obtain ⟨row, r1, r2, r3, -, r4, r5⟩ := f4 (by decide)
  have he : o.aux.electric = false := by
    cases hx : o.aux.electric with
    | false => rfl
    | true => cases f3.mp hx
  have hr : row = 9 ∨ row = 10 ∨ row = 11 := by omega
  have e1 := holds_inj f2 (show Holds _ _ _ _ 1 from rfl)
  have e2 : o.aux.energyDensity = 1 := by
    rcases hr with rfl | rfl | rfl <;> exact holds_inj r4 rfl
  have e3 : o.aux.cost = 1 := by
    rcases hr with rfl | rfl | rfl <;> exact holds_inj r5 rfl
  refine ⟨o, h, ?_⟩
  rw [← he, ← e1]
  cases hq : o.aux
  rw [hq] at e1 e2 e3
  simp_all

/-- C93: the heat demand of hour 24 is in row 30, the temperatures are those of the sheet. -/
example {L : Libs} (hk : L.knownModule "Some_Module" = true) :
    ∃ S, runInputs L (book "Simple") (10, 0) = .ok S ∧ S.heatDemand.length = 8760 ∧
      S.heatDemand[24]? = some 2 ∧ S.elecDemand[24]? = some 2 := by
  obtain ⟨S, h⟩ := run_made hk (10, 0)
  obtain ⟨⟨s, hs, l, c⟩, ⟨s', hs', l', c'⟩, -⟩ := C93_demand (top _) h
  have hh : s.height = 8765 := by
    cases Option.some.inj hs
    rfl
  have hh' : s'.height = 8765 := by
    cases Option.some.inj hs'
    rfl
  have hl : S.heatDemand.length = 8760 := by omega
  have hl' : S.elecDemand.length = 8760 := by omega
  refine ⟨S, h, hl, ?_, ?_⟩
  · have hg := List.getElem?_eq_getElem (l := S.heatDemand) (i := 24) (by omega)
    rw [hg, holds_inj (c 24 _ hg) (show Holds _ _ _ _ 2 from rfl)]
  · have hg := List.getElem?_eq_getElem (l := S.elecDemand) (i := 24) (by omega)
    rw [hg, holds_inj (c' 24 _ hg) (show Holds _ _ _ _ 2 from rfl)]

/-- C94: the standard model can be run, the Lorentz model can be chosen but not run. -/
example {L : Libs} (hk : L.knownModule "Some_Module" = true) :
    (∃ o ps, objects L (book "Standard test regression") (10, 0) = .ok o ∧
      HpConfig.performance L.kernels o.heatPump = .ok ps) ∧
    (∃ o, objects L (book "Lorentz") (10, 0) = .ok o ∧
      ∀ ps, HpConfig.performance L.kernels o.heatPump ≠ .ok ps) := by
  constructor
  · obtain ⟨o, h⟩ := objects_made hk (model := "Standard test regression") (by decide) (10, 0)
    obtain ⟨ps, hps⟩ := (C94_performance (top _) h).mpr
      (Or.inr (Or.inr ⟨⟨_, rfl, by decide +kernel⟩, Or.inl ⟨_, rfl, by decide +kernel⟩⟩))
    exact ⟨o, ps, h, hps⟩
  · obtain ⟨o, h⟩ := objects_made hk (model := "Lorentz") (by decide) (10, 0)
    refine ⟨o, h, fun ps hps => ?_⟩
    have lor : Reads (book "Lorentz") "Heat pump" 'D' 4 ModelName.lorentz := ⟨_, rfl, by decide +kernel⟩
    rcases (C94_performance (top _) h).mp ⟨ps, hps⟩ with h0 | h0 | h0
    · cases h0
    · cases reads_unique lor h0
    · cases reads_unique lor h0.1

/-- C96: 29 test points, the duties halved for half the size. -/
example {L : Libs} (hk : L.knownModule "Some_Module" = true) :
    ∃ o data, objects L (book "Standard test regression") (10, 0) = .ok o ∧
      o.heatPump.model = .standard data ∧
      data.points = testPoints (pump "Standard test regression") (1 / 2) := by
  obtain ⟨o, h⟩ := objects_made hk (model := "Standard test regression") (by decide) (10, 0)
  obtain ⟨-, -, -, -, -, -, ⟨u, m, u1, u2, -, -, -, u3⟩⟩ := C91_heat_pump h
  cases says_inj u1 (show Says _ _ _ _ "Standard test regression" from rfl)
  cases Except.ok.inj (u2.symm.trans
    (show InputText.readEnum ModelName "Standard test regression" = .ok .standard by decide +kernel))
  obtain ⟨data, hd⟩ := u3 rfl
  obtain ⟨cap, c1, c2⟩ := C96_test_points (top _) (tail_of_height (pump_sheet _) (Nat.le_refl 47)) h (pump_sheet _) hd
  refine ⟨o, data, h, hd, ?_⟩
  rw [c2, holds_inj c1 (show Holds _ _ _ _ 20 from rfl)]
  exact congrArg (testPoints _)
    (show (if (20 : ℚ) = 0 then 0 else pyRound (((10 : ℤ) : ℚ) / 20) 2) = 1 / 2 by decide +kernel)

end Verif
