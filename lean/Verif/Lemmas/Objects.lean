import Verif.Lemmas.TestData
import Verif.Lemmas.HeatPumpConfig

/-! # Lemmas about the objects of one combination -/

set_option autoImplicit false

namespace Verif
namespace Simulation
open Pandas DataFrame Workbook InputReader FixedOrder Enums Tariff HpConfig

theorem blank {wb : Pandas.Workbook} (h : Spec.TopRowsEmpty wb) {n : String} {s : Pandas.Sheet}
    (hs : wb n = some s) : BlankHeader s := fun k => h n s hs k

theorem containerOf_ok {wb : Pandas.Workbook} {size : ℤ × ℤ} {c : Container}
    (h : containerOf wb size = .ok c) :
    ∃ base, readInputs wb = .ok base ∧ resizeContainer size base = .ok c := by
  unfold containerOf at h
  simp only [except_bind_ok] at h
  exact h

theorem objects_ok {L : Libs} {wb : Pandas.Workbook} {size : ℤ × ℤ} {o : Objects}
    (h : objects L wb size = .ok o) :
    ∃ base c, readInputs wb = .ok base ∧ resizeContainer size base = .ok c ∧ init L c = .ok o := by
  unfold objects at h
  simp only [except_bind_ok] at h
  obtain ⟨c, hc, ho⟩ := h
  obtain ⟨base, hr, hs⟩ := containerOf_ok hc
  exact ⟨base, c, hr, hs, ho⟩

/-- Everything but the sizes is as read. -/
theorem resize_rest {size : ℤ × ℤ} {b c : Container} (h : resizeContainer size b = .ok c) :
    c.parametric = b.parametric ∧ c.controller = b.controller ∧ c.resources = b.resources ∧
    c.demandStatic = b.demandStatic ∧ c.demandVariable = b.demandVariable ∧
    c.pvLocation = b.pvLocation ∧ c.pvSpec = b.pvSpec ∧ c.windDatabase = b.windDatabase ∧
    c.windUser = b.windUser ∧ c.powerCurve = b.powerCurve ∧ c.windFarm = b.windFarm ∧
    c.windFarmResources = b.windFarmResources ∧ c.electricalStorage = b.electricalStorage ∧
    c.grid = b.grid ∧ c.auxFuel = b.auxFuel ∧ c.auxEfficiency = b.auxEfficiency ∧
    c.fuelInfo = b.fuelInfo ∧ c.heatPump.simple = b.heatPump.simple ∧
    c.heatPump.lorentz = b.heatPump.lorentz := by
  obtain ⟨_, _, _, _, _, _, _, _, _, _, _, _, _, _, rfl⟩ := resizeContainer_ok h
  exact ⟨rfl, rfl, rfl, rfl, rfl, rfl, rfl, rfl, rfl, rfl, rfl, rfl, rfl, rfl, rfl, rfl, rfl, rfl, rfl⟩

/-! ## Grid -/

/-- What each attribute of the grid was made from. -/
structure GridFrom (g : GridPart) (o : Grid) : Prop where
  tariff : g.tariffChoice = some (.text o.tariff)
  flat : ∀ x, o.flatRate = some x → Dict.get g.flatRates "import" = .ok (some (.num x))
  periods : ∀ p, o.periods = some p → ∀ d, ∃ vs,
    g.variablePeriods.column (.named (dayColumn d)) = .ok vs ∧ numbers vs = .ok (p d)
  year : ∀ y, o.year = some y → g.variablePeriodsYear = some (.num (y : ℚ))
  wholesale : ∀ xs, o.wholesale = some xs → ∃ vs,
    g.wholesaleMarket.column (.named "wholesale_market") = .ok vs ∧ numbers vs = .ok xs
  premium : ∀ x, o.premium = some x → Dict.get g.wmInfo "premium" = .ok (some (.num x))
  maximum : ∀ x, o.maximum = some x → Dict.get g.wmInfo "maximum" = .ok (some (.num x))
  lowerPercent : ∀ x, o.lowerPercent = some x → Dict.get g.ppaInfo "lower_percent" = .ok (some (.num x))
  higherPercent : ∀ x, o.higherPercent = some x →
    Dict.get g.ppaInfo "higher_percent" = .ok (some (.num x))
  lowerPenalty : ∀ x, o.lowerPenalty = some x → Dict.get g.ppaInfo "lower_penalty" = .ok (some (.num x))
  higherDiscount : ∀ x, o.higherDiscount = some x →
    Dict.get g.ppaInfo "higher_discount" = .ok (some (.num x))

theorem flatRate_ok {g : GridPart} {x : ℚ} (h : flatRate g = .ok x) :
    Dict.get g.flatRates "import" = .ok (some (.num x)) := by
  unfold flatRate at h
  simp only [except_bind_ok, numOf_ok] at h
  obtain ⟨v, h, rfl⟩ := h
  exact h

theorem market_ok {g : GridPart} {xs : List ℚ} {a b : ℚ} (h : market g = .ok (xs, a, b)) :
    (∃ vs, g.wholesaleMarket.column (.named "wholesale_market") = .ok vs ∧ numbers vs = .ok xs) ∧
    Dict.get g.wmInfo "premium" = .ok (some (.num a)) ∧
    Dict.get g.wmInfo "maximum" = .ok (some (.num b)) := by
  unfold market at h
  simp only [except_bind_ok, numOf_ok, except_pure_ok] at h
  obtain ⟨vs, h1, ys, h2, v, h3, y, rfl, w, h4, z, rfl, h⟩ := h
  cases h
  exact ⟨⟨vs, h1, h2⟩, h3, h4⟩

theorem ppaTerms_ok {g : GridPart} {a b c d : ℚ} (h : ppaTerms g = .ok (a, b, c, d)) :
    Dict.get g.ppaInfo "lower_percent" = .ok (some (.num a)) ∧
    Dict.get g.ppaInfo "higher_percent" = .ok (some (.num b)) ∧
    Dict.get g.ppaInfo "lower_penalty" = .ok (some (.num c)) ∧
    Dict.get g.ppaInfo "higher_discount" = .ok (some (.num d)) := by
  unfold ppaTerms at h
  simp only [except_bind_ok, numOf_ok, except_pure_ok] at h
  obtain ⟨v1, h1, _, rfl, v2, h2, _, rfl, v3, h3, _, rfl, v4, h4, _, rfl, h⟩ := h
  cases h
  exact ⟨h1, h2, h3, h4⟩

theorem periodsOf_ok {f : DataFrame} {p : Weekday → List ℚ} (h : periodsOf f = .ok p) (d : Weekday) :
    ∃ vs, f.column (.named (dayColumn d)) = .ok vs ∧ numbers vs = .ok (p d) := by
  unfold periodsOf at h
  simp only [except_bind_ok, except_pure_ok] at h
  obtain ⟨_, ⟨v1, a1, b1⟩, _, ⟨v2, a2, b2⟩, _, ⟨v3, a3, b3⟩, _, ⟨v4, a4, b4⟩, _, ⟨v5, a5, b5⟩, _,
    ⟨v6, a6, b6⟩, _, ⟨v7, a7, b7⟩, rfl⟩ := h
  cases d
  · exact ⟨v1, a1, b1⟩
  · exact ⟨v2, a2, b2⟩
  · exact ⟨v3, a3, b3⟩
  · exact ⟨v4, a4, b4⟩
  · exact ⟨v5, a5, b5⟩
  · exact ⟨v6, a6, b6⟩
  · exact ⟨v7, a7, b7⟩

theorem makeGrid_ok {g : GridPart} {o : Grid} (h : makeGrid g = .ok o) : GridFrom g o := by
  unfold makeGrid at h
  split at h
  · rename_i ht
    simp only [except_bind_ok, except_pure_ok] at h
    obtain ⟨x, h1, rfl⟩ := h
    have h1 := flatRate_ok h1
    constructor <;> (try (intro y hy; cases hy)) <;> first | exact ht | exact h1
  · rename_i ht
    simp only [except_bind_ok, except_pure_ok] at h
    obtain ⟨p, h1, y, h2, rfl⟩ := h
    have h2 := intOf_ok h2
    constructor <;> (try (intro y hy; cases hy)) <;> first | exact ht | exact h2 | exact periodsOf_ok h1
  · rename_i ht
    simp only [except_bind_ok, except_pure_ok] at h
    obtain ⟨⟨xs, a, b⟩, h1, rfl⟩ := h
    obtain ⟨h1, h2, h3⟩ := market_ok h1
    constructor <;> (try (intro y hy; cases hy)) <;> first | exact ht | exact h1 | exact h2 | exact h3
  · rename_i ht
    simp only [except_bind_ok, except_pure_ok] at h
    obtain ⟨x, h1, ⟨a, b, c, d⟩, h2, rfl⟩ := h
    have h1 := flatRate_ok h1
    obtain ⟨k1, k2, k3, k4⟩ := ppaTerms_ok h2
    constructor <;> (try (intro y hy; cases hy)) <;>
      first | exact ht | exact h1 | exact k1 | exact k2 | exact k3 | exact k4
  · rename_i ht
    simp only [except_bind_ok, except_pure_ok] at h
    obtain ⟨⟨xs, a', b'⟩, h1, ⟨a, b, c, d⟩, h2, rfl⟩ := h
    obtain ⟨h1, h3, h4⟩ := market_ok h1
    obtain ⟨k1, k2, k3, k4⟩ := ppaTerms_ok h2
    constructor <;> (try (intro y hy; cases hy)) <;>
      first | exact ht | exact h1 | exact h3 | exact h4 | exact k1 | exact k2 | exact k3 | exact k4
  · rename_i ht
    simp only [except_bind_ok, except_pure_ok] at h
    obtain ⟨p, h1, y, hy, ⟨a, b, c, d⟩, h2, rfl⟩ := h
    have hy := intOf_ok hy
    obtain ⟨k1, k2, k3, k4⟩ := ppaTerms_ok h2
    constructor <;> (try (intro y hy; cases hy)) <;>
      first | exact ht | exact hy | exact periodsOf_ok h1 | exact k1 | exact k2 | exact k3 | exact k4
  · cases h

/-! ## Auxiliary heater -/

theorem makeAux_ok {c : Container} {a : AuxI} (h : makeAux c = .ok a) :
    c.auxEfficiency = some (.num a.efficiency) ∧ a.electric = (c.auxFuel == .electric) ∧
    (c.auxFuel ≠ .electric → ∃ d, fuelDict c.fuelInfo c.auxFuel = some d ∧
      Dict.get d "cost" = .ok (some (.num a.cost)) ∧
      Dict.get d "energy_density" = .ok (some (.num a.energyDensity))) := by
  unfold makeAux at h
  simp only [except_bind_ok, numOf_ok] at h
  obtain ⟨e, he, h⟩ := h
  split at h
  · rename_i hf
    rw [except_pure_ok] at h
    subst h
    exact ⟨he, by rw [hf]; rfl, fun hn => absurd hf hn⟩
  · rename_i hf
    split at h
    · cases h
    · rename_i d hd
      simp only [except_bind_ok, except_pure_ok, numOf_ok] at h
      obtain ⟨v, hv, x, rfl, w, hw, y, rfl, rfl⟩ := h
      exact ⟨he, (beq_eq_false_iff_ne.mpr hf).symm, fun _ => ⟨d, hd, hv, hw⟩⟩

/-! ## Heat pump -/

/-- The arguments of the heat pump. -/
structure ArgsFrom (c : Container) (w : Columns) (b : HpBasics) (a : HpArgs) : Prop where
  hpType : a.hpType = .member b.hpType
  approach : a.approach = .member b.approach
  dataInput : a.dataInput = .member b.dataInput
  capacity : b.capacity = some (.num a.capacity)
  ambientDeltaT : b.ambientDeltaT = some (.num a.ambientDeltaT)
  flow : ∃ vs xs, c.demandVariable.column (.named "temp_source") = .ok vs ∧ numbers vs = .ok xs ∧
    a.flow = .series xs
  ret : ∃ v x, Dict.get c.demandStatic "temp_return" = .ok v ∧ v = some (.num x) ∧ a.ret = .scalar x
  ambient : ∃ vs xs us ys, w.get "air_temperature" = .ok vs ∧ numbers vs = .ok xs ∧
    w.get "water_temperature" = .ok us ∧ numbers us = .ok ys ∧ a.ambient = xs.zip ys
  simple : b.approach = .simple → ∃ x, c.heatPump.simple = some (.num x) ∧ a.simpleCop = some x
  lorentz : b.approach = .lorentz → ∃ d l, heatpumpLorentz c = .ok d ∧ a.lorentz = some l ∧
    Dict.get d "cop" = .ok (some (.num l.cop)) ∧
    Dict.get d "flow_temp_spec" = .ok (some (.num l.flow)) ∧
    Dict.get d "return_temp_spec" = .ok (some (.num l.ret)) ∧
    Dict.get d "temp_ambient_in_spec" = .ok (some (.num l.ambientIn)) ∧
    Dict.get d "temp_ambient_out_spec" = .ok (some (.num l.ambientOut)) ∧
    Dict.get d "elec_capacity" = .ok (some (.num l.elecCapacity))
  standard : b.approach = .standard → ∃ x cosp duty data, heatpumpStandard c = .ok (x, cosp, duty) ∧
    testData x cosp duty = .ok data ∧ a.standard = some data
  generic : b.approach ≠ .generic

theorem demands_ok {c : Container} {d : Dict} {f : Columns} (h : InputReader.demands c = .ok (d, f)) :
    (∃ v, Columns.get f "heat_demand" = .ok v ∧ c.demandVariable.column (.named "heat demand") = .ok v) ∧
    (∃ v, Columns.get f "elec_demand" = .ok v ∧
      c.demandVariable.column (.named "electrical demand") = .ok v) ∧
    (∃ v, Columns.get f "flow_temp_DH" = .ok v ∧ c.demandVariable.column (.named "temp_flow") = .ok v) ∧
    (∃ v, Columns.get f "source_temp" = .ok v ∧ c.demandVariable.column (.named "temp_source") = .ok v) ∧
    (∃ v, Dict.get d "return_temp_DH" = .ok v ∧ Dict.get c.demandStatic "temp_return" = .ok v) ∧
    (∃ v, Dict.get d "source_delta_t" = .ok v ∧ Dict.get c.demandStatic "source_delta_t" = .ok v) := by
  unfold InputReader.demands at h
  simp only [except_bind_ok, except_pure_ok] at h
  obtain ⟨v1, h1, v2, h2, v3, h3, v4, h4, v5, h5, v6, h6, h⟩ := h
  cases h
  simp only [dict_cons, columns_cons, reduceIte, String.reduceEq, Except.ok.injEq, exists_eq_left']
  exact ⟨h1, h2, h3, h5, h4, h6⟩

theorem hpArgs_ok {c : Container} {w : Columns} {b : HpBasics} {a : HpArgs} (h : hpArgs c w b = .ok a) :
    ArgsFrom c w b a := by
  unfold hpArgs at h
  simp only [except_bind_ok] at h
  obtain ⟨⟨d, f⟩, h1, cap, h2, adt, h3, vs, h4, xs, h5, v, h6, x, h7, us, h8, ys, h9, us', h10, ys', h11,
    h⟩ := h
  obtain ⟨-, -, -, ⟨v1, k1, k2⟩, ⟨v2, k3, k4⟩, -⟩ := demands_ok h1
  rw [h4] at k1
  cases Except.ok.inj k1
  rw [h6] at k3
  cases Except.ok.inj k3
  rw [numOf_ok] at h2 h3 h7
  cases hb : b.approach with
  | simple =>
    rw [hb] at h
    simp only [except_bind_ok, except_pure_ok, numOf_ok] at h
    obtain ⟨y, hy, rfl⟩ := h
    exact ⟨rfl, by rw [hb], rfl, h2, h3, ⟨vs, xs, k2, h5, rfl⟩, ⟨v, x, k4, h7, rfl⟩,
      ⟨us, ys, us', ys', h8, h9, h10, h11, rfl⟩, fun _ => ⟨y, hy, rfl⟩, fun h => absurd (hb.symm.trans h) (by decide),
      fun h => absurd (hb.symm.trans h) (by decide), by rw [hb]; decide⟩
  | lorentz =>
    rw [hb] at h
    simp only [except_bind_ok, except_pure_ok, numOf_ok] at h
    obtain ⟨d', hd, v1, g1, y1, rfl, v2, g2, y2, rfl, v3, g3, y3, rfl, v4, g4, y4, rfl, v5, g5, y5, rfl,
      v6, g6, y6, rfl, rfl⟩ := h
    exact ⟨rfl, by rw [hb], rfl, h2, h3, ⟨vs, xs, k2, h5, rfl⟩, ⟨v, x, k4, h7, rfl⟩,
      ⟨us, ys, us', ys', h8, h9, h10, h11, rfl⟩, fun h => absurd (hb.symm.trans h) (by decide),
      fun _ => ⟨d', _, hd, rfl, g1, g2, g3, g4, g5, g6⟩,
      fun h => absurd (hb.symm.trans h) (by decide), by rw [hb]; decide⟩
  | generic =>
    rw [hb] at h
    cases h
  | standard =>
    rw [hb] at h
    simp only [except_bind_ok, except_pure_ok] at h
    obtain ⟨⟨x', c', d'⟩, hd, data, hdata, rfl⟩ := h
    exact ⟨rfl, by rw [hb], rfl, h2, h3, ⟨vs, xs, k2, h5, rfl⟩, ⟨v, x, k4, h7, rfl⟩,
      ⟨us, ys, us', ys', h8, h9, h10, h11, rfl⟩, fun h => absurd (hb.symm.trans h) (by decide),
      fun h => absurd (hb.symm.trans h) (by decide), fun _ => ⟨x', c', d', data, hd, hdata, rfl⟩,
      by rw [hb]; decide⟩

end Simulation
end Verif
