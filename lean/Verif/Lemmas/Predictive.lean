import Verif.Props.Completes

/-!
# What the predictive controller starts from
-/

set_option autoImplicit false

namespace Verif
namespace Programme
open Pandas DataFrame Workbook InputReader Simulation Para Spec FixedOrder

/-- The demand sheet, from the pickle of a combination. -/
theorem demand_hourly {wb : Pandas.Workbook} {size : ℤ × ℤ} {c : Container} {d : Dict} {f : Columns}
    (ht : TopRowsEmpty wb) (hc : containerOf wb size = .ok c) (hd : InputReader.demands c = .ok (d, f)) :
    (∀ v xs, f.get "source_temp" = .ok v → Simulation.numbers v = .ok xs → Hourly wb "Demand input" 'G' 6 xs) ∧
    (∀ v xs, f.get "flow_temp_DH" = .ok v → Simulation.numbers v = .ok xs → Hourly wb "Demand input" 'F' 6 xs) ∧
    (∀ v xs, f.get "elec_demand" = .ok v → Simulation.numbers v = .ok xs → Hourly wb "Demand input" 'E' 6 xs) ∧
    (∀ v xs, f.get "heat_demand" = .ok v → Simulation.numbers v = .ok xs → Hourly wb "Demand input" 'D' 6 xs) ∧
    (∀ v x, Dict.get d "return_temp_DH" = .ok v → v = some (.num x) → Holds wb "Demand input" 'I' 6 x) ∧
    (∀ v x, Dict.get d "source_delta_t" = .ok v → v = some (.num x) → Holds wb "Demand input" 'I' 8 x) := by
  obtain ⟨b, hr, hs⟩ := containerOf_ok hc
  obtain ⟨s, hw, hf⟩ := (readInputs_ok hr).demandInput
  obtain ⟨-, -, -, e1, e2, -⟩ := resize_rest hs
  have D := demand_cells hf
  have hb := blank ht hw
  obtain ⟨⟨w4, q4, g4⟩, ⟨w3, q3, g3⟩, ⟨w2, q2, g2⟩, ⟨w1, q1, g1⟩, ⟨w5, q5, g5⟩, ⟨w6, q6, g6⟩⟩ := demands_ok hd
  rw [e2] at g1 g2 g3 g4
  rw [e1, D.static] at g5 g6
  simp only [dict_cons, reduceIte, String.reduceEq, Except.ok.injEq] at g5 g6
  have key : ∀ (col : Char) (xs : List ℚ),
      Simulation.numbers ((List.range (s.height - 5)).map
        (fun t => s.cell (t + 6) (col.toNat - 'A'.toNat))) = .ok xs →
      Hourly wb "Demand input" col 6 xs := by
    intro col xs hn
    obtain ⟨hl, hx⟩ := numbers_range hn
    refine ⟨s, hw, by omega, fun t x hxt => ?_⟩
    unfold Holds
    rw [excel_eq hw, Nat.add_comm]
    exact hx t x hxt
  refine ⟨fun v xs h1 n1 => ?_, fun v xs h1 n1 => ?_, fun v xs h1 n1 => ?_, fun v xs h1 n1 => ?_,
    fun v x h1 n1 => ?_, fun v x h1 n1 => ?_⟩
  · cases Except.ok.inj (h1.symm.trans q1)
    rw [D.source hb _ g1] at n1
    exact key 'G' _ n1
  · cases Except.ok.inj (h1.symm.trans q2)
    rw [D.flow hb _ g2] at n1
    exact key 'F' _ n1
  · cases Except.ok.inj (h1.symm.trans q3)
    rw [D.elec hb _ g3] at n1
    exact key 'E' _ n1
  · cases Except.ok.inj (h1.symm.trans q4)
    rw [D.heat hb _ g4] at n1
    exact key 'D' _ n1
  · cases Except.ok.inj (h1.symm.trans q5)
    unfold Holds
    rw [excel_eq hw]
    exact g5.trans n1
  · cases Except.ok.inj (h1.symm.trans q6)
    unfold Holds
    rw [excel_eq hw]
    exact g6.trans n1

/-- What the predictive controller starts from, in terms of the objects made and the sheets. -/
structure PredictOf (L : Libs) (wb : Pandas.Workbook) (size : ℤ × ℤ) (first n : ℕ) (S : MpcIn (List ℚ))
    (maxCap : List ℚ) (o : Objects) (hs xs us ds ps prs : List ℚ) (pfs : List Perf) : Prop where
  objects : objects L wb size = .ok o
  hp : S.hp = ⟨o.heatPump.capacity, o.minimumRuntime, o.minimumOutput⟩
  es : S.es = o.battery
  aux : S.aux = o.aux
  horizon : Holds wb "Controller" 'G' 9 S.horizon
  exportPrice : Holds wb "Grid" 'D' 9 S.exportPrice
  heat : Hourly wb "Demand input" 'D' 6 hs
  heatDemand : S.heatDemand = fun t => hs.getD t 0
  peak : S.peakHeatDemand = FixedOrder.listMax hs
  elec : Hourly wb "Demand input" 'E' 6 xs
  elecDemand : S.elecDemand = fun t => xs.getD t 0
  windUser : userSeries L o.windUser = .ok us
  windData : databaseSeries L o.windDatabase = .ok ds
  pvPower : pvSeries L o.pv = .ok ps
  wind : S.wind = fun t => (List.zipWith (· + ·) us ds).getD t 0
  pv : S.pv = fun t => ps.getD t 0
  generation : S.generation =
    fun t => (List.zipWith (· + ·) (List.zipWith (· + ·) us ds) ps).getD t 0
  prices : ∃ c, containerOf wb size = .ok c ∧ importPrices L c o.grid = .ok prs
  importCost : S.importCost = fun t => prs.getD t 0
  performance : HpConfig.performance L.kernels o.heatPump = .ok pfs
  perf : S.perf = fun t => pfs.getD t ⟨0, 0⟩
  tank : ∃ source flow ret delta, Hourly wb "Demand input" 'G' 6 source ∧
    Hourly wb "Demand input" 'F' 6 flow ∧ Holds wb "Demand input" 'I' 6 ret ∧
    Holds wb "Demand input" 'I' 8 delta ∧
    S.tank = Mpc.ofTank o.tank (fun t => ⟨source.getD t 0, delta, flow.getD t 0, ret⟩) ret ∧
    Mpc.maxCapacity (fun t => o.tank.maxEnergy t .charging ⟨source.getD t 0, delta, flow.getD t 0, ret⟩
      (List.replicate o.tank.number ret)) first n S.horizon = .ok maxCap

theorem mpcIn_ok {L : Libs} {wb : Pandas.Workbook} {size : ℤ × ℤ} {first n : ℕ} {S : MpcIn (List ℚ)}
    {maxCap : List ℚ} (ht : TopRowsEmpty wb) (h : mpcInputs L wb size first n = .ok (S, maxCap)) :
    ∃ o heat elec user data pv price perf,
      PredictOf L wb size first n S maxCap o heat elec user data pv price perf := by
  unfold mpcInputs at h
  simp only [except_bind_ok] at h
  obtain ⟨c, hc, h⟩ := h
  obtain ⟨b, hr, hs⟩ := containerOf_ok hc
  obtain ⟨s, hw, hf⟩ := (readInputs_ok hr).controller
  obtain ⟨s', hw', hf'⟩ := (readInputs_ok hr).grid
  obtain ⟨-, e1, -, -, -, -, -, -, -, -, -, -, -, e2, -⟩ := resize_rest hs
  obtain ⟨-, k1, k4, k2, k3⟩ := controller_cells hf
  have C := grid_cells hf'
  unfold mpcIn at h
  simp only [except_bind_ok, except_pure_ok, numOf_ok] at h
  obtain ⟨o, ho, hz, hhz, ⟨d, f⟩, hd, v1, h1, x1, n1, v2, h2, x2, n2, v3, h3, x3, n3, v4, h4, x4, n4,
    v5, h5, x5, n5, v6, h6, x6, n6, price, hprice, ep, hep, u, hu, da, hda, pv, hpv, perf, hperf,
    mc, hmc, rows, hrows, h⟩ := h
  obtain ⟨rfl, rfl⟩ := Prod.mk.inj h
  obtain ⟨D1, D2, D3, D4, D5, D6⟩ := demand_hourly ht hc hd
  rw [e2] at hep
  rw [e1] at hhz
  refine ⟨o, x4, x3, u, da, pv, price, perf,
    { objects := ?_, hp := rfl, es := rfl, aux := rfl, horizon := ?_, exportPrice := ?_,
      heat := D4 _ _ h4 n4, heatDemand := rfl, peak := rfl, elec := D3 _ _ h3 n3, elecDemand := rfl, windUser := hu,
      windData := hda, pvPower := hpv, wind := rfl, pv := rfl, generation := rfl,
      prices := ⟨c, hc, hprice⟩, importCost := rfl, performance := hperf, perf := rfl,
      tank := ⟨x1, x2, x5, x6, D1 _ _ h1 n1, D2 _ _ h2 n2, D5 _ _ h5 n5, D6 _ _ h6 n6, rfl, hmc⟩ }⟩
  · unfold Simulation.objects
    rw [hc]
    exact ho
  · unfold Holds
    rw [excel_eq hw]
    exact k4.symm.trans (natOf_ok hhz)
  · unfold Holds
    rw [excel_eq hw']
    exact C.exportPrice.symm.trans hep

/-- One combination with the predictive controller, from the workbook. -/
theorem predict_ok {L : Libs} {gekko : Gekko} {wb : Pandas.Workbook} {size : ℤ × ℤ}
    {rs : List (Mpc.MpcResults (List ℚ))} :
    predict L gekko wb size = .ok rs ↔ ∃ first n S maxCap, mpcInputs L wb size first n = .ok (S, maxCap) ∧
      Holds wb "Controller" 'G' 5 (first : ℕ) ∧ Holds wb "Controller" 'G' 6 (n : ℕ) ∧
      Mpc.movingHorizon S (gekko S maxCap) first n = .ok rs := by
  have key : ∀ c, containerOf wb size = .ok c → ∃ s, wb "Controller" = some s ∧
      c.controller.info = [("controller", s.cell 5 3), ("first_hour", s.cell 5 6),
        ("total_timesteps", s.cell 6 6)] := by
    intro c hc
    obtain ⟨b, hr, hs⟩ := containerOf_ok hc
    obtain ⟨s, hw, hf⟩ := (readInputs_ok hr).controller
    obtain ⟨-, e, -⟩ := resize_rest hs
    exact ⟨s, hw, by rw [e, (controller_cells hf).1]⟩
  unfold predict mpcInputs Holds
  constructor
  · intro h
    simp only [except_bind_ok] at h
    obtain ⟨c, hc, h⟩ := h
    obtain ⟨s, hw, e⟩ := key c hc
    rw [e] at h
    simp only [dict_cons, reduceIte, String.reduceEq, Except.ok.injEq, exists_eq_left'] at h
    obtain ⟨n, hn, first, hf, ⟨S, mc⟩, hS, hrun⟩ := h
    refine ⟨first, n, S, mc, ?_, (excel_eq hw 'G' 5).trans (natOf_ok hf), (excel_eq hw 'G' 6).trans (natOf_ok hn),
      hrun⟩
    rw [hc]
    exact hS
  · rintro ⟨first, n, S, mc, hS, h5, h6, hrun⟩
    simp only [except_bind_ok] at hS ⊢
    obtain ⟨c, hc, hS⟩ := hS
    obtain ⟨s, hw, e⟩ := key c hc
    rw [excel_eq hw] at h5 h6
    refine ⟨c, hc, ?_⟩
    rw [e]
    simp only [dict_cons, reduceIte, String.reduceEq, Except.ok.injEq, exists_eq_left']
    exact ⟨n, (congrArg natOf h6).trans (natOf_num n), first, (congrArg natOf h5).trans (natOf_num first),
      (S, mc), hS, hrun⟩

end Programme
end Verif
