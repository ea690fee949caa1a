import Verif.Props.Objects
import Verif.Props.HeatPumpConfig

/-!
# Property C94, continued: when the fixed order controller can start

The objects are made; what remains are the demand series, the prices, the power of the turbines and panels,
and the performance of the heat pump over the year.
-/

set_option autoImplicit false

namespace Verif
open Pandas Workbook InputReader Enums Simulation Spec FixedOrder Tariff

theorem reads_unique {α : Type} [StrEnum α] [DecidableEq α] {wb : Pandas.Workbook} {sheet : String}
    {col : Char} {row : ℕ} {a b : α} (ha : Reads wb sheet col row a) (hb : Reads wb sheet col row b) :
    a = b := by
  obtain ⟨t, h1, h2⟩ := ha
  obtain ⟨u, h3, h4⟩ := hb
  have h := h1.symm.trans h3
  injection h with h
  injection h with h
  subst h
  exact Except.ok.inj (h2.symm.trans h4)

/-- C94: the yearly performance of a heat pump read from a workbook can be computed exactly if its size is
zero, or its model is the simple one, or it is given by test data that are integrated or of an air source
pump. In particular the Lorentz model can be chosen but never run. -/
theorem C94_performance {L : Libs} {wb : Pandas.Workbook} {size : ℤ × ℤ} {o : Objects}
    (ht : TopRowsEmpty wb) (h : objects L wb size = .ok o) :
    (∃ ps, HpConfig.performance L.kernels o.heatPump = .ok ps) ↔
      size.1 = 0 ∨ Reads wb "Heat pump" 'D' 4 ModelName.simple ∨
      Reads wb "Heat pump" 'D' 4 ModelName.standard ∧
        (Reads wb "Heat pump" 'D' 9 DataInput.integrated ∨ Reads wb "Heat pump" 'D' 3 HPType.ashp) := by
  obtain ⟨hcap, -, -, -, ⟨t1, p1, S1, R1, E1⟩, ⟨t2, p2, S2, R2, E2⟩,
    ⟨t3, m, S3, R3, hgen, hsim, hlor, hstd⟩⟩ := C91_heat_pump h
  obtain ⟨air, water, source, ret, -, -, -, -, l1, l2, l3, -, hamb, hflow, hret⟩ := C93_temperatures ht h
  have r1 : Reads wb "Heat pump" 'D' 3 p1 := ⟨t1, S1, R1⟩
  have r2 : Reads wb "Heat pump" 'D' 9 p2 := ⟨t2, S2, R2⟩
  have r3 : Reads wb "Heat pump" 'D' 4 m := ⟨t3, S3, R3⟩
  have hres : (HpConfig.heatResource o.heatPump).length = 8760 := by
    rw [heatResource_length, hamb, List.length_zip, l1, l2]
    rfl
  by_cases h0 : size.1 = 0
  · refine ⟨fun _ => Or.inl h0, fun _ => ?_⟩
    unfold HpConfig.performance
    rw [if_pos (by rw [hcap, h0]; rfl), mkPerformance_eq (by rw [List.length_replicate, List.length_replicate])]
    exact ⟨_, rfl⟩
  have h0' : o.heatPump.capacity ≠ 0 := by
    rw [hcap]
    exact_mod_cast h0
  cases m with
  | generic => exact absurd rfl hgen
  | simple =>
    refine ⟨fun _ => Or.inr (Or.inl r3), fun _ => ?_⟩
    obtain ⟨cop, -, hm⟩ := hsim rfl
    unfold HpConfig.performance
    rw [if_neg h0', hm]
    dsimp only
    rw [mkPerformance_eq (by rw [List.length_replicate, List.length_replicate])]
    exact ⟨_, rfl⟩
  | lorentz =>
    obtain ⟨l, -, -, -, -, -, -, hm⟩ := hlor rfl
    constructor
    · rintro ⟨ps, hp⟩
      unfold HpConfig.performance at hp
      rw [if_neg h0', hm, hflow, hret] at hp
      cases hp
    · rintro (h | h | ⟨h, -⟩)
      · exact absurd h h0
      · cases reads_unique r3 h
      · cases reads_unique r3 h
  | standard =>
    obtain ⟨data, hm⟩ := hstd rfl
    rw [performance_standard h0' hm, hflow]
    have hfac : (∃ f, standardFactor o.heatPump = .ok f) ↔
        (p2 = .integrated ∨ p1 = .ashp) := by
      unfold standardFactor
      rw [E1, E2]
      generalize HpConfig.heatResource o.heatPump = res
      cases p2 <;> cases p1 <;> simp [Enums.eqMember]
    constructor
    · rintro ⟨ps, hp⟩
      refine Or.inr (Or.inr ⟨r3, ?_⟩)
      cases hf : standardFactor o.heatPump with
      | error e => rw [hf] at hp; cases hp
      | ok f =>
        rcases hfac.mp ⟨f, hf⟩ with rfl | rfl
        · exact Or.inl r2
        · exact Or.inr r1
    · rintro (h | h | ⟨-, h⟩)
      · exact absurd h h0
      · cases reads_unique r3 h
      · obtain ⟨f, hf⟩ := hfac.mpr (by
          rcases h with h | h
          · exact Or.inl (reads_unique r2 h)
          · exact Or.inr (reads_unique r1 h))
        have hl := standardFactor_length hf
        simp only [HpConfig.values, Except.bind, hf]
        rw [mkPerformance_eq (by
          simp only [List.length_zipWith, hl, hres, l3, HpConfig.raw, Nat.min_self])]
        exact ⟨_, rfl⟩

/-- C94: the fixed order controller can start on a combination exactly if its objects can be made, the
demands, the flow temperature, the temperature difference of the source, the export price and the import
setpoint are numbers, and the prices, the three power series and the performance can be computed. -/
theorem C94_start {L : Libs} {wb : Pandas.Workbook} {size : ℤ × ℤ} (ht : TopRowsEmpty wb) :
    (∃ S, runInputs L wb size = .ok S) ↔ ∃ c o, containerOf wb size = .ok c ∧
      objects L wb size = .ok o ∧
      (∀ col ∈ ['D', 'E', 'F'], ∀ r, 6 ≤ r → r ≤ 8765 → Number wb "Demand input" col r) ∧
      Number wb "Demand input" 'I' 8 ∧ Number wb "Grid" 'D' 9 ∧ Number wb "Controller" 'D' 7 ∧
      (∃ xs, importPrices L c o.grid = .ok xs) ∧ (∃ xs, userSeries L o.windUser = .ok xs) ∧
      (∃ xs, databaseSeries L o.windDatabase = .ok xs) ∧ (∃ xs, pvSeries L o.pv = .ok xs) ∧
      (size.1 = 0 ∨ Reads wb "Heat pump" 'D' 4 ModelName.simple ∨
        Reads wb "Heat pump" 'D' 4 ModelName.standard ∧
          (Reads wb "Heat pump" 'D' 9 DataInput.integrated ∨ Reads wb "Heat pump" 'D' 3 HPType.ashp)) := by
  constructor
  · rintro ⟨S, h⟩
    obtain ⟨D1, D2, -, -, flow, -, delta, -, -, -, D3, -, D4⟩ := C93_demand ht h
    obtain ⟨C1, C2, -, -⟩ := C91_controller h
    unfold runInputs at h
    simp only [except_bind_ok] at h
    obtain ⟨c, hc, h⟩ := h
    have hio : ∀ o, init L c = .ok o → objects L wb size = .ok o := by
      intro o ho
      unfold objects
      rw [hc]
      exact ho
    unfold fixedOrderIn at h
    simp only [except_bind_ok, except_pure_ok] at h
    obtain ⟨o, ho, ⟨d, f⟩, -, _, -, _, -, _, -, _, -, _, -, _, -, _, -, _, -, _, -, _, -, _, -, _, -,
      xp, hp, _, -, _, -, xu, hu, xd, hd, xv, hv, perf, hperf, -⟩ := h
    have hob := hio o ho
    obtain ⟨air, water, source, ret, -, -, A3, -, -, -, l3, -⟩ := C93_temperatures ht hob
    obtain ⟨⟨s, hs, hh⟩, -⟩ := hourly_numbers A3 l3
    have key : ∀ {col : Char} {xs : List ℚ}, Hourly wb "Demand input" col 6 xs →
        ∀ r, 6 ≤ r → r ≤ 8765 → Number wb "Demand input" col r := by
      intro col xs hx
      refine (hourly_numbers hx ?_).2
      obtain ⟨s', hs', hl, -⟩ := hx
      cases Option.some.inj (hs.symm.trans hs')
      omega
    refine ⟨c, o, hc, hob, ?_, ⟨_, D4⟩, ⟨_, C2⟩, ⟨_, C1⟩, ⟨xp, hp⟩, ⟨xu, hu⟩, ⟨xd, hd⟩, ⟨xv, hv⟩,
      (C94_performance ht hob).mp ⟨perf, hperf⟩⟩
    simp only [List.forall_mem_cons, List.not_mem_nil, false_implies, implies_true, and_true]
    exact ⟨key D1, key D2, key D3⟩
  · rintro ⟨c, o, hc, hob, hdem, ⟨delta, hdelta⟩, ⟨ex, hex⟩, ⟨sp, hsp⟩, ⟨xp, hp⟩, ⟨xu, hu⟩, ⟨xd, hd⟩,
      ⟨xv, hv⟩, hperf⟩
    obtain ⟨ps, hps⟩ := (C94_performance ht hob).mpr hperf
    obtain ⟨air, water, source, ret, -, -, A3, A4, -, -, l3, -⟩ := C93_temperatures ht hob
    obtain ⟨⟨s, hs, hh⟩, hsrc⟩ := hourly_numbers A3 l3
    have ho : init L c = .ok o := by
      unfold objects at hob
      rw [hc] at hob
      exact hob
    obtain ⟨b, hr, hre⟩ := containerOf_ok hc
    have R := readInputs_ok hr
    obtain ⟨-, e1, -, e3, e4, -, -, -, -, -, -, -, -, e13, -⟩ := resize_rest hre
    obtain ⟨s5, hw5, g5⟩ := R.demandInput
    cases Option.some.inj (hs.symm.trans hw5)
    obtain ⟨s5', hw5', hwd5, -⟩ := ((C92_readable ht).mp ⟨b, hr⟩).demandInput
    cases Option.some.inj (hs.symm.trans hw5')
    have hdm := demands_total (c := c) (blank ht hs) (e3 ▸ e4 ▸ g5) (le_trans (by decide) hwd5)
    simp only [List.forall_mem_cons, List.not_mem_nil, false_implies, implies_true, and_true] at hdem
    obtain ⟨d1, d2, d3⟩ := hdem
    unfold Number Holds at d1 d2 d3 hsrc
    unfold Holds at A4 hdelta hex hsp
    simp only [excel_eq hs] at d1 d2 d3 hsrc A4 hdelta
    obtain ⟨heat, hn1, -⟩ := numbers_total (n := s.height - 5) (g := fun t => s.cell (t + 6) 3)
      (fun t htt => d1 (t + 6) (by omega) (by omega))
    obtain ⟨elec, hn2, -⟩ := numbers_total (n := s.height - 5) (g := fun t => s.cell (t + 6) 4)
      (fun t htt => d2 (t + 6) (by omega) (by omega))
    obtain ⟨flow, hn3, -⟩ := numbers_total (n := s.height - 5) (g := fun t => s.cell (t + 6) 5)
      (fun t htt => d3 (t + 6) (by omega) (by omega))
    obtain ⟨src, hn4, -⟩ := numbers_total (n := s.height - 5) (g := fun t => s.cell (t + 6) 6)
      (fun t htt => hsrc (t + 6) (by omega) (by omega))
    have hret : numOf (s.cell 6 8) = .ok ret := congrArg numOf A4
    have hdel : numOf (s.cell 8 8) = .ok delta := congrArg numOf hdelta
    obtain ⟨s9, hw9, g9⟩ := R.grid
    have hexp : numOf c.grid.exportPrice = .ok ex := by
      rw [e13, (grid_cells g9).exportPrice]
      rw [excel_eq hw9] at hex
      exact congrArg numOf hex
    obtain ⟨s2, hw2, g2⟩ := R.controller
    have hset : numOf c.controller.importSetpoint = .ok sp := by
      rw [e1, (controller_cells g2).2.1]
      rw [excel_eq hw2] at hsp
      exact congrArg numOf hsp
    unfold runInputs
    rw [hc, okBind]
    unfold fixedOrderIn
    simp only [ho, okBind, hdm, columns_cons, dict_cons, reduceIte, String.reduceEq, hn1, hn2, hn3, hn4, hret,
      hdel, hp, hexp, hset, hu, hd, hv, hps]
    exact ⟨_, rfl⟩

end Verif
