import Verif.Props.RoundedEnergyCost

/-! # Dearer runs in floats (C124, continued) -/

set_option autoImplicit false

namespace Verif
open FixedOrder Kpi Spec Rounding
open RoundedKpi (Numpy)
variable {N : Type} {R : Rounding}

theorem energy_order (hr : Rounds R) (np : Numpy) {C D : Calcs N} (hC : AllHours C) (hD : AllHours D)
    (he : D.electric = C.electric)
    (h : List.Forall₂ (fun a b => b.grid.cashflow ≤ a.grid.cashflow ∧ a.aux.cost ≤ b.aux.cost) C.results D.results) :
    ∃ x y, RoundedKpi.energyCost R np C = .ok x ∧ RoundedKpi.energyCost R np D = .ok y ∧ x ≤ y := by
  have cash : ∀ a b : Results N, b.grid.cashflow ≤ a.grid.cashflow →
      R.div (-a.grid.cashflow) 1000 ≤ R.div (-b.grid.cashflow) 1000 := fun a b hab =>
    hr.mono _ _ (div_le_div_of_nonneg_right (neg_le_neg hab) (by norm_num))
  unfold RoundedKpi.energyCost
  rw [he]
  split
  · exact C124_order_kept hr np hC hD (h.imp fun a b k => cash a b k.1)
  · exact C124_order_kept hr np hC hD (h.imp fun a b k => hr.mono _ _ (add_le_add (cash a b k.1)
      (hr.mono _ _ (div_le_div_of_nonneg_right k.2 (by norm_num)))))

theorem map_same {g : Results N → ℚ} {xs ys : List (Results N)} (h : List.Forall₂ (fun a b => g b = g a) xs ys) :
    ys.map g = xs.map g := by
  induction h with
  | nil => rfl
  | cons a _ ih => rw [List.map_cons, List.map_cons, a, ih]

theorem rounded_nonneg (hr : Rounds R) {x : ℚ} (h : 0 ≤ x) : 0 ≤ R.rnd x := by
  have z : R.rnd 0 = 0 := by
    have := hr.neg 0
    rw [neg_zero] at this
    linarith
  have := hr.mono 0 x h
  rwa [z] at this

theorem factor_nonneg (hr : Rounds R) (C : Calcs N) : 0 ≤ R.div 8760 C.timesteps :=
  rounded_nonneg hr (by positivity)

/-- **A dearer run never shows the lower cost**, not even by a rounding: of two runs over the same hours with the same store,
the one with as large or a larger heat pump that earns as little or less, and pays as much or more for fuel, in every hour has
the higher or equal capital cost and lifetime cost. -/
theorem C124_lifetime_order (hr : Rounds R) (np : Numpy) (pow : ℚ → ℚ) {C D : Calcs N} (hC : AllHours C) (hD : AllHours D)
    (h0 : 0 < C.timesteps) (ht : D.timesteps = C.timesteps) (he : D.electric = C.electric) {hp hp' ts : ℕ} (hh : hp ≤ hp')
    (hn : C.name = Para.folderName (hp, ts)) (hn' : D.name = Para.folderName (hp', ts))
    (h : List.Forall₂ (fun a b => b.grid.cashflow ≤ a.grid.cashflow ∧ a.aux.cost ≤ b.aux.cost) C.results D.results) :
    ∃ c d x y, RoundedKpi.capitalCost R pow C = .ok c ∧ RoundedKpi.capitalCost R pow D = .ok d ∧ c ≤ d ∧
      RoundedKpi.lifetimeCost R np pow C = .ok x ∧ RoundedKpi.lifetimeCost R np pow D = .ok y ∧ x ≤ y := by
  have at0 : ∀ {E : Calcs N} {k : ℕ}, E.name = Para.folderName (k, ts) → Para.numberAt E.name 0 = .ok k := fun e => by
    rw [e]; unfold Para.numberAt; rw [numbers_name]; rfl
  have at1 : ∀ {E : Calcs N} {k : ℕ}, E.name = Para.folderName (k, ts) → Para.numberAt E.name 1 = .ok ts := fun e => by
    rw [e]; unfold Para.numberAt; rw [numbers_name]; rfl
  have cap : ∀ {E : Calcs N} {k : ℕ}, E.name = Para.folderName (k, ts) → RoundedKpi.capitalCost R pow E =
      .ok (R.div (R.add (R.mul k 600) (R.div (R.mul ts (RoundedKpi.tsCalc R pow ts)) 1000)) 1000) := fun e => by
    unfold RoundedKpi.capitalCost
    rw [at0 e, at1 e]
    rfl
  have capLe : R.div (R.add (R.mul hp 600) (R.div (R.mul ts (RoundedKpi.tsCalc R pow ts)) 1000)) 1000 ≤
      R.div (R.add (R.mul hp' 600) (R.div (R.mul ts (RoundedKpi.tsCalc R pow ts)) 1000)) 1000 := by
    have hq : (hp : ℚ) ≤ hp' := by exact_mod_cast hh
    exact hr.mono _ _ (div_le_div_of_nonneg_right (hr.mono _ _ (add_le_add
      (hr.mono _ _ (mul_le_mul_of_nonneg_right hq (by norm_num))) le_rfl)) (by norm_num))
  obtain ⟨x, y, k1, k2, k3⟩ := energy_order hr np hC hD he h
  have f0 := factor_nonneg hr C
  have life : ∀ {E : Calcs N} {k : ℕ} {e : ℚ}, E.name = Para.folderName (k, ts) → E.timesteps = C.timesteps →
      RoundedKpi.energyCost R np E = .ok e → RoundedKpi.lifetimeCost R np pow E =
      .ok (R.add (R.div (R.add (R.mul k 600) (R.div (R.mul ts (RoundedKpi.tsCalc R pow ts)) 1000)) 1000)
        (R.mul (R.mul e (R.div 8760 C.timesteps)) 20)) := fun e1 e2 e3 => by
    unfold RoundedKpi.lifetimeCost RoundedKpi.yearFactor
    rw [e3, cap e1, e2, if_neg (by omega)]
    rfl
  refine ⟨_, _, _, _, cap hn, cap hn', capLe, life hn rfl k1, life hn' ht k2, ?_⟩
  exact hr.mono _ _ (add_le_add capLe (hr.mono _ _ (mul_le_mul_of_nonneg_right
    (hr.mono _ _ (mul_le_mul_of_nonneg_right k3 f0)) (by norm_num))))

/-- The hour of `fuelledPlant` with dearer fuel. -/
def Spec.dearerFuel : Calcs Unit :=
  { fuelledPlant with results := fuelledPlant.results.map fun r => { r with aux := { r.aux with cost := r.aux.cost + 1 / 3 } } }

example : ∃ c d x y, RoundedKpi.capitalCost double (fun _ => 1) fuelledPlant = .ok c ∧
    RoundedKpi.capitalCost double (fun _ => 1) dearerFuel = .ok d ∧ c ≤ d ∧
    RoundedKpi.lifetimeCost double oneByOne (fun _ => 1) fuelledPlant = .ok x ∧
    RoundedKpi.lifetimeCost double oneByOne (fun _ => 1) dearerFuel = .ok y ∧ x ≤ y :=
  C124_lifetime_order double_rounds oneByOne _ (C := fuelledPlant) (D := dearerFuel) rfl rfl (by decide) rfl rfl
    (hp := 12) (hp' := 12) (ts := 1000) le_rfl (by decide +kernel) (by decide +kernel)
    (.cons ⟨by decide +kernel, by decide +kernel⟩ .nil)

/-- **Nor does it show the lower levelised cost.** Of two runs with the same sizes, scheme, hours and demands, the one that
earns as little or less, pays as much or more for fuel, and whose heat pump makes as little or less heat from as much or more
electricity, in every hour, has the higher or equal levelised cost of energy. -/
theorem C124_levelised_order (hr : Rounds R) (np : Numpy) (pow : ℚ → ℚ) {C D : Calcs N} (hC : AllHours C) (hD : AllHours D)
    (h0 : 0 < C.timesteps) (ht : D.timesteps = C.timesteps) (he : D.electric = C.electric) (hi : D.rhi = C.rhi)
    (hk : KnownScheme C.rhi) (hp0 : RatesNonneg C.rhi) {hp ts : ℕ} (hn : C.name = Para.folderName (hp, ts))
    (hn' : D.name = Para.folderName (hp, ts))
    (h : List.Forall₂ (fun a b => b.grid.cashflow ≤ a.grid.cashflow ∧ a.aux.cost ≤ b.aux.cost) C.results D.results)
    (hs : List.Forall₂ (fun a b => b.hp.heatTotalOutput ≤ a.hp.heatTotalOutput ∧
      a.hp.elecTotalUsage ≤ b.hp.elecTotalUsage) C.results D.results)
    (hd : List.Forall₂ (fun a b => b.heatDemand.heatDemand = a.heatDemand.heatDemand ∧
      b.elecDemand.elecDemand = a.elecDemand.elecDemand) C.results D.results)
    (hd0 : ∀ r ∈ C.results, 0 ≤ r.heatDemand.heatDemand ∧ 0 ≤ r.elecDemand.elecDemand) :
    ∃ x y, RoundedKpi.levelisedCostOfEnergy R np pow C = .ok x ∧ RoundedKpi.levelisedCostOfEnergy R np pow D = .ok y ∧
      (x = none ∧ y = none ∨ ∃ a b, x = some a ∧ y = some b ∧ a ≤ b) := by
  have at0 : ∀ {E : Calcs N}, E.name = Para.folderName (hp, ts) → Para.numberAt E.name 0 = .ok hp := fun e => by
    rw [e]; unfold Para.numberAt; rw [numbers_name]; rfl
  have at1 : ∀ {E : Calcs N}, E.name = Para.folderName (hp, ts) → Para.numberAt E.name 1 = .ok ts := fun e => by
    rw [e]; unfold Para.numberAt; rw [numbers_name]; rfl
  obtain ⟨x, y, k1, k2, k3⟩ := energy_order hr np hC hD he h
  obtain ⟨s', s, s1', s1, -, s2⟩ := C124_subsidy_order hr np hD hC hn' hn hi.symm (by rw [hi]; exact hk) (by rw [hi]; exact hp0)
    hs.flip
  obtain ⟨X, x1, x0⟩ := C124_not_negative hr np hC (f := fun r => r.heatDemand.heatDemand) fun r m => (hd0 r m).1
  obtain ⟨Y, y1, y0⟩ := C124_not_negative hr np hC (f := fun r => r.elecDemand.elecDemand) fun r m => (hd0 r m).2
  have same : ∀ (g : Results N → ℚ), List.Forall₂ (fun a b => g b = g a) C.results D.results → ∀ z,
      RoundedKpi.total R np C g = .ok z → RoundedKpi.total R np D g = .ok z := fun g hg z hz => by
    rw [RoundedKpi.total_ok hC np g] at hz
    rw [RoundedKpi.total_ok hD np g, ← hz]
    rw [map_same hg]
  have x1' := same _ (hd.imp fun _ _ k => k.1) X x1
  have y1' := same _ (hd.imp fun _ _ k => k.2) Y y1
  have f0 := factor_nonneg hr C
  have value : ∀ {E : Calcs N} {e : ℚ} {i : RhiIncome}, E.name = Para.folderName (hp, ts) → E.timesteps = C.timesteps →
      RoundedKpi.energyCost R np E = .ok e → RoundedKpi.rhiIncome R np E = .ok i →
      RoundedKpi.total R np E (fun r => r.heatDemand.heatDemand) = .ok X →
      RoundedKpi.total R np E (fun r => r.elecDemand.elecDemand) = .ok Y →
      RoundedKpi.levelisedCostOfEnergy R np pow E = .ok (RoundedKpi.npDiv R
        (R.sub (R.add (R.mul (R.div (R.add (R.mul hp 600) (R.div (R.mul ts (RoundedKpi.tsCalc R pow ts)) 1000)) 1000) 1000)
          (R.mul (R.mul (R.mul e 1000) (R.div 8760 C.timesteps)) 20)) i.total)
        (R.mul (R.mul (R.add X Y) (R.div 8760 C.timesteps)) 20)) := fun e1 e2 e3 e4 e5 e6 => by
    unfold RoundedKpi.levelisedCostOfEnergy RoundedKpi.capitalCost RoundedKpi.sumHd RoundedKpi.sumEd RoundedKpi.yearFactor
    rw [e3, at0 e1, at1 e1, e4, e5, e6, e2, if_neg (by omega)]
    rfl
  refine ⟨_, _, value hn rfl k1 s1 x1 y1, value hn' ht k2 s1' x1' y1', ?_⟩
  have d0 : 0 ≤ R.mul (R.mul (R.add X Y) (R.div 8760 C.timesteps)) 20 :=
    rounded_nonneg hr (mul_nonneg (rounded_nonneg hr (mul_nonneg (rounded_nonneg hr (add_nonneg x0 y0)) f0)) (by norm_num))
  unfold RoundedKpi.npDiv
  by_cases hz : R.mul (R.mul (R.add X Y) (R.div 8760 C.timesteps)) 20 = 0
  · exact .inl ⟨if_pos hz, if_pos hz⟩
  · refine .inr ⟨_, _, if_neg hz, if_neg hz, hr.mono _ _ (div_le_div_of_nonneg_right (hr.mono _ _ (sub_le_sub
      (hr.mono _ _ (add_le_add le_rfl (hr.mono _ _ (mul_le_mul_of_nonneg_right (hr.mono _ _ (mul_le_mul_of_nonneg_right
        (hr.mono _ _ (mul_le_mul_of_nonneg_right k3 (by norm_num))) f0)) (by norm_num))))) s2)) d0)⟩

example : ∃ x y, RoundedKpi.levelisedCostOfEnergy double oneByOne (fun _ => 1) fuelledPlant = .ok x ∧
    RoundedKpi.levelisedCostOfEnergy double oneByOne (fun _ => 1) dearerFuel = .ok y ∧
    (x = none ∧ y = none ∨ ∃ a b, x = some a ∧ y = some b ∧ a ≤ b) :=
  C124_levelised_order double_rounds oneByOne _ (C := fuelledPlant) (D := dearerFuel) rfl rfl (by decide) rfl rfl rfl
    sample_scheme.1 sample_scheme.2 (hp := 12) (ts := 1000) (by decide +kernel) (by decide +kernel)
    (.cons ⟨by decide +kernel, by decide +kernel⟩ .nil) (.cons ⟨by decide +kernel, by decide +kernel⟩ .nil)
    (.cons ⟨by decide +kernel, by decide +kernel⟩ .nil) (by
      intro r hr
      simp only [fuelledPlant, sampleCalcs, List.mem_cons, List.not_mem_nil, or_false] at hr
      rcases hr with rfl
      constructor <;> norm_num)

theorem heat_order (hr : Rounds R) (np : Numpy) {C D : Calcs N} (hC : AllHours C) (hD : AllHours D)
    (he : D.electric = C.electric)
    (h : List.Forall₂ (fun a b => a.grid.totalImport - a.grid.importForElecDemand ≤ b.grid.totalImport - b.grid.importForElecDemand ∧
      b.grid.importPrice = a.grid.importPrice ∧ 0 ≤ a.grid.importPrice ∧ a.aux.cost ≤ b.aux.cost) C.results D.results) :
    ∃ x y, RoundedKpi.heatCost R np C = .ok x ∧ RoundedKpi.heatCost R np D = .ok y ∧ x ≤ y := by
  have buy : ∀ a b : Results N, a.grid.totalImport - a.grid.importForElecDemand ≤ b.grid.totalImport - b.grid.importForElecDemand →
      b.grid.importPrice = a.grid.importPrice → 0 ≤ a.grid.importPrice →
      R.div (R.mul (R.sub a.grid.totalImport a.grid.importForElecDemand) a.grid.importPrice) 1000 ≤
      R.div (R.mul (R.sub b.grid.totalImport b.grid.importForElecDemand) b.grid.importPrice) 1000 := fun a b h1 h2 h3 => by
    rw [h2]
    exact hr.mono _ _ (div_le_div_of_nonneg_right (hr.mono _ _ (mul_le_mul_of_nonneg_right (hr.mono _ _ h1) h3)) (by norm_num))
  unfold RoundedKpi.heatCost
  rw [he]
  split
  · exact C124_order_kept hr np hC hD (h.imp fun a b k => buy a b k.1 k.2.1 k.2.2.1)
  · exact C124_order_kept hr np hC hD (h.imp fun a b k => hr.mono _ _ (add_le_add (buy a b k.1 k.2.1 k.2.2.1)
      (hr.mono _ _ (div_le_div_of_nonneg_right k.2.2.2 (by norm_num)))))

/-- **Nor does buying more for heat show the lower cost of heat.** Of two runs with the same sizes, scheme, hours, prices and
demands for heat, the one that buys as much or more beyond the electric demand, pays as much or more for fuel, and whose heat
pump makes as little or less heat from as much or more electricity, in every hour, has the higher or equal levelised cost of
heat. -/
theorem C124_levelised_heat_order (hr : Rounds R) (np : Numpy) (pow : ℚ → ℚ) {C D : Calcs N} (hC : AllHours C) (hD : AllHours D)
    (h0 : 0 < C.timesteps) (ht : D.timesteps = C.timesteps) (he : D.electric = C.electric) (hi : D.rhi = C.rhi)
    (hk : KnownScheme C.rhi) (hp0 : RatesNonneg C.rhi) {hp ts : ℕ} (hn : C.name = Para.folderName (hp, ts))
    (hn' : D.name = Para.folderName (hp, ts))
    (h : List.Forall₂ (fun a b => a.grid.totalImport - a.grid.importForElecDemand ≤ b.grid.totalImport - b.grid.importForElecDemand ∧
      b.grid.importPrice = a.grid.importPrice ∧ 0 ≤ a.grid.importPrice ∧ a.aux.cost ≤ b.aux.cost) C.results D.results)
    (hs : List.Forall₂ (fun a b => b.hp.heatTotalOutput ≤ a.hp.heatTotalOutput ∧
      a.hp.elecTotalUsage ≤ b.hp.elecTotalUsage) C.results D.results)
    (hd : List.Forall₂ (fun a b => b.heatDemand.heatDemand = a.heatDemand.heatDemand) C.results D.results)
    (hd0 : ∀ r ∈ C.results, 0 ≤ r.heatDemand.heatDemand) :
    ∃ x y, RoundedKpi.levelisedCostOfHeat R np pow C = .ok x ∧ RoundedKpi.levelisedCostOfHeat R np pow D = .ok y ∧
      (x = none ∧ y = none ∨ ∃ a b, x = some a ∧ y = some b ∧ a ≤ b) := by
  have at0 : ∀ {E : Calcs N}, E.name = Para.folderName (hp, ts) → Para.numberAt E.name 0 = .ok hp := fun e => by
    rw [e]; unfold Para.numberAt; rw [numbers_name]; rfl
  have at1 : ∀ {E : Calcs N}, E.name = Para.folderName (hp, ts) → Para.numberAt E.name 1 = .ok ts := fun e => by
    rw [e]; unfold Para.numberAt; rw [numbers_name]; rfl
  obtain ⟨x, y, k1, k2, k3⟩ := heat_order hr np hC hD he h
  obtain ⟨s', s, s1', s1, -, s2⟩ := C124_subsidy_order hr np hD hC hn' hn hi.symm (by rw [hi]; exact hk) (by rw [hi]; exact hp0)
    hs.flip
  obtain ⟨X, x1, x0⟩ := C124_not_negative hr np hC (f := fun r => r.heatDemand.heatDemand) hd0
  have x1' : RoundedKpi.total R np D (fun r => r.heatDemand.heatDemand) = .ok X := by
    rw [RoundedKpi.total_ok hC np] at x1
    rw [RoundedKpi.total_ok hD np, ← x1, map_same hd]
  have f0 := factor_nonneg hr C
  have value : ∀ {E : Calcs N} {e : ℚ} {i : RhiIncome}, E.name = Para.folderName (hp, ts) → E.timesteps = C.timesteps →
      RoundedKpi.heatCost R np E = .ok e → RoundedKpi.rhiIncome R np E = .ok i →
      RoundedKpi.total R np E (fun r => r.heatDemand.heatDemand) = .ok X →
      RoundedKpi.levelisedCostOfHeat R np pow E = .ok (RoundedKpi.npDiv R
        (R.sub (R.add (R.mul (R.div (R.add (R.mul hp 600) (R.div (R.mul ts (RoundedKpi.tsCalc R pow ts)) 1000)) 1000) 1000)
          (R.mul (R.mul e (R.div 8760 C.timesteps)) 20)) i.total)
        (R.mul (R.mul X (R.div 8760 C.timesteps)) 20)) := fun e1 e2 e3 e4 e5 => by
    unfold RoundedKpi.levelisedCostOfHeat RoundedKpi.capitalCost RoundedKpi.sumHd RoundedKpi.yearFactor
    rw [e3, at0 e1, at1 e1, e4, e5, e2, if_neg (by omega)]
    rfl
  refine ⟨_, _, value hn rfl k1 s1 x1, value hn' ht k2 s1' x1', ?_⟩
  have d0 : 0 ≤ R.mul (R.mul X (R.div 8760 C.timesteps)) 20 :=
    rounded_nonneg hr (mul_nonneg (rounded_nonneg hr (mul_nonneg x0 f0)) (by norm_num))
  unfold RoundedKpi.npDiv
  by_cases hz : R.mul (R.mul X (R.div 8760 C.timesteps)) 20 = 0
  · exact .inl ⟨if_pos hz, if_pos hz⟩
  · refine .inr ⟨_, _, if_neg hz, if_neg hz, hr.mono _ _ (div_le_div_of_nonneg_right (hr.mono _ _ (sub_le_sub
      (hr.mono _ _ (add_le_add le_rfl (hr.mono _ _ (mul_le_mul_of_nonneg_right (hr.mono _ _ (mul_le_mul_of_nonneg_right
        k3 f0)) (by norm_num))))) s2)) d0)⟩

example : ∃ x y, RoundedKpi.levelisedCostOfHeat double oneByOne (fun _ => 1) fuelledPlant = .ok x ∧
    RoundedKpi.levelisedCostOfHeat double oneByOne (fun _ => 1) dearerFuel = .ok y ∧
    (x = none ∧ y = none ∨ ∃ a b, x = some a ∧ y = some b ∧ a ≤ b) :=
  C124_levelised_heat_order double_rounds oneByOne _ (C := fuelledPlant) (D := dearerFuel) rfl rfl (by decide) rfl rfl rfl
    sample_scheme.1 sample_scheme.2 (hp := 12) (ts := 1000) (by decide +kernel) (by decide +kernel)
    (.cons ⟨by decide +kernel, by decide +kernel, by decide +kernel, by decide +kernel⟩ .nil)
    (.cons ⟨by decide +kernel, by decide +kernel⟩ .nil) (.cons (by decide +kernel) .nil) (by
      intro r hr
      simp only [fuelledPlant, sampleCalcs, List.mem_cons, List.not_mem_nil, or_false] at hr
      rcases hr with rfl
      norm_num)

end Verif
