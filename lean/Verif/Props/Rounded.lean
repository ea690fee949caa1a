import Verif.Lemmas.RoundedFloats
import Verif.Props.Run

/-!
# What survives rounding (C106–C109)

All other theorems about the fixed order controller are about exact arithmetic. Python computes with binary64 floats.
-/

set_option autoImplicit false

namespace Verif
open Spec FixedOrder
variable {N : Type}

/-! ### C106: the controller with rounding -/

theorem step_exact (P : Plant N) (i : StepIn N) (b : Bool) (order : List ℤ) :
    Rounded.step .exact P i b order = step P i b order := by
  unfold Rounded.step Rounded.dispatch step dispatch
  have h : ∀ s, Rounded.runOrder .exact P i (if b then keyBelow else keyAbove) order s
      = runOrder P i (if b then keyBelow else keyAbove) order s := by
    induction order with
    | nil => intro s; rfl
    | cons n ns ih =>
      intro s
      unfold Rounded.runOrder runOrder
      simp only [ih]
      rfl
  rw [h]
  rfl

/-- With exact arithmetic the controller with rounding is the controller all other theorems are about. -/
theorem C106_exact (S : RunIn N) (first n : ℕ) :
    Rounded.runTimesteps .exact S first n = runTimesteps S first n := by
  unfold Rounded.runTimesteps runTimesteps
  have h : ∀ (rows : List Tools.Row) (t : ℕ) (nodes : N) (soc : ℚ),
      Rounded.hourStep .exact S rows t nodes soc = hourStep S rows t nodes soc := by
    intro rows t nodes soc
    unfold Rounded.hourStep hourStep
    simp only [step_exact]
    rfl
  have h2 : ∀ (rows : List Tools.Row) (n t : ℕ) (nodes : N) (soc : ℚ),
      Rounded.runFrom .exact S rows t n nodes soc = runFrom S rows t n nodes soc := by
    intro rows n
    induction n with
    | zero => intro t nodes soc; rfl
    | succ n ih =>
      intro t nodes soc
      unfold Rounded.runFrom runFrom
      simp only [h, ih]
  simp only [h2]
  rfl

/-- Rounding to binary64 keeps order, signs and floats, and errs by at most one part in `2 ^ 53`, or half the smallest
positive float. -/
theorem C106_double : Rounds .double ∧ Accurate .double (1 / 2 ^ 53) (1 / 2 ^ 1075) :=
  ⟨double_rounds, double_accurate⟩

/-- Every number of up to 53 binary digits, such as every whole number up to `2 ^ 53`, is kept as it is. -/
theorem C106_double_floats {m e : ℤ} (hm : |m| ≤ 2 ^ 53) (he : -1074 ≤ e) : IsFloat .double (m * 2 ^ e) :=
  double_fixes rfl hm he

/-- No float is closer to the exact result than the rounded one. -/
theorem C106_double_nearest (x : ℚ) {m e : ℤ} (hm : |m| ≤ 2 ^ 53) (he : -1074 ≤ e) :
    |Rounding.double.rnd x - x| ≤ |m * 2 ^ e - x| := double_nearest x hm he

/-- `0.75` is a float, and no closer to `0.7` than `0.7` rounded. -/
example : IsFloat .double ((3 : ℤ) * 2 ^ (-2 : ℤ)) ∧
    |Rounding.double.rnd (7 / 10) - 7 / 10| ≤ |((3 : ℤ) : ℚ) * 2 ^ (-2 : ℤ) - 7 / 10| :=
  ⟨C106_double_floats (by norm_num) (by norm_num), C106_double_nearest _ (by norm_num) (by norm_num)⟩

/-- `0.1` is not a binary64 number, and three times it is not the float next to `0.3`. -/
theorem C106_double_inexact : ¬ IsFloat .double (1 / 10) ∧
    Rounding.double.mul (Rounding.double.rnd (1 / 10)) 3 ≠ Rounding.double.rnd (3 / 10) := by
  unfold IsFloat
  decide +kernel

/-- Every rounded result has at most 53 binary digits and none beyond `2 ^ (-1074)`. -/
theorem C106_double_digits (x : ℚ) : ∃ m e : ℤ, |m| ≤ 2 ^ 53 ∧ -1074 ≤ e ∧ Rounding.double.rnd x = m * 2 ^ e :=
  double_digits x

/-- Halfway between two neighbouring floats the one with the even last digit is taken, among the normal numbers and
among the subnormal ones. -/
theorem C106_double_ties {k l : ℤ} (h1 : 2 ^ 52 ≤ k ∨ (0 ≤ k ∧ l = -1074)) (h2 : k < 2 ^ 53) (hl : -1074 ≤ l) :
    Rounding.double.rnd ((k + 1 / 2) * 2 ^ l) = (2 * ((k + 1) / 2) : ℤ) * 2 ^ l := double_ties h1 h2 hl

/-- `2 ^ 53 + 1` goes down and `2 ^ 53 + 3` goes up. -/
example : Rounding.double.rnd (2 ^ 53 + 1) = 2 ^ 53 ∧ Rounding.double.rnd (2 ^ 53 + 3) = 2 ^ 53 + 4 := by
  decide +kernel

/-- Every number a run reports, other than node temperatures, is a float if those it is given are: no operation is
left unrounded. -/
theorem C106_run_floats {R : Rounding} (hr : Rounds R) {S : RunIn N} (H : FloatRun R S) {first n : ℕ}
    {rs : List (Results N)} (h : Rounded.runTimesteps R S first n = .ok rs) : ∀ r ∈ rs, FloatResults R r :=
  fun _ hm => Rounded.run_float hr H h hm

/-- The sample year is given in floats. -/
example : FloatRun .double sampleRun where
  es := by unfold IsFloat; decide +kernel
  exportPrice := by unfold IsFloat; decide +kernel
  series := by
    simp only [List.forall_mem_cons, List.not_mem_nil, false_imp_iff, implies_true, and_true]
    refine ⟨fun x hx => ?_, fun x hx => ?_, fun x hx => ?_, fun x hx => ?_⟩ <;>
      rw [List.eq_of_mem_replicate hx] <;> unfold IsFloat <;> decide +kernel
  perf := fun p hp => by
    rw [List.eq_of_mem_replicate hp]
    unfold IsFloat
    decide +kernel
  tank := fun hour s nodes m h => by
    simp only [sampleRun, sampleTank] at h
    cases h
    unfold IsFloat
    cases s <;> decide +kernel

/-- Sums are rounded one `+` at a time, from the left: 0.1 kWh and 0.2 kWh of wind and 0.3 kWh of sun are not the float
next to 0.6 kWh. -/
theorem C106_rounded_in_turn :
    let R := Rounding.double
    let x (n : ℚ) := R.rnd (n / 10)
    let S : RunIn Unit := { sampleRun with windUser := [x 1], windData := [x 2], pv := [x 3] }
    Rounded.generation R S = [R.rnd (6 / 10) + 1 / 2 ^ 53] := by
  decide +kernel

/-- Outputs are compared with the float next to 0.1, not with 0.1: a heat pump that gives exactly that float is left
alone by the minimum output rule, although the float is more than 0.1 and less than the minimum output of 2.4 kWh. -/
theorem C106_tenth_is_a_float :
    let x := Rounding.double.rnd (1 / 10)
    1 / 10 < x ∧ x < 24 / 10 ∧
    ∃ r, Rounded.step .double samplePlant { sampleStep with heatDemand := x } false [8, 9] = .ok r ∧
      r.hp.heatTotalOutput = x ∧ r.hp.heatToTs = 0 :=
  ⟨by decide +kernel, by decide +kernel, exists_of_checks (by decide +kernel)⟩

/-! ### C107: the state of charge and the split of generation -/

/-- However numbers are rounded, the battery's state of charge stays between zero and its capacity in every hour
of every run. -/
theorem C107_charge_within (R : Rounding) {S : RunIn N} (hc : 0 ≤ S.es.capacity) {first n : ℕ}
    {rs : List (Results N)} (h : Rounded.runTimesteps R S first n = .ok rs) :
    ∀ r ∈ rs, 0 ≤ r.es.finalSoc ∧ r.es.finalSoc ≤ S.es.capacity := by
  intro r hr
  obtain ⟨t, nodes, soc, -, h1⟩ := Rounded.runFrom_mem (Q := fun _ => True) (fun _ _ _ _ _ => trivial) trivial
    (Rounded.runTimesteps_ok h) r hr
  exact Rounded.hourStep_soc hc h1

/-- So does the state it starts with. -/
theorem C107_start_within {R : Rounding} (hr : Rounds R) {b : Battery} (hb : BatteryOk b)
    (hf : IsFloat R b.capacity) :
    0 ≤ Rounded.initState R b ∧ Rounded.initState R b ≤ b.capacity := by
  have h0 : R.rnd 0 = 0 := by have := hr.neg 0; simp only [neg_zero] at this; linarith
  have h1 := hr.mono 0 (b.initialState * b.capacity) (mul_nonneg hb.init_nonneg hb.capacity_nonneg)
  have h2 := hr.mono (b.initialState * b.capacity) b.capacity
    (mul_le_of_le_one_left hb.capacity_nonneg hb.init_le_one)
  rw [h0] at h1
  rw [hf] at h2
  exact ⟨h1, h2⟩

example : 0 ≤ Rounded.initState .double sampleBattery ∧ Rounded.initState .double sampleBattery ≤ 10 :=
  C107_start_within double_rounds sampleBattery_ok (by unfold IsFloat; decide +kernel)

/-- The split of an hour's generation: what is left and what is missing are not negative and never both there,
and with what is used they add up to generation and demand but for one rounding. -/
theorem C107_split {R : Rounding} (hr : Rounds R) {u η : ℚ} (ha : Accurate R u η) (hu : 0 ≤ u) (hη : 0 ≤ η)
    (gen dem : ℚ) :
    0 ≤ (Rounded.splitHour R gen dem).surplus ∧ 0 ≤ (Rounded.splitHour R gen dem).deficit ∧
    ((Rounded.splitHour R gen dem).surplus = 0 ∨ (Rounded.splitHour R gen dem).deficit = 0) ∧
    |(Rounded.splitHour R gen dem).resUsed + (Rounded.splitHour R gen dem).surplus - gen| ≤ u * |gen - dem| + η ∧
    |(Rounded.splitHour R gen dem).resUsed + (Rounded.splitHour R gen dem).deficit - dem| ≤ u * |gen - dem| + η := by
  have h0 : R.rnd 0 = 0 := by have := hr.neg 0; simp only [neg_zero] at this; linarith
  have h1 := abs_le.mp (ha (gen - dem))
  have hp : 0 ≤ u * |gen - dem| + η := by positivity
  generalize u * |gen - dem| + η = δ at *
  unfold Rounded.splitHour
  dsimp only [Rounding.sub]
  rcases le_total gen dem with hle | hle
  · have hm := hr.mono (gen - dem) 0 (by linarith)
    rw [h0] at hm
    rw [if_pos hm]
    simp only [min_eq_left hle]
    refine ⟨le_rfl, by linarith, Or.inl trivial, abs_le.mpr ?_, abs_le.mpr ?_⟩ <;> constructor <;> linarith
  · have hm := hr.mono 0 (gen - dem) (by linarith)
    rw [h0] at hm
    simp only [min_eq_right hle]
    split_ifs with hz
    · have hz' : R.rnd (gen - dem) = 0 := le_antisymm hz hm
      rw [hz'] at h1 ⊢
      refine ⟨le_rfl, by norm_num, Or.inl rfl, abs_le.mpr ?_, abs_le.mpr ?_⟩ <;> constructor <;> linarith
    · refine ⟨hm, le_rfl, Or.inr rfl, abs_le.mpr ?_, abs_le.mpr ?_⟩ <;> constructor <;> linarith

/-- 1000.1 kWh generated against a demand of 0.1 kWh. -/
example : 0 < (Rounded.splitHour .double (Rounding.double.rnd (10001 / 10)) (Rounding.double.rnd (1 / 10))).surplus ∧
    (Rounded.splitHour .double (Rounding.double.rnd (10001 / 10)) (Rounding.double.rnd (1 / 10))).surplus
      ≠ Rounding.double.rnd (10001 / 10) - Rounding.double.rnd (1 / 10) := by
  decide +kernel

/-! ### C108: the balances of an hour -/

/-- The balances of an hour with any rounding that is accurate enough: `ε` is the error of one rounding. -/
theorem C108_hour {R : Rounding} (hr : Rounds R) {u η : ℚ} (hu : 0 ≤ u) (hη : 0 ≤ η) (ha : Accurate R u η)
    {P : Plant N} {i : StepIn N} (H : StepOk P i) {B : ℚ} (Z : Sized P i B) {ε : ℚ} (hε : ε = 8 * u * B + η)
    (hsm : 2 ^ 41 * ε ≤ B) {b : Bool} {order : List ℤ} (hnd : order.Nodup) (ht : TidyOrder b order)
    {s : Checks × Results N} (h : Rounded.dispatch R P i b order = .ok s) :
    (s.2.elecDemand.es + s.2.elecDemand.imp ≤ i.deficit + 64 * ε ∧ resSpent s.2 ≤ i.surplus + 64 * ε ∧
      heatDelivered b s.2 ≤ i.heatDemand + 64 * ε) ∧
    ((numbers b).importToDemand ∈ order → |s.2.elecDemand.es + s.2.elecDemand.imp - i.deficit| ≤ 64 * ε) ∧
    ((numbers b).resToExport ∈ order → |resSpent s.2 - i.surplus| ≤ 2 ^ 18 * i.perf.cop * ε) ∧
    ((numbers b).auxToDemand ∈ order → |heatDelivered b s.2 - i.heatDemand| ≤ 2 ^ 18 * i.perf.cop * ε) ∧
    FlowsAbove (2 ^ 18 * i.perf.cop * ε) s.2 := by
  have F : Rounded.Fl R B ε := hε ▸ Rounded.fl_of hr hu hη ha (by linarith [Z.one_le])
  have L := Rounded.dispatch_near F H Z hsm hnd ht h
  have : 0 ≤ i.perf.cop * ε := mul_nonneg H.cop_pos.le F.pos
  exact ⟨⟨L.elec, L.res, L.heat⟩, L.elecMet, L.resMet, L.heatMet,
    Rounded.flowsAbove_weaken (by linarith) L.flows⟩

theorem double_fl {B : ℚ} (hB : 1 ≤ B) : Rounded.Fl .double B (B / 2 ^ 49) := by
  have F := Rounded.fl_of double_rounds (by positivity) (by positivity) double_accurate
    (B := B) (by linarith)
  have h1 : (1 : ℚ) / 2 ^ 1075 ≤ 1 / 2 ^ 50 :=
    one_div_le_one_div_of_le (by positivity) (pow_le_pow_right₀ (by norm_num) (by norm_num))
  refine ⟨F.mono, F.zero, fun x hx => (F.err x hx).trans ?_, by positivity⟩
  generalize (1 : ℚ) / 2 ^ 1075 = η at h1 ⊢
  norm_num at h1 ⊢
  linarith

/-- With Python's floats: where `B` bounds all energies of the hour, no more than deficit, surplus and heat demand is
supplied but for `B / 10 ^ 12`; battery and import supply the deficit within `B / 10 ^ 12`, the surplus is spent and
the heat demand met within `cop * B / 10 ^ 9`, and no flow is more negative than that. -/
theorem C108_double {P : Plant N} {i : StepIn N} (H : StepOk P i) {B : ℚ} (Z : Sized P i B) {b : Bool}
    {order : List ℤ} (hnd : order.Nodup) (ht : TidyOrder b order) {s : Checks × Results N}
    (h : Rounded.dispatch .double P i b order = .ok s) :
    (s.2.elecDemand.es + s.2.elecDemand.imp ≤ i.deficit + B / 10 ^ 12 ∧ resSpent s.2 ≤ i.surplus + B / 10 ^ 12 ∧
      heatDelivered b s.2 ≤ i.heatDemand + B / 10 ^ 12) ∧
    ((numbers b).importToDemand ∈ order → |s.2.elecDemand.es + s.2.elecDemand.imp - i.deficit| ≤ B / 10 ^ 12) ∧
    ((numbers b).resToExport ∈ order → |resSpent s.2 - i.surplus| ≤ i.perf.cop * B / 10 ^ 9) ∧
    ((numbers b).auxToDemand ∈ order → |heatDelivered b s.2 - i.heatDemand| ≤ i.perf.cop * B / 10 ^ 9) ∧
    FlowsAbove (i.perf.cop * B / 10 ^ 9) s.2 := by
  have hB := Z.one_le
  have hcB : 0 ≤ i.perf.cop * B := mul_nonneg H.cop_pos.le (by linarith)
  have h1 : 64 * (B / 2 ^ 49) ≤ B / 10 ^ 12 := by norm_num; linarith
  have h2 : 2 ^ 18 * i.perf.cop * (B / 2 ^ 49) ≤ i.perf.cop * B / 10 ^ 9 := by
    rw [show 2 ^ 18 * i.perf.cop * (B / 2 ^ 49) = i.perf.cop * B * (1 / 2 ^ 31) by norm_num; ring]
    norm_num
    linarith
  have L := Rounded.dispatch_near (double_fl hB) H Z (by norm_num; linarith) hnd ht h
  have l1 := L.elec
  have l2 := L.res
  have l3 := L.heat
  exact ⟨⟨by linarith, by linarith, by linarith⟩, fun m => (L.elecMet m).trans h1, fun m => (L.resMet m).trans h2,
    fun m => (L.heatMet m).trans h2, Rounded.flowsAbove_weaken (by linarith) L.flows⟩

theorem exact_rounds : Rounds .exact := ⟨fun _ _ h => h, fun _ => rfl, fun _ => rfl⟩

theorem exact_accurate : Accurate .exact 0 0 := fun x => by
  show |x - x| ≤ _
  simp

theorem orderAbove_tidy : TidyOrder false orderAbove := ⟨orderAbove_safe.2, fun h => by cases h⟩

theorem orderBelow_tidy : TidyOrder true orderBelow := ⟨orderBelow_safe.2, fun _ => by decide⟩

theorem sampleStep_sized : Sized samplePlant sampleStep 50 := by
  constructor <;> try (norm_num [samplePlant, sampleStep, sampleBattery])
  intro s m h
  simp only [sampleTank] at h
  cases h
  cases s <;> norm_num

/-- Exact arithmetic is accurate with no error: the balances are exact. -/
example {s : Checks × Results Unit} (h : Rounded.dispatch .exact samplePlant sampleStep false orderAbove = .ok s) :
    heatDelivered false s.2 = 30 := by
  have := (C108_hour exact_rounds le_rfl le_rfl exact_accurate sampleStep_ok sampleStep_sized (ε := 0) (by norm_num)
    (by norm_num) orderAbove_safe.1 orderAbove_tidy h).2.2.2.1 (by decide)
  have h30 : sampleStep.heatDemand = 30 := rfl
  rw [h30, mul_zero] at this
  have := abs_nonpos_iff.mp this
  linarith

/-- An hour of the sample plant in binary64. -/
example : ∃ s, Rounded.dispatch .double samplePlant sampleStep false orderAbove = .ok s ∧
    |heatDelivered false s.2 - 30| ≤ 3 * 50 / 10 ^ 9 := by
  obtain ⟨s, hs, -⟩ := exists_of_checks (x := Rounded.dispatch .double samplePlant sampleStep false orderAbove)
    (p := fun _ => True) (by decide +kernel)
  exact ⟨s, hs, (C108_double sampleStep_ok sampleStep_sized orderAbove_safe.1 orderAbove_tidy hs).2.2.2.1 (by decide)⟩

/-- Exactly, the claims are false with Python's floats: with 0.1 kWh of surplus and a coefficient of performance of
3, `0.1 * 3 / 3` is more than `0.1`, so the heat pump draws more than the surplus, and the export that follows is
negative. -/
theorem C108_negative_export : ∃ i : StepIn Unit, StepOk samplePlant i ∧
    IsFloat .double i.surplus ∧ IsFloat .double i.perf.cop ∧
    ∃ r, Rounded.step .double samplePlant i false [4, 13] = .ok r ∧
      i.surplus < r.res.hpToHeatDemand ∧ r.res.exp < 0 ∧ r.grid.exportIncome < 0 := by
  refine ⟨{ sampleStep with surplus := Rounding.double.rnd (1 / 10) }, ?_, ?_, ?_, exists_of_checks (by decide +kernel)⟩
  · have := sampleStep_ok
    exact ⟨this.es, this.soc_nonneg, this.soc_le, by decide +kernel, this.deficit_nonneg, this.heat_nonneg,
      this.heat_le_peak, this.cop_pos, this.duty_nonneg, this.zero_cap, this.tank_nonneg⟩
  · unfold IsFloat; decide +kernel
  · unfold IsFloat; decide +kernel

/-- And battery and import do not supply the deficit exactly: of 1000.1 kWh the battery gives its 0.1 kWh, and the
rest is rounded. -/
theorem C108_deficit_inexact : ∃ i : StepIn Unit, StepOk samplePlant i ∧
    IsFloat .double i.deficit ∧ IsFloat .double i.soc ∧
    ∃ r, Rounded.step .double samplePlant i false orderAbove = .ok r ∧
      r.elecDemand.es + r.elecDemand.imp ≠ i.deficit := by
  refine ⟨{ sampleStep2 with deficit := Rounding.double.rnd (10001 / 10), soc := Rounding.double.rnd (1 / 10) }, ?_, ?_, ?_,
    exists_of_checks (by decide +kernel)⟩
  · have := sampleStep_ok
    exact ⟨this.es, by decide +kernel, by decide +kernel, le_rfl, by decide +kernel, this.heat_nonneg,
      this.heat_le_peak, this.cop_pos, this.duty_nonneg, this.zero_cap, this.tank_nonneg⟩
  · unfold IsFloat; decide +kernel
  · unfold IsFloat; decide +kernel

/-! ### C109: every hour of a run -/

theorem double_run {S : RunIn N} (H : RunOk S) (ho : TidyOrders S) {B : ℚ} (Z : SizedRun .double S B)
    (hB : IsFloat .double B) (hcap : IsFloat .double S.es.capacity)
    {first n : ℕ} {rs : List (Results N)} (h : Rounded.runTimesteps .double S first n = .ok rs) {r : Results N}
    (hm : r ∈ rs) :
    (3 ∈ S.orderAbove → 2 ∈ S.orderBelow →
      |r.elecDemand.res + r.elecDemand.es + r.elecDemand.imp - r.elecDemand.elecDemand| ≤ 65 * (B / 2 ^ 49)) ∧
    r.res.elecDemand + r.res.hp + r.res.aux + r.res.es + r.res.exp
      ≤ r.res.generationTotal + 2 ^ 19 * r.hp.cop * (B / 2 ^ 49) ∧
    FlowsAbove (2 ^ 18 * r.hp.cop * (B / 2 ^ 49)) r ∧ 1 ≤ r.hp.cop ∧ (∃ p ∈ S.perf, r.hp.cop = p.cop) ∧
    r.res.generationTotal ∈ Rounded.generation .double S :=
  Rounded.run_near double_rounds (double_fl Z.one_le) H ho Z hB hcap (by have := Z.one_le; norm_num; linarith) h hm

/-- However numbers are rounded, a full year with known processes and a tank that answers runs to its end: one result
for each hour. -/
theorem C109_runs (R : Rounding) {S : RunIn N} (hy : FullYear S)
    (hord : (∀ n ∈ S.orderAbove, 1 ≤ n ∧ n ≤ 13) ∧ (∀ n ∈ S.orderBelow, 1 ≤ n ∧ n ≤ 15))
    (htank : ∀ hour s nodes, ∃ m, S.tank.maxInOut hour s nodes = .ok m)
    (hnew : ∀ hour s nodes q d, ∃ n, S.tank.newNodes hour s nodes q d = .ok n)
    {first n : ℕ} (h : first + n ≤ 8760) :
    ∃ rs, Rounded.runTimesteps R S first n = .ok rs ∧ rs.length = n := by
  have hg : (Rounded.generation R S).length = 8760 := by
    unfold Rounded.generation Rounded.wind
    rw [List.length_zipWith, List.length_zipWith, hy.windUser, hy.windData, hy.pv, min_self, min_self]
  have hd := hy.elecDemand
  obtain ⟨rs, hrs⟩ := Rounded.runFrom_accepts (R := R) hy hord htank hnew
    (rows := List.zipWith (Rounded.splitHour R) (Rounded.generation R S) S.elecDemand)
    (by rw [List.length_zipWith, hg, hd, min_self]) n first S.tank.initTemps (Rounded.initState R S.es) h
  refine ⟨rs, ?_, Rounded.runFrom_length hrs⟩
  unfold Rounded.runTimesteps Rounded.surplusDeficit
  rw [if_neg (by omega), if_neg (by omega)]
  exact (if_neg (by omega)).trans hrs

/-- In every hour of every run with Python's floats renewables, battery and import supply the electric demand up to
`B / 10 ^ 12`, where `B` bounds all energies of the run. -/
theorem C109_run_demand {S : RunIn N} (H : RunOk S) (ho : TidyOrders S) {B : ℚ} (Z : SizedRun .double S B)
    (hB : IsFloat .double B) (hcap : IsFloat .double S.es.capacity) (ha : 3 ∈ S.orderAbove) (hb : 2 ∈ S.orderBelow)
    {first n : ℕ} {rs : List (Results N)} (h : Rounded.runTimesteps .double S first n = .ok rs) :
    ∀ r ∈ rs, |r.elecDemand.res + r.elecDemand.es + r.elecDemand.imp - r.elecDemand.elecDemand| ≤ B / 10 ^ 12 := by
  intro r hm
  have hB1 := Z.one_le
  have := (double_run H ho Z hB hcap h hm).1 ha hb
  refine this.trans ?_
  norm_num
  linarith

/-- In every hour of every run with Python's floats the renewable energy used is at most that generated but for
`cop * B / 10 ^ 9`. -/
theorem C109_run_generation {S : RunIn N} (H : RunOk S) (ho : TidyOrders S) {B : ℚ} (Z : SizedRun .double S B)
    (hB : IsFloat .double B) (hcap : IsFloat .double S.es.capacity)
    {first n : ℕ} {rs : List (Results N)} (h : Rounded.runTimesteps .double S first n = .ok rs) :
    ∀ r ∈ rs, r.res.elecDemand + r.res.hp + r.res.aux + r.res.es + r.res.exp
      ≤ r.res.generationTotal + r.hp.cop * B / 10 ^ 9 := by
  intro r hm
  obtain ⟨-, h1, -, h2, -⟩ := double_run H ho Z hB hcap h hm
  have hcB : 0 ≤ r.hp.cop * B := mul_nonneg (by linarith) (by linarith [Z.one_le])
  refine h1.trans ?_
  rw [show 2 ^ 19 * r.hp.cop * (B / 2 ^ 49) = r.hp.cop * B * (1 / 2 ^ 30) by norm_num; ring]
  norm_num
  linarith

/-- In every hour of every run with Python's floats no flow is below zero by more than `cop * B / 10 ^ 9`. -/
theorem C109_run_flows {S : RunIn N} (H : RunOk S) (ho : TidyOrders S) {B : ℚ} (Z : SizedRun .double S B)
    (hB : IsFloat .double B) (hcap : IsFloat .double S.es.capacity)
    {first n : ℕ} {rs : List (Results N)} (h : Rounded.runTimesteps .double S first n = .ok rs) :
    ∀ r ∈ rs, FlowsAbove (r.hp.cop * B / 10 ^ 9) r := by
  intro r hm
  obtain ⟨-, -, h1, h2, -⟩ := double_run H ho Z hB hcap h hm
  have hcB : 0 ≤ r.hp.cop * B := mul_nonneg (by linarith) (by linarith [Z.one_le])
  refine Rounded.flowsAbove_weaken ?_ h1
  rw [show 2 ^ 18 * r.hp.cop * (B / 2 ^ 49) = r.hp.cop * B * (1 / 2 ^ 31) by norm_num; ring]
  norm_num
  linarith

theorem sampleRun_tidy : TidyOrders sampleRun where
  above_nodup := sampleRun_orders.above_nodup
  below_nodup := sampleRun_orders.below_nodup
  above_tidy := orderAbove_tidy
  below_tidy := orderBelow_tidy

theorem sampleRun_sized : SizedRun .double sampleRun 64 where
  one_le := by norm_num
  cop := fun p hp => by
    rw [List.eq_of_mem_replicate hp]
    norm_num [sampleRun, sampleBattery]
  generation := fun g hg => by
    unfold Rounded.generation Rounded.wind sampleRun at hg
    dsimp only at hg
    rw [List.zipWith_replicate', List.zipWith_replicate'] at hg
    have e : g = 5 := (List.eq_of_mem_replicate hg).trans (by decide +kernel)
    rw [e]
    refine ⟨by norm_num, fun p hp => ?_⟩
    rw [List.eq_of_mem_replicate hp]
    norm_num
  elecDemand := fun d hd => by
    rw [List.eq_of_mem_replicate hd]
    norm_num
  heatDemand := fun d hd => by
    rw [List.eq_of_mem_replicate hd]
    norm_num
  chargeMax := by norm_num [sampleRun, sampleBattery]
  tank := fun hour s nodes m h => by
    simp only [sampleRun, sampleTank] at h
    cases h
    cases s <;> norm_num

/-- The sample year in binary64. -/
example : ∃ rs, Rounded.runTimesteps .double sampleRun 0 8760 = .ok rs ∧ rs.length = 8760 ∧
    (∀ r ∈ rs, 0 ≤ r.es.finalSoc ∧ r.es.finalSoc ≤ 10) ∧
    (∀ r ∈ rs, |r.elecDemand.res + r.elecDemand.es + r.elecDemand.imp - r.elecDemand.elecDemand| ≤ 64 / 10 ^ 12) ∧
    ∀ r ∈ rs, FlowsAbove (r.hp.cop * 64 / 10 ^ 9) r := by
  have h64 : IsFloat .double 64 := by unfold IsFloat; decide +kernel
  have h10 : IsFloat .double sampleRun.es.capacity := by unfold IsFloat; decide +kernel
  obtain ⟨rs, h, hl⟩ := C109_runs .double sampleRun_fullYear
    ⟨show ∀ n ∈ sampleRun.orderAbove, 1 ≤ n ∧ n ≤ 13 by decide, show ∀ n ∈ sampleRun.orderBelow, 1 ≤ n ∧ n ≤ 15 by decide⟩
    (fun _ _ _ => ⟨_, rfl⟩) (fun _ _ _ _ _ => ⟨_, rfl⟩) (first := 0) (n := 8760) le_rfl
  exact ⟨rs, h, hl, C107_charge_within .double sampleRun_ok.es.capacity_nonneg h,
    C109_run_demand sampleRun_ok sampleRun_tidy sampleRun_sized h64 h10
      (show (3 : ℤ) ∈ sampleRun.orderAbove by decide) (show (2 : ℤ) ∈ sampleRun.orderBelow by decide) h,
    C109_run_flows sampleRun_ok sampleRun_tidy sampleRun_sized h64 h10 h⟩

end Verif
