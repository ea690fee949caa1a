import Verif.Props.Predictive
import Verif.Props.SampleIgnored
import Verif.Props.Power

/-!
# Examples for C100: the sample workbook with the predictive controller
-/

set_option autoImplicit false

namespace Verif
namespace Sample
open Pandas Workbook InputReader Enums Simulation Spec FixedOrder Programme

/-- The sample with the predictive controller, looking 6 hours ahead. -/
def ahead : Pandas.Workbook := fun name =>
  if name = "Controller" then some (sheet 7 9 (put (all 1) [((5, 3), text "Model predictive control"),
      ((5, 6), num 24), ((6, 6), num 48), ((9, 6), num 6), ((8, 3), text "1, 2, 3, 8, 9"),
      ((9, 3), text "1,2,6,9")]))
  else book "Simple" name

theorem ahead_top : TopRowsEmpty ahead := by
  intro name s hs k
  unfold ahead at hs
  split_ifs at hs
  · cases Option.some.inj hs; rfl
  · exact top "Simple" name s hs k

theorem ahead_readable : Readable ahead :=
  { parametric := ⟨_, rfl, by decide, by decide⟩, controller := ⟨_, rfl, by decide, by decide⟩,
    weather := ⟨_, rfl, by decide, by decide⟩, demandGen := ⟨_, rfl, by decide, by decide⟩,
    demandInput := ⟨_, rfl, by decide, by decide⟩, pv := ⟨_, rfl, by decide, by decide⟩,
    wind := ⟨_, rfl, by decide, by decide⟩, windFarm := ⟨_, rfl, by decide, by decide⟩,
    battery := ⟨_, rfl, by decide, by decide⟩, grid := ⟨_, rfl, by decide, by decide⟩,
    aux := ⟨_, rfl, by decide, by decide⟩, thermal := ⟨_, rfl, by decide, by decide⟩,
    heatPump := ⟨pump "Simple", rfl, Nat.le_refl 19, by show 26 ≤ 47; decide⟩,
    orderAbove := ⟨"1, 2, 3, 8, 9", [1, 2, 3, 8, 9], rfl, by decide +kernel⟩,
    orderBelow := ⟨"1,2,6,9", [1, 2, 6, 9], rfl, by decide +kernel⟩,
    fuel := ⟨"Gas", rfl, by decide +kernel⟩, fuel1 := ⟨"Wood chips", rfl, by decide +kernel⟩,
    fuel2 := ⟨"gas", rfl, by decide +kernel⟩, fuel3 := ⟨"Kerosene", rfl, by decide +kernel⟩ }

theorem ahead_usable : Usable ahead where
  top := ahead_top
  readable := ahead_readable
  store := ⟨_, rfl, by decide, by decide⟩
  tail := tail_of_height (s := pump "Simple") rfl (Nat.le_refl 47)
  pump := fun _ s h => by
    cases Option.some.inj h
    exact ⟨rfl, (by decide : 36 ≤ 47)⟩
  inverter := usable.inverter

theorem ahead_shape {sheet : String} (h : ahead sheet = book "Simple" sheet) :
    SameShape (book "Simple") ahead sheet := by
  intro s s' hs hs'
  cases Option.some.inj (hs.symm.trans (h.symm.trans hs'))
  exact ⟨rfl, rfl, fun _ _ => rfl⟩

theorem ahead_same : SameUsed (book "Simple") ahead where
  cells := by
    simp only [usedCells, List.forall_mem_cons, List.not_mem_nil, false_implies, implies_true, and_true]
    refine ⟨?_, ?_, ?_, ?_, ?_, ?_, ?_, ?_, ?_, ?_, ?_, ?_, ?_, ?_, ?_, ?_, ?_, ?_, ?_, ?_, ?_, ?_⟩ <;>
      (repeat' constructor)
  columns := by
    simp only [usedColumns, List.forall_mem_cons, List.not_mem_nil, false_implies, implies_true, and_true]
    refine ⟨?_, ?_, ?_, ?_, ?_, ?_, ?_, ?_, ?_, ?_, ?_, ?_, ?_, ?_, ?_, ?_, ?_, ?_, ?_⟩ <;>
      exact fun _ _ => rfl
  lengths := by
    simp only [List.forall_mem_cons, List.not_mem_nil, false_implies, implies_true, and_true]
    exact ⟨rfl, rfl, rfl, rfl⟩
  prices := fun _ _ _ => rfl
  tests := fun _ _ _ _ _ => rfl
  batteryShape := ahead_shape rfl
  battery := fun _ _ _ _ _ _ => rfl
  turbineShape := ahead_shape rfl
  turbines := fun _ _ _ => rfl
  panelShape := ahead_shape rfl
  panels := fun _ _ _ _ _ _ => rfl
  site := fun _ _ _ _ _ _ => rfl

theorem ahead_made {L : Libs} (hk : L.knownModule "Some_Module" = true) (size : ℤ × ℤ) :
    ∃ S, runInputs L ahead size = .ok S :=
  Depends.start_same ahead_same usable ahead_usable (run_made hk size)

theorem ahead_sensible : Sensible ahead := by
  have S := sensible "Simple"
  exact { battery := S.battery, heat := S.heat, network := S.network
          above := fun t order h1 h2 => by
            cases says_inj h1 (show Says _ _ _ _ "1, 2, 3, 8, 9" from rfl)
            exact S.above _ order rfl h2
          below := fun t order h1 h2 => by
            cases says_inj h1 (show Says _ _ _ _ "1,2,6,9" from rfl)
            exact S.below _ order rfl h2 }

theorem ahead_setup {L : Libs} (hk : L.knownModule "Some_Module" = true) (gekko : Gekko) :
    ∃ s, setup L gekko ahead = .ok s := by
  refine (C99_sets_up ahead_top).mpr ⟨ahead_readable, ⟨0, 20, 10, 0, 0, 10⟩, [(0, 0), (10, 0), (20, 0)], 24, 48,
    ⟨rfl, rfl, rfl, rfl, fun _ => rfl, fun _ => rfl⟩, sizes, by decide, rfl, rfl, fun size _ => ?_⟩
  obtain ⟨S, hS⟩ := ahead_made hk size
  unfold runInputs at hS
  obtain ⟨c, hc, -⟩ := except_bind_ok.mp hS
  exact ⟨c, hc⟩

theorem ahead_cells : Says ahead "Controller" 'D' 5 "Model predictive control" ∧
    Holds ahead "Parametric" 'D' 7 0 ∧ Holds ahead "Parametric" 'E' 7 0 ∧
    Holds ahead "Controller" 'G' 5 (24 : ℕ) ∧ Holds ahead "Controller" 'G' 6 (48 : ℕ) ∧
    Holds ahead "Controller" 'G' 9 (6 : ℕ) := ⟨rfl, rfl, rfl, rfl, rfl, rfl⟩

theorem ahead_ranges : RangesIn ahead ⟨0, 20, 10, 0, 0, 10⟩ :=
  ⟨rfl, rfl, rfl, rfl, fun _ => rfl, fun _ => rfl⟩

/-- An optimiser that imports all electricity, sells all generation and meets the heat demand with the
heater. -/
def importAll : Gekko := fun S _ hour _ => .ok
  { Mpc.Samples.zero with exp := S.generation (hour + 1), impEd := S.elecDemand (hour + 1)
                          hptVar := (S.perf (hour + 1)).duty, auxD := S.heatDemand (hour + 1)
                          aux := S.heatDemand (hour + 1) }

theorem getD_cases {α : Type} (l : List α) (t : ℕ) (d : α) : l.getD t d = d ∨ l.getD t d ∈ l := by
  rw [List.getD_eq_getElem?_getD]
  cases h : l[t]? with
  | none => exact Or.inl rfl
  | some x => exact Or.inr (List.mem_of_getElem? h)

theorem importAll_obeys {L : Libs} (hk : L.knownModule "Some_Module" = true) {size : ℤ × ℤ} (h0 : 0 ≤ size.1)
    {first n : ℕ} {S : MpcIn (List ℚ)} {maxCap : List ℚ} (h : mpcInputs L ahead size first n = .ok (S, maxCap)) :
    Obeys S (importAll S maxCap) := by
  obtain ⟨o, hs, xs, us, ds, ps, prs, pfs, T⟩ := mpcIn_ok ahead_top h
  obtain ⟨R, hR⟩ := ahead_made hk size
  have hgood : GoodPump R := by
    refine C99_simple_pump hR (Or.inr ⟨h0, ⟨"Simple", rfl, by decide +kernel⟩, fun cop hc => ?_⟩)
    rw [holds_inj hc (show Holds _ _ _ _ 3 from rfl)]
    norm_num
  obtain ⟨o', T'⟩ := start_ok hR
  cases Except.ok.inj (T'.objects.symm.trans T.objects)
  have e1 : R.perf = pfs := Except.ok.inj (T'.perf.symm.trans T.performance)
  obtain ⟨S0, hS0⟩ := run_made hk size
  cases C98_start usable.top ahead_top usable.tail ahead_usable.tail ahead_same hS0 hR
  obtain ⟨o'', T''⟩ := start_ok hS0
  obtain ⟨p1, p2, p3⟩ := no_power T''.objects
  have z1 : us = List.replicate 8760 0 :=
    (Except.ok.inj (T'.windUser.symm.trans T.windUser)).symm.trans (Except.ok.inj (T''.windUser.symm.trans p1))
  have z2 : ds = List.replicate 8760 0 :=
    (Except.ok.inj (T'.windData.symm.trans T.windData)).symm.trans (Except.ok.inj (T''.windData.symm.trans p2))
  have z3 : ps = List.replicate 8760 0 :=
    (Except.ok.inj (T'.pv.symm.trans T.pvPower)).symm.trans (Except.ok.inj (T''.pv.symm.trans p3))
  have hgen : ∀ t, S.generation t = 0 := by
    intro t
    rw [T.generation, z1, z2, z3, List.zipWith_replicate', List.zipWith_replicate']
    rcases getD_cases (List.replicate 8760 ((0 : ℚ) + 0 + 0)) t 0 with e | e
    · exact e
    · exact (List.eq_of_mem_replicate e).trans (by norm_num)
  have hheat : ∀ x ∈ hs, 0 ≤ x := by
    intro x hx
    obtain ⟨t, ht⟩ := List.mem_iff_getElem?.mp hx
    obtain ⟨_, -, -, hc⟩ := T.heat
    exact ahead_sensible.heat (6 + t) (Nat.le_add_right _ _) x (hc t x ht)
  have helec : ∀ x ∈ xs, 0 ≤ x := by
    intro x hx
    obtain ⟨t, ht⟩ := List.mem_iff_getElem?.mp hx
    obtain ⟨_, -, -, hc⟩ := T.elec
    have e : x = 2 := holds_inj (hc t x ht) (if_neg (by omega))
    rw [e]
    norm_num
  obtain ⟨s, row, hs', hrow, b1, b2, b3, b4, b5, b6, b7⟩ := C91_battery ahead_top T.objects
  obtain ⟨K1, K2⟩ := ahead_sensible.battery s row hs' hrow
  simp only [List.forall_mem_cons, List.not_mem_nil, false_implies, implies_true, and_true] at K1
  have hmin : o.minimumOutput = 0 :=
    holds_inj (C91_heat_pump T.objects).2.2.2.1 (show Holds _ _ _ _ 0 from rfl)
  have hpeak : ∀ x ∈ hs, x ≤ S.peakHeatDemand := fun x hx => by rw [T.peak]; exact le_listMax hx
  intro hour a p hp
  cases Except.ok.inj hp
  have a1 : 0 ≤ S.heatDemand (hour + 1) := by
    rw [T.heatDemand]
    rcases getD_cases hs (hour + 1) 0 with e | e
    · exact le_of_eq e.symm
    · exact hheat _ e
  have a2 : 0 ≤ S.elecDemand (hour + 1) := by
    rw [T.elecDemand]
    rcases getD_cases xs (hour + 1) 0 with e | e
    · exact le_of_eq e.symm
    · exact helec _ e
  have a3 : 0 ≤ (S.perf (hour + 1)).duty := by
    rw [T.perf]
    rcases getD_cases pfs (hour + 1) ⟨0, 0⟩ with e | e
    · exact le_of_eq (congrArg Perf.duty e).symm
    · exact (hgood _ (by rw [e1]; exact e)).2
  have a4 : S.heatDemand (hour + 1) ≤ S.peakHeatDemand := by
    by_cases hne : hs = []
    · rw [T.heatDemand, T.peak, hne]
      rfl
    · obtain ⟨x, hx⟩ := List.exists_mem_of_ne_nil _ hne
      rw [T.heatDemand]
      rcases getD_cases hs (hour + 1) 0 with e | e
      · exact le_trans (le_of_eq e) (le_trans (hheat x hx) (hpeak x hx))
      · exact hpeak _ e
  have a5 : Mpc.hpMin S (hour + 1) = 0 := by
    unfold Mpc.hpMin
    rw [T.hp]
    dsimp only
    rw [hmin]
    ring
  have es := T.es
  refine ⟨0, ?_, fun _ => ?_, fun _ => ?_, ?_⟩
  · have a6 : 0 ≤ S.generation (hour + 1) := le_of_eq (hgen _).symm
    have z : (0 : ℚ) ≤ 0 := le_refl _
    constructor <;> dsimp only [Mpc.Samples.zero] <;> first | exact z | exact a1 | exact a2 | exact a3 | exact a6
  · constructor <;> dsimp only [Mpc.Samples.zero] <;> ring
  · constructor <;> dsimp only [Mpc.Samples.zero] <;> ring
  · constructor <;> dsimp only [Mpc.Samples.zero]
    · exact le_refl _
    · rw [a5]; exact a3
    · exact le_refl _
    · norm_num
    · exact le_refl _
    · rw [es]; exact K1.1 _ b1
    · rw [es]; exact mul_nonneg (K1.2.2.1 _ b3) (K1.2.2.2.2.1 _ b5)
    · rw [es]; exact K1.2.2.2.1 _ b4
    · exact le_refl _
    · exact a4

end Sample

open Pandas Workbook InputReader Enums Simulation Spec FixedOrder Programme
attribute [local irreducible] Programme.Ends Sample.ahead

variable {F K : Type}

/-- C100: the predictive study of the sample workbook ends. There are results for the heat pump sizes 0, 10
and 20, each with 48 hours from hour 24; the first is as `OpeningReport` says, and the others are as
`PredictReport` says. -/
theorem sample_predictive_ends {L : Libs} (hL : WholeYear L) (hk : L.knownModule "Some_Module" = true)
    {out : Outputs F K} (hplot : ∀ name r, (out.plot name r).2 = none)
    (hkpi : ∀ rs, ∃ k, out.kpis rs = .ok k) :
    ∃ k st, Ends L Sample.importAll Sample.ahead out (.ok k, st) ∧
    ∀ size ∈ [((0 : ℤ), (0 : ℤ)), (10, 0), (20, 0)], ∃ rs,
      st.results (Para.folderName size) = some (.predictive rs) ∧ rs.length = 48 ∧
      ∀ i r, rs[i]? = some r → (i = 0 → OpeningReport Sample.ahead 24 r) ∧
        (1 ≤ i → PredictReport Sample.ahead (24 + i) r) := by
  obtain ⟨s, hs⟩ := Sample.ahead_setup hk Sample.importAll
  obtain ⟨k, st, hend, pa, sizes, hpa, hcom, hall⟩ := C100_ends_partial (wb := Sample.ahead)
    (first := 24) (n := 48) (horizon := 6) hL
    Sample.ahead_top hs Sample.ahead_cells.1 (fun hp => Sample.ahead_made hk _) Sample.ahead_cells.2.1
    Sample.ahead_cells.2.2.1 Sample.ahead_cells.2.2.2.1 Sample.ahead_cells.2.2.2.2.1 Sample.ahead_cells.2.2.2.2.2
    (fun _ _ _ _ => ⟨_, rfl⟩) (Or.inl (by omega)) (by omega) (by omega) (by omega) (by omega) hplot hkpi
  have e := Except.ok.inj (hcom.symm.trans ((ranges_combos hpa Sample.ahead_ranges).trans Sample.sizes))
  refine ⟨k, st, hend, fun size hz => ?_⟩
  obtain ⟨rs, hp, hrs, hl⟩ := hall size (by rw [e]; exact hz)
  have h0 : 0 ≤ size.1 := by
    simp only [List.mem_cons, List.not_mem_nil, or_false] at hz
    rcases hz with rfl | rfl | rfl <;> decide
  obtain ⟨first, hf, -, -, hrep⟩ := C100_combination_partial hL Sample.ahead_top Sample.ahead_sensible
    (fun _ _ _ _ hS => Sample.importAll_obeys hk h0 hS) hp (by omega)
  have ef : first = 24 := by exact_mod_cast Sample.holds_inj hf Sample.ahead_cells.2.2.2.1
  rw [ef] at hrep
  refine ⟨rs, hrs, hl, fun i r hr => ⟨(hrep i r hr).1, fun h1 => (hrep i r hr).2 h1 ?_⟩⟩
  have := (List.getElem?_eq_some_iff.mp hr).1
  omega

/-- `C100_needs` applies to the runs of this study. -/
example {rs : List (Mpc.MpcResults (List ℚ))}
    (h : predict Sample.libs Sample.importAll Sample.ahead (10, 0) = .ok rs) : 24 + 48 ≤ 8760 :=
  (C100_needs Sample.ahead_top h Sample.ahead_cells.2.2.2.1 Sample.ahead_cells.2.2.2.2.1
    Sample.ahead_cells.2.2.2.2.2).1

namespace Sample

/-- The same for a single hour. -/
def oneHour : Pandas.Workbook := fun name =>
  if name = "Controller" then some (sheet 7 9 (put (all 1) [((5, 3), text "Model predictive control"),
      ((5, 6), num 24), ((6, 6), num 1), ((9, 6), num 6), ((8, 3), text "1, 2, 3, 8, 9"),
      ((9, 3), text "1,2,6,9")]))
  else book "Simple" name

theorem oneHour_top : TopRowsEmpty oneHour := by
  intro name s hs k
  unfold oneHour at hs
  split_ifs at hs
  · cases Option.some.inj hs; rfl
  · exact top "Simple" name s hs k

theorem oneHour_filled {L : Libs} (hk : L.knownModule "Some_Module" = true) : Filled L oneHour :=
  let F := filled hk (model := "Simple") (by decide)
  { readable := { readable "Simple" with
      controller := ⟨_, rfl, by decide, by decide⟩
      orderAbove := ⟨"1, 2, 3, 8, 9", [1, 2, 3, 8, 9], rfl, by decide +kernel⟩
      orderBelow := ⟨"1,2,6,9", [1, 2, 6, 9], rfl, by decide +kernel⟩ },
    weather := F.weather, air := F.air, water := F.water, demand := F.demand,
    source := F.source, ret := F.ret, battery := F.battery,
    turbines := F.turbines, pv := F.pv, tank := F.tank, layers := F.layers, tankNumbers := F.tankNumbers,
    hpType := F.hpType, hpData := F.hpData, hpNumbers := F.hpNumbers, duties := F.duties, model := F.model,
    efficiency := F.efficiency, fuel := F.fuel,
    tariff := ⟨_, "Flat rates", rfl, rfl, by decide, fun _ => ⟨3, rfl⟩,
        fun h => absurd h (by decide), fun h => absurd h (by decide), fun h => absurd h (by decide)⟩ }

theorem libs_farm : FarmYear libs := by
  intro a b c d e w xs h
  rw [← Except.ok.inj h]
  exact List.length_replicate

theorem oneHour_made : ∃ S, runInputs libs oneHour (10, 0) = .ok S := by
  have R := (C94_ready libs_farm (top "Simple") (tail_of_height (pump_sheet "Simple") (Nat.le_refl 47))).mp
    (run_made (L := libs) rfl (10, 0))
  exact (C94_ready libs_farm oneHour_top (tail_of_height (s := pump "Simple") rfl (Nat.le_refl 47))).mpr
    { objects := oneHour_filled rfl, demand := R.demand, delta := R.delta, exportPrice := R.exportPrice,
      setpoint := ⟨1, rfl⟩
      prices := fun t ht => by
        cases says_inj ht (show Says _ _ _ _ "Flat rates" from rfl)
        exact ⟨fun h => absurd h (by decide), fun h => absurd h (by decide), fun h => absurd h (by decide),
          fun h => absurd h (by decide)⟩
      turbines := R.turbines, panels := R.panels, performance := R.performance }

end Sample

/-- C100: the run of one hour ends, and there is no result. -/
example : predict Sample.libs Sample.importAll Sample.oneHour (10, 0) = .ok [] := by
  obtain ⟨R, hR⟩ := Sample.oneHour_made
  obtain ⟨S, mc, hS⟩ := predict_starts Sample.libs_year Sample.oneHour_top hR rfl (first := 24) (n := 1)
    (horizon := 6) (show Holds _ _ _ _ _ from rfl) (Or.inl (by decide))
  exact predict_ok.mpr ⟨24, 1, S, mc, hS, rfl, rfl, C47_single_hour _ _ _ (by decide)⟩

/-- And from the workbook alone. -/
example {rs : List (Mpc.MpcResults (List ℚ))}
    (h : predict Sample.libs Sample.importAll Sample.oneHour (10, 0) = .ok rs) : rs = [] :=
  C100_one_hour h (show Holds _ _ _ _ _ from rfl)

/-- The sample study keeps results for its own combinations only. -/
example {L : Libs} (hL : WholeYear L) (hk : L.knownModule "Some_Module" = true)
    {out : Outputs F K} (hplot : ∀ name r, (out.plot name r).2 = none) (hkpi : ∀ rs, ∃ k, out.kpis rs = .ok k) :
    ∃ k st pa sizes, Ends L Sample.importAll Sample.ahead out (.ok k, st) ∧ RangesIn Sample.ahead pa ∧
      Para.combos pa = .ok sizes ∧ sizes ≠ [] ∧
      (∀ name, (∀ size ∈ sizes, name ≠ Para.folderName size) → st.results name = none ∧ st.figures name = []) := by
  obtain ⟨k, st, h, -⟩ := sample_predictive_ends hL hk hplot hkpi
  obtain ⟨pa, sizes, h1, h2, h3, -, h4, -⟩ := C100_study Sample.ahead_cells.1 h
  exact ⟨k, st, pa, sizes, h, h1, h2, h3, h4⟩

end Verif
