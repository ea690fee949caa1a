import Verif.Model.Programme
import Verif.Lemmas.Objects
import Verif.Lemmas.Total
import Verif.Props.Para

/-!
# What the setup of a run contains
-/

set_option autoImplicit false

namespace Verif
namespace Programme
open Pandas DataFrame Workbook InputReader Simulation Para Spec FixedOrder

theorem parametric_cells {s : Pandas.Sheet} {d : Dict} (h : parametric (readSheet s) = .ok d) :
    d = [("hp_max", s.cell 6 3), ("hp_min", s.cell 6 4), ("hp_step", s.cell 6 5),
      ("ts_max", s.cell 7 3), ("ts_min", s.cell 7 4), ("ts_step", s.cell 7 5)] := by
  unfold parametric at h
  simp only [except_bind_ok, except_pure_ok] at h
  obtain ⟨v1, h1, v2, h2, v3, h3, v4, h4, v5, h5, v6, h6, rfl⟩ := h
  rw [at_ok h1, at_ok h2, at_ok h3, at_ok h4, at_ok h5, at_ok h6]

/-- The numbers of the study. -/
theorem rangesOf_ok {a b c d e f : Value} {pa : Ranges}
    (h : rangesOf [("hp_max", a), ("hp_min", b), ("hp_step", c), ("ts_max", d), ("ts_min", e),
      ("ts_step", f)] = .ok pa) :
    a = some (.num pa.hpMax) ∧ b = some (.num pa.hpMin) ∧ d = some (.num pa.tsMax) ∧
    e = some (.num pa.tsMin) ∧
    (¬ (pa.hpMin = pa.hpMax ∧ pa.tsMin = pa.tsMax) → c = some (.num pa.hpStep)) ∧
    (pa.tsMin ≠ pa.tsMax → f = some (.num pa.tsStep)) := by
  unfold rangesOf at h
  simp only [except_bind_ok, dict_cons, reduceIte, String.reduceEq, Except.ok.injEq,
    exists_eq_left'] at h
  obtain ⟨x1, h1, x2, h2, x3, h3, x4, h4, h⟩ := h
  split_ifs at h with c1 c2 c2 <;>
    simp only [except_bind_ok, except_pure_ok, Except.ok.injEq, exists_eq_left'] at h
  · obtain rfl := h
    exact ⟨intOf_ok h2, intOf_ok h1, intOf_ok h4, intOf_ok h3, fun hn => absurd c1 hn,
      fun hn => absurd c1.2 hn⟩
  · exact absurd c1.2 c2
  · obtain ⟨x5, h5, rfl⟩ := h
    exact ⟨intOf_ok h2, intOf_ok h1, intOf_ok h4, intOf_ok h3, fun _ => intOf_ok h5,
      fun hn => absurd c2 hn⟩
  · obtain ⟨x5, h5, x6, h6, rfl⟩ := h
    exact ⟨intOf_ok h2, intOf_ok h1, intOf_ok h4, intOf_ok h3, fun _ => intOf_ok h5,
      fun _ => intOf_ok h6⟩

theorem createPickles_ok {base : Container} {ss : List (ℤ × ℤ)} {d d' : Dir Container}
    (h : createPickles base ss d = .ok d') :
    (∀ s ∈ ss, ∃ c, resizeContainer s base = .ok c ∧ d' (pickleName s) = some c) ∧
    (∀ n, (∀ s ∈ ss, n ≠ pickleName s) → d' n = d n) := by
  induction ss generalizing d with
  | nil =>
    cases Except.ok.inj h
    exact ⟨fun s hs => (nomatch hs), fun n _ => rfl⟩
  | cons s ss ih =>
    unfold createPickles at h
    simp only [except_bind_ok] at h
    obtain ⟨c, hc, h⟩ := h
    obtain ⟨h1, h2⟩ := ih h
    refine ⟨fun s' hs' => ?_, fun n hn => ?_⟩
    · by_cases hm : s' ∈ ss
      · exact h1 s' hm
      · rcases List.mem_cons.mp hs' with rfl | hs'
        · refine ⟨c, hc, ?_⟩
          rw [h2 _ (fun s hs he => hm (by rw [pickleName_inj he]; exact hs))]
          unfold Dir.put
          rw [if_pos rfl]
        · exact absurd hs' hm
    · rw [h2 n (fun s hs => hn s (List.mem_cons_of_mem _ hs))]
      unfold Dir.put
      rw [if_neg (hn s List.mem_cons_self)]

theorem createPickles_total {base : Container} {ss : List (ℤ × ℤ)} (d : Dir Container)
    (h : ∀ s ∈ ss, ∃ c, resizeContainer s base = .ok c) : ∃ d', createPickles base ss d = .ok d' := by
  induction ss generalizing d with
  | nil => exact ⟨d, rfl⟩
  | cons s ss ih =>
    obtain ⟨c, hc⟩ := h s List.mem_cons_self
    unfold createPickles
    obtain ⟨d', hd'⟩ := ih (d.put (pickleName s) c) (fun s' hs' => h s' (List.mem_cons_of_mem _ hs'))
    rw [hc]
    exact ⟨d', hd'⟩

/-- What a setup is made of: the sizes, the hours and the controller; and how a combination is solved. -/
structure SetupOf (L : Libs) (gekko : Gekko) (wb : Pandas.Workbook) (s : Setup) (pa : Ranges)
    (sizes : List (ℤ × ℤ)) (controller : Value) (first n : ℕ) : Prop where
  hpMax : Holds wb "Parametric" 'D' 6 pa.hpMax
  hpMin : Holds wb "Parametric" 'E' 6 pa.hpMin
  tsMax : Holds wb "Parametric" 'D' 7 pa.tsMax
  tsMin : Holds wb "Parametric" 'E' 7 pa.tsMin
  hpStep : ¬ (pa.hpMin = pa.hpMax ∧ pa.tsMin = pa.tsMax) → Holds wb "Parametric" 'F' 6 pa.hpStep
  tsStep : pa.tsMin ≠ pa.tsMax → Holds wb "Parametric" 'F' 7 pa.tsStep
  combos : Para.combos pa = .ok sizes
  nonempty : sizes ≠ []
  names : s.names = sizes.map folderName
  chosen : excel wb "Controller" 'D' 5 = controller
  from_hour : Holds wb "Controller" 'G' 5 first
  hours : Holds wb "Controller" 'G' 6 n
  solve : ∀ z ∈ sizes, ∃ c, containerOf wb z = .ok c ∧
    s.solve (folderName z) = solvePickle L gekko (controllerOf controller) first n c

theorem setup_ok {L : Libs} {gekko : Gekko} {wb : Pandas.Workbook} {s : Setup}
    (h : setup L gekko wb = .ok s) :
    ∃ pa sizes controller first n, SetupOf L gekko wb s pa sizes controller first n := by
  unfold setup at h
  simp only [except_bind_ok] at h
  obtain ⟨base, hr, pa, hpa, sizes, hz, dir, hd, h⟩ := h
  have R := readInputs_ok hr
  obtain ⟨s1, w1, p1⟩ := R.parametric
  obtain ⟨s2, w2, p2⟩ := R.controller
  rw [parametric_cells p1] at hpa
  obtain ⟨r1, r2, r3, r4, r5, r6⟩ := rangesOf_ok hpa
  obtain ⟨P1, -⟩ := createPickles_ok hd
  cases sizes with
  | nil => cases h
  | cons z zs =>
    obtain ⟨c, hc, hdz⟩ := P1 z List.mem_cons_self
    simp only [hdz, except_bind_ok, except_pure_ok] at h
    obtain ⟨-, e, -⟩ := resize_rest hc
    have K := (controller_cells p2).1
    rw [e, K] at h
    simp only [dict_cons, reduceIte, String.reduceEq, Except.ok.injEq, exists_eq_left'] at h
    obtain ⟨n, hn, first, hf, rfl⟩ := h
    refine ⟨pa, z :: zs, s2.cell 5 3, first, n, ?_, ?_, ?_, ?_, ?_, ?_, hz, List.cons_ne_nil _ _, rfl,
      excel_eq w2 'D' 5, ?_, ?_, ?_⟩
    · exact (excel_eq w1 'D' 6).trans r1
    · exact (excel_eq w1 'E' 6).trans r2
    · exact (excel_eq w1 'D' 7).trans r3
    · exact (excel_eq w1 'E' 7).trans r4
    · exact fun hn => (excel_eq w1 'F' 6).trans (r5 hn)
    · exact fun hn => (excel_eq w1 'F' 7).trans (r6 hn)
    · exact (excel_eq w2 'G' 5).trans (natOf_ok hf)
    · exact (excel_eq w2 'G' 6).trans (natOf_ok hn)
    · intro z' hz'
      obtain ⟨c', hc', hd'⟩ := P1 z' hz'
      refine ⟨c', ?_, ?_⟩
      · unfold containerOf
        rw [hr]
        exact hc'
      · have hx : dir (folderName z' ++ ".pkl".toList) = Option.some c' := hd'
        dsimp only
        rw [hx]

theorem natOf_num (m : ℕ) : natOf (some (.num (m : ℚ))) = .ok m := by
  unfold natOf numOf
  simp [bind, Except.bind]

theorem intOf_num (m : ℤ) : intOf (some (.num (m : ℚ))) = .ok m := by
  unfold intOf numOf
  simp [bind, Except.bind]

/-- The steps that are not looked at do not matter. -/
def pruned (pa : Ranges) : Ranges :=
  { pa with
    hpStep := if pa.hpMin = pa.hpMax ∧ pa.tsMin = pa.tsMax then 0 else pa.hpStep
    tsStep := if pa.tsMin = pa.tsMax then 0 else pa.tsStep }

theorem combos_pruned (pa : Ranges) : combos (pruned pa) = combos pa := by
  unfold combos hpSizes tsSizes pruned
  dsimp only
  by_cases h1 : pa.hpMin = pa.hpMax <;> by_cases h2 : pa.tsMin = pa.tsMax <;> simp [h1, h2]

theorem rangesOf_num (pa : Ranges) {c f : Value}
    (hc : ¬ (pa.hpMin = pa.hpMax ∧ pa.tsMin = pa.tsMax) → c = some (.num pa.hpStep))
    (hf : pa.tsMin ≠ pa.tsMax → f = some (.num pa.tsStep)) :
    rangesOf [("hp_max", some (.num pa.hpMax)), ("hp_min", some (.num pa.hpMin)), ("hp_step", c),
      ("ts_max", some (.num pa.tsMax)), ("ts_min", some (.num pa.tsMin)), ("ts_step", f)]
      = .ok (pruned pa) := by
  unfold rangesOf pruned
  simp only [dict_cons, reduceIte, String.reduceEq, okBind, intOf_num]
  by_cases h1 : pa.hpMin = pa.hpMax ∧ pa.tsMin = pa.tsMax
  · rw [if_pos h1, if_pos h1.2, if_pos h1, if_pos h1.2]
    rfl
  · rw [if_neg h1, if_neg h1, hc h1, intOf_num]
    by_cases h2 : pa.tsMin = pa.tsMax
    · rw [if_pos h2, okBind, if_pos h2]
      rfl
    · rw [if_neg h2, okBind, if_neg h2, hf h2, intOf_num]
      rfl

/-- What a run starts from, in terms of the objects made. -/
structure StartOf (L : Libs) (wb : Pandas.Workbook) (size : ℤ × ℤ) (S : RunIn (List ℚ)) (o : Objects) :
    Prop where
  objects : objects L wb size = .ok o
  hp : S.hp = ⟨o.heatPump.capacity, o.minimumRuntime, o.minimumOutput⟩
  es : S.es = o.battery
  aux : S.aux = o.aux
  windUser : userSeries L o.windUser = .ok S.windUser
  windData : databaseSeries L o.windDatabase = .ok S.windData
  pv : pvSeries L o.pv = .ok S.pv
  perf : HpConfig.performance L.kernels o.heatPump = .ok S.perf
  importPrice : ∃ c, containerOf wb size = .ok c ∧ importPrices L c o.grid = .ok S.importPrice

theorem start_ok {L : Libs} {wb : Pandas.Workbook} {size : ℤ × ℤ} {S : RunIn (List ℚ)}
    (h : runInputs L wb size = .ok S) : ∃ o, StartOf L wb size S o := by
  unfold runInputs at h
  simp only [except_bind_ok] at h
  obtain ⟨c, hc, h⟩ := h
  unfold fixedOrderIn at h
  simp only [except_bind_ok, except_pure_ok] at h
  obtain ⟨o, ho, ⟨d, f⟩, -, _, -, _, -, _, -, _, -, _, -, _, -, _, -, _, -, _, -, _, -, _, -, _, -,
    xp, hp, _, -, _, -, xu, hu, xd, hd, xv, hv, perf, hperf, rfl⟩ := h
  refine ⟨o, ⟨?_, rfl, rfl, rfl, hu, hd, hv, hperf, c, hc, hp⟩⟩
  unfold Simulation.objects
  rw [hc]
  exact ho

/-- One combination, from the workbook. -/
theorem simulate_ok {L : Libs} {wb : Pandas.Workbook} {size : ℤ × ℤ} {rs : List (Results (List ℚ))} :
    simulate L wb size = .ok rs ↔ ∃ S first n, runInputs L wb size = .ok S ∧
      Holds wb "Controller" 'G' 5 (first : ℕ) ∧ Holds wb "Controller" 'G' 6 (n : ℕ) ∧
      runTimesteps S first n = .ok rs := by
  have key : ∀ c, containerOf wb size = .ok c → ∃ s, wb "Controller" = some s ∧
      c.controller.info = [("controller", s.cell 5 3), ("first_hour", s.cell 5 6),
        ("total_timesteps", s.cell 6 6)] := by
    intro c hc
    obtain ⟨b, hr, hs⟩ := containerOf_ok hc
    obtain ⟨s, hw, hf⟩ := (readInputs_ok hr).controller
    obtain ⟨-, e, -⟩ := resize_rest hs
    exact ⟨s, hw, by rw [e, (controller_cells hf).1]⟩
  unfold simulate runInputs runPickle Holds
  constructor
  · intro h
    simp only [except_bind_ok] at h
    obtain ⟨c, hc, h⟩ := h
    obtain ⟨s, hw, e⟩ := key c hc
    rw [e] at h
    simp only [dict_cons, reduceIte, String.reduceEq, Except.ok.injEq, exists_eq_left'] at h
    obtain ⟨n, hn, first, hf, S, hS, hrun⟩ := h
    refine ⟨S, first, n, ?_, (excel_eq hw 'G' 5).trans (natOf_ok hf), (excel_eq hw 'G' 6).trans (natOf_ok hn),
      hrun⟩
    rw [hc]
    exact hS
  · rintro ⟨S, first, n, hS, h5, h6, hrun⟩
    simp only [except_bind_ok] at hS ⊢
    obtain ⟨c, hc, hS⟩ := hS
    obtain ⟨s, hw, e⟩ := key c hc
    rw [excel_eq hw] at h5 h6
    refine ⟨c, hc, ?_⟩
    rw [e]
    simp only [dict_cons, reduceIte, String.reduceEq, Except.ok.injEq, exists_eq_left']
    exact ⟨n, (congrArg natOf h6).trans (natOf_num n), first, (congrArg natOf h5).trans (natOf_num first), S,
      hS, hrun⟩

theorem singleLoop_ok {N R F K : Type} [DecidableEq N] {P : Main.Parts N R F K} {names : List N}
    {st st' : Main.Store N R F} (h : Main.singleLoop P names st = (none, st')) :
    (∀ n ∈ names, ∃ r, P.solve n = .ok r ∧ st'.results n = some r ∧ st'.figures n = (P.plot n r).1 ∧
      (P.plot n r).2 = none) ∧
    (∀ n, n ∉ names → st'.results n = st.results n ∧ st'.figures n = st.figures n) := by
  induction names generalizing st with
  | nil =>
    cases h
    exact ⟨fun n hn => (nomatch hn), fun n _ => ⟨rfl, rfl⟩⟩
  | cons n ns ih =>
    unfold Main.singleLoop Main.solveStep at h
    cases hs : P.solve n with
    | error e => rw [hs] at h; cases h
    | ok r =>
      rw [hs] at h
      dsimp only [Main.plotStep] at h
      rw [if_pos rfl] at h
      dsimp only at h
      cases hp : (P.plot n r).2 with
      | some e => rw [hp] at h; cases h
      | none =>
        rw [hp] at h
        obtain ⟨h1, h2⟩ := ih h
        refine ⟨fun m hm => ?_, fun m hm => ?_⟩
        · by_cases hmem : m ∈ ns
          · exact h1 m hmem
          · rcases List.mem_cons.mp hm with rfl | hm
            · obtain ⟨e1, e2⟩ := h2 m hmem
              exact ⟨r, hs, by rw [e1]; exact if_pos rfl, by rw [e2]; exact if_pos rfl, hp⟩
            · exact absurd hm hmem
        · obtain ⟨e1, e2⟩ := h2 m (fun h => hm (List.mem_cons_of_mem _ h))
          have hne : m ≠ n := fun h => hm (by rw [h]; exact List.mem_cons_self)
          exact ⟨by rw [e1]; exact if_neg hne, by rw [e2]; exact if_neg hne⟩

theorem singleLoop_total {N R F K : Type} [DecidableEq N] {P : Main.Parts N R F K} {names : List N}
    (st : Main.Store N R F)
    (h : ∀ n ∈ names, ∃ r, P.solve n = .ok r ∧ (P.plot n r).2 = none) :
    ∃ st', Main.singleLoop P names st = (none, st') := by
  induction names generalizing st with
  | nil => exact ⟨st, rfl⟩
  | cons n ns ih =>
    obtain ⟨r, hs, hp⟩ := h n List.mem_cons_self
    unfold Main.singleLoop Main.solveStep
    rw [hs]
    dsimp only [Main.plotStep]
    rw [if_pos rfl]
    dsimp only
    rw [hp]
    exact ih _ (fun m hm => h m (List.mem_cons_of_mem _ hm))

end Programme
end Verif
