import Verif.Lemmas.Tank
import Verif.Spec.TankSolver

/-!
# Lemmas about the tank with any integrator
-/

set_option autoImplicit false

namespace Verif
open Spec Tank

/-! ### Sorting is not expansive -/

theorem sortDown_mono {a b : List ℚ} (h : List.Forall₂ (· ≤ ·) a b) :
    List.Forall₂ (· ≤ ·) (sortDown a) (sortDown b) := by
  obtain ⟨a', h1, h2⟩ := List.perm_comp_forall₂ (sortDown_perm b) (List.Forall₂.flip h)
  have h3 : List.Forall₂ (· ≤ ·) a' (sortDown b) := List.Forall₂.flip h1
  have h4 : sortDown a = sortDown a' := by
    refine List.Perm.eq_of_pairwise' (sortDown_stratified a) (sortDown_stratified a') ?_
    exact ((sortDown_perm a).trans h2.symm).trans (sortDown_perm a').symm
  rw [h4]
  exact sortDown_le (sortDown_stratified b) h3

theorem sortDown_shift (b : List ℚ) (ε : ℚ) : sortDown (b.map (· + ε)) = (sortDown b).map (· + ε) := by
  refine List.Perm.eq_of_pairwise' (r := (· ≥ ·)) (sortDown_stratified _) ?_ ?_
  · exact List.Pairwise.map _ (fun x y hxy => by simpa using hxy) (sortDown_stratified b)
  · exact (sortDown_perm _).trans ((sortDown_perm b).map _).symm

theorem close_iff {ε : ℚ} {a b : List ℚ} : Close ε a b ↔
    List.Forall₂ (· ≤ ·) a (b.map (· + ε)) ∧ List.Forall₂ (· ≤ ·) b (a.map (· + ε)) := by
  unfold Close
  constructor
  · intro h
    induction h with
    | nil => exact ⟨.nil, .nil⟩
    | cons hx _ ih =>
      rw [abs_le] at hx
      exact ⟨.cons (by dsimp only; linarith) ih.1, .cons (by dsimp only; linarith) ih.2⟩
  · rintro ⟨h1, h2⟩
    induction a generalizing b with
    | nil => cases b with
      | nil => exact .nil
      | cons => cases h1
    | cons x a ih => cases b with
      | nil => cases h1
      | cons y b =>
        rw [List.map_cons] at h1 h2
        obtain ⟨p1, q1⟩ := List.forall₂_cons.mp h1
        obtain ⟨p2, q2⟩ := List.forall₂_cons.mp h2
        exact .cons (abs_le.mpr ⟨by linarith, by linarith⟩) (ih q1 q2)

theorem sortDown_close {ε : ℚ} {a b : List ℚ} (h : Close ε a b) : Close ε (sortDown a) (sortDown b) := by
  obtain ⟨h1, h2⟩ := close_iff.mp h
  refine close_iff.mpr ⟨?_, ?_⟩
  · rw [← sortDown_shift]; exact sortDown_mono h1
  · rw [← sortDown_shift]; exact sortDown_mono h2

theorem close_within {ε lo hi : ℚ} {a b : List ℚ} (h : Close ε a b) (hb : Within lo hi b) :
    Within (lo - ε) (hi + ε) a := by
  induction h with
  | nil => intro t ht; cases ht
  | cons hx _ ih =>
    rw [abs_le] at hx
    intro t ht
    rcases List.mem_cons.mp ht with rfl | ht
    · have := hb _ (List.mem_cons_self)
      exact ⟨by linarith, by linarith⟩
    · exact ih (fun t ht => hb t (List.mem_cons_of_mem _ ht)) t ht

theorem close_sum {ε : ℚ} {a b : List ℚ} (h : Close ε a b) : |a.sum - b.sum| ≤ b.length * ε := by
  induction h with
  | nil => simp
  | @cons x y a b hx _ ih =>
    rw [abs_le] at hx ih ⊢
    simp only [List.sum_cons, List.length_cons, Nat.cast_add, Nat.cast_one]
    constructor <;> linarith [hx.1, hx.2, ih.1, ih.2]

/-! ### The exact integrator -/

theorem exact_length (tk : Tank) (nodes : List ℚ) (hl : nodes.length = tk.number) (f : ℕ → ℚ) :
    exactSolver nodes ((List.range tk.number).map f) = (List.range tk.number).map (fun i => temp nodes i + f i) := by
  apply List.ext_getElem
  · simp [exactSolver, hl]
  · intro i h1 h2
    have : i < nodes.length := by simpa [exactSolver, hl] using h1
    simp [exactSolver, temp_eq this]

theorem eulerWith_exact {tk : Tank} {e : StepEnv} {cs nodes : List ℚ} {state : TankState} {net : NetTemps}
    (hl : nodes.length = tk.number) : eulerWith exactSolver tk e cs state nodes net = euler tk e cs state nodes net := by
  unfold eulerWith euler
  rw [exact_length tk nodes hl]

theorem euler_length {tk : Tank} {e : StepEnv} {cs nodes new : List ℚ} {state : TankState} {net : NetTemps}
    (h : euler tk e cs state nodes net = .ok new) : new.length = tk.number := by
  rw [euler_ok h]; simp

theorem internalStepWith_exact {tk : Tank} {hour : ℕ} {state : TankState} {net : NetTemps} {th de : ℚ} {nodes : List ℚ}
    (hl : nodes.length = tk.number) :
    internalStepWith exactSolver tk hour state net th de nodes = internalStep tk hour state net th de nodes := by
  unfold internalStepWith internalStep
  cases massFlow state net th de (temp nodes (tk.number - 1)) (temp nodes 0) with
  | error e => rfl
  | ok m1 =>
    dsimp only
    cases env tk hour nodes with
    | error e => rfl
    | ok x =>
      obtain ⟨cs, k, amb⟩ := x
      dsimp only
      rw [eulerWith_exact hl]
      cases euler tk ⟨min m1 tk.nodeMass, k, amb⟩ cs state nodes net <;> rfl

theorem profilesWith_exact {tk : Tank} {hour : ℕ} {state : TankState} {net : NetTemps} {th de : ℚ} :
    ∀ (t : ℕ) (nodes : List ℚ), nodes.length = tk.number →
      profilesWith exactSolver tk hour state net th de t nodes = profiles tk hour state net th de t nodes := by
  intro t
  induction t with
  | zero => intro nodes _; rfl
  | succ t ih =>
    intro nodes hl
    unfold profilesWith profiles
    rw [internalStepWith_exact hl]
    cases h : internalStep tk hour state net th de nodes with
    | error e => rfl
    | ok new =>
      dsimp only
      rw [ih new (internalStep_shape h).2]
      cases profiles tk hour state net th de t new <;> rfl

theorem energyLoopWith_exact {tk : Tank} {hour : ℕ} {state : TankState} {net : NetTemps} {cp : ℚ} :
    ∀ (t : ℕ) (nodes : List ℚ), nodes.length = tk.number →
      energyLoopWith exactSolver tk hour state net cp t nodes = energyLoop tk hour state net cp t nodes := by
  intro t
  induction t with
  | zero => intro nodes _; rfl
  | succ t ih =>
    intro nodes hl
    unfold energyLoopWith energyLoop
    cases env tk hour nodes with
    | error e => rfl
    | ok x =>
      obtain ⟨cs, k, amb⟩ := x
      dsimp only
      rw [eulerWith_exact hl]
      cases h : euler tk ⟨tk.nodeMass, k, amb⟩ cs state nodes net with
      | error e => rfl
      | ok new =>
        dsimp only
        rw [ih new (euler_length h)]
        cases energyLoop tk hour state net cp t new <;> rfl

/-! ### Any integrator -/

/-- A step with an integrator that keeps the number of layers, taken apart. -/
theorem internalStepWith_ok {ode : Solver} {tk : Tank} {hour : ℕ} {state : TankState} {net : NetTemps} {th de : ℚ}
    {nodes new : List ℚ} (h : internalStepWith ode tk hour state net th de nodes = .ok new) :
    ∃ m1 cs k amb, massFlow state net th de (temp nodes (tk.number - 1)) (temp nodes 0) = .ok m1 ∧
      env tk hour nodes = .ok (cs, k, amb) ∧ tk.number ≠ 1 ∧
      new = sortDown (ode nodes ((List.range tk.number).map (fun i =>
        slope tk ⟨min m1 tk.nodeMass, k, amb⟩ state nodes net i (cs.getD i 0)))) := by
  unfold internalStepWith at h
  split at h
  · cases h
  · rename_i m1 hm
    split at h
    · cases h
    · rename_i cs k amb he
      split at h
      · cases h
      · rename_i new' hn
        cases h
        unfold eulerWith at hn
        split_ifs at hn with h1
        cases hn
        exact ⟨m1, cs, k, amb, hm, he, h1, rfl⟩

theorem internalStepWith_shape {ode : Solver} (ho : KeepsNumber ode) {tk : Tank} {hour : ℕ} {state : TankState}
    {net : NetTemps} {th de : ℚ} {nodes new : List ℚ} (hl : nodes.length = tk.number)
    (h : internalStepWith ode tk hour state net th de nodes = .ok new) : Stratified new ∧ new.length = tk.number := by
  obtain ⟨m1, cs, k, amb, _, _, _, rfl⟩ := internalStepWith_ok h
  exact ⟨sortDown_stratified _, by rw [sortDown_length, ho _ _ (by simp [hl]), hl]⟩

theorem profilesWith_all {ode : Solver} {tk : Tank} {hour : ℕ} {state : TankState} {net : NetTemps} {th de : ℚ}
    (I : ℕ → List ℚ → Prop)
    (hstep : ∀ k a b, I k a → internalStepWith ode tk hour state net th de a = .ok b → I (k + 1) b) :
    ∀ (t : ℕ) (k : ℕ) (nodes : List ℚ) (ps : List (List ℚ)), I k nodes →
      profilesWith ode tk hour state net th de t nodes = .ok ps →
      ps.length = t ∧ ∀ j (h : j < ps.length), I (k + j + 1) ps[j] := by
  intro t
  induction t with
  | zero => intro k nodes ps _ h; cases h; exact ⟨rfl, fun j h => by simp at h⟩
  | succ t ih =>
    intro k nodes ps hI h
    unfold profilesWith at h
    split at h
    · cases h
    · rename_i new hn
      split at h
      · cases h
      · rename_i rest hr
        cases h
        have h1 := hstep _ _ _ hI hn
        obtain ⟨h2, h3⟩ := ih (k + 1) new rest h1 hr
        refine ⟨by simp [h2], fun j hj => ?_⟩
        cases j with
        | zero => simpa using h1
        | succ j =>
          have := h3 j (by simpa using hj)
          simpa [Nat.add_comm, Nat.add_left_comm, Nat.add_assoc] using this

theorem newNodesTempWith_profiles {ode : Solver} {tk : Tank} {hour : ℕ} {state : TankState} {net : NetTemps}
    {nodes : List ℚ} {th de : ℚ} {ps : List (List ℚ)}
    (h : newNodesTempWith ode tk hour state net nodes th de = .ok (.profiles ps)) :
    nodes.length = tk.number ∧ tk.capacity ≠ 0 ∧ 1 ≤ tk.number ∧
      ∃ mf, massFlow state net th de (temp nodes (tk.number - 1)) (temp nodes 0) = .ok mf ∧
        profilesWith ode tk hour state net (th * 3600 / stepCount tk (mf * 3600))
          (de * 3600 / stepCount tk (mf * 3600)) (stepCount tk (mf * 3600)) nodes = .ok ps := by
  unfold newNodesTempWith at h
  split_ifs at h with h1 h2 h3 h4
  · cases h
  · cases h
  · split at h
    · cases h
    · rename_i mf hm
      dsimp only at h
      split at h
      · cases h
      · rename_i ps' hp
        cases h
        exact ⟨by simpa using h1, h2, by omega, mf, hm, hp⟩

/-- The exact integrator starts from the same temperatures whenever the other one does, and ends close to it. -/
theorem internalStepWith_close {ε : ℚ} {ode : Solver} (ho : AccurateTo ε ode) {tk : Tank} {hour : ℕ} {state : TankState}
    {net : NetTemps} {th de : ℚ} {nodes new : List ℚ} (hl : nodes.length = tk.number)
    (h : internalStepWith ode tk hour state net th de nodes = .ok new) :
    ∃ new', internalStep tk hour state net th de nodes = .ok new' ∧ Close ε new new' := by
  obtain ⟨m1, cs, k, amb, hm, he, h1, rfl⟩ := internalStepWith_ok h
  refine ⟨_, ?_, sortDown_close (b := (List.range tk.number).map (fun i => temp nodes i +
    slope tk ⟨min m1 tk.nodeMass, k, amb⟩ state nodes net i (cs.getD i 0))) ?_⟩
  · unfold internalStep euler
    rw [hm]
    dsimp only
    rw [he]
    dsimp only
    rw [if_neg h1]
  · have hk := ho.1 nodes ((List.range tk.number).map (fun i =>
      slope tk ⟨min m1 tk.nodeMass, k, amb⟩ state nodes net i (cs.getD i 0))) (by simp [hl])
    refine List.forall₂_iff_get.mpr ⟨by rw [hk, hl, List.length_map, List.length_range], fun i h1 h2 => ?_⟩
    have hi : i < nodes.length := by rw [← hk]; exact h1
    have := ho.2 _ _ (by simp [hl]) i hi (by simp [← hl, hi]) h1
    simpa [temp_eq hi] using this

end Verif
