import Verif.Lemmas.TogetherPool

/-!
# Lemmas for `Verif.Props.SameFolder`: calls for one folder that are not to overwrite
-/

set_option autoImplicit false

namespace Verif
namespace Disk
open Files Para Pandas Programme Report InputReader Simulation Workbook OutputProcess

/-- The call has made the folder. -/
def Running.Past : Running → Prop
  | .early _ => True
  | .two .. => True
  | .late _ => True
  | .ended _ => True
  | _ => False

/-- The call has not made the folder: it has not got there, or has been refused, which takes that `refused` holds. -/
def Running.Outside (refused : Prop) : Running → Prop
  | .started => True
  | .checking => True
  | .looking => True
  | .making => True
  | .ended (.error .fileExistsError) => refused
  | _ => False

/-- A call that has made the folder does not remove it, and changes only what is inside. -/
theorem past_act {c : Call} {r r' : Running} {fs fs' : FS Data} (hr : r.Fits c) (hp : r.Past) {x : Act}
    (h : r.act c fs x = some (r', fs')) : r'.Past ∧ fs' c.root = fs c.root := by
  have hroot : ¬ Inside c.root c.root := not_inside _
  have keep : ∀ {a b : FS Data}, Except' (Inside c.root) a b → b c.root = a c.root := fun h => h _ hroot
  cases x with
  | go =>
    cases r with
    | early p =>
      cases p with
      | ret o =>
        cases h
        refine ⟨?_, rfl⟩
        unfold Call.divide
        split <;> trivial
      | raise _ => cases h; exact ⟨trivial, rfl⟩
      | look k => cases h; exact ⟨trivial, rfl⟩
      | change g k =>
        cases h
        have hn : (Prog.change g k).next fs = some (k, g fs) := rfl
        obtain ⟨-, -, -, -, h4⟩ := next_local hr.1 (fun _ _ => rfl : On _ fs fs) hn
        exact ⟨trivial, keep h4⟩
    | two o proc job parent =>
      cases parent with
      | ended e =>
        cases e with
        | none => cases h; exact ⟨trivial, rfl⟩
        | some _ => cases h
      | _ => cases h
    | late p =>
      cases p with
      | ret _ => cases h; exact ⟨trivial, rfl⟩
      | raise _ => cases h; exact ⟨trivial, rfl⟩
      | look k => cases h; exact ⟨trivial, rfl⟩
      | change g k =>
        cases h
        have hn : (Prog.change g k).next fs = some (k, g fs) := rfl
        obtain ⟨-, -, -, -, h4⟩ := next_local (show Prog.Within _ _ _ from hr) (fun _ _ => rfl : On _ fs fs) hn
        exact ⟨trivial, keep h4⟩
    | ended _ => cases h
    | _ => exact hp.elim
  | move m =>
    cases r with
    | two o proc job parent =>
      obtain ⟨ho, hj, hw⟩ := hr
      obtain ⟨k, hk, e⟩ := Option.map_eq_some_iff.mp h
      cases e
      obtain ⟨-, -, -, -, -, h5⟩ := move_local (fun n => ho ▸ solve_within' ..) (fun n => ho ▸ plot_within' ..) hj hw
        (fun _ _ => rfl : On _ fs fs) hk
      exact ⟨trivial, keep h5⟩
    | _ => simp [Running.act] at h

/-- A call that has not made the folder, while there is something at its place. -/
theorem outside_act_there {c : Call} (ho : c.overwrite = false) {r r' : Running} {fs fs' : FS Data}
    (hx : fs c.xlsx ≠ none) (hd : fs c.outdir ≠ none) (ht : fs c.root ≠ none) {refused : Prop} (hf : refused)
    (hr : r.Outside refused) {x : Act} (h : r.act c fs x = some (r', fs')) : r'.Outside refused ∧ fs' = fs := by
  cases x with
  | move m =>
    cases r with
    | two o proc job parent => exact hr.elim
    | _ => simp [Running.act] at h
  | go =>
    cases r with
    | started =>
      simp only [Running.act, validPath] at h
      cases hv : fs c.xlsx with
      | none => exact absurd hv hx
      | some _ => rw [hv] at h; cases h; exact ⟨trivial, rfl⟩
    | checking =>
      simp only [Running.act, validPath] at h
      cases hv : fs c.outdir with
      | none => exact absurd hv hd
      | some _ => rw [hv] at h; cases h; exact ⟨trivial, rfl⟩
    | looking =>
      simp only [Running.act, ho] at h
      cases hv : fs c.root with
      | none => exact absurd hv ht
      | some v => rw [hv] at h; cases v <;> cases h <;> exact ⟨hf, rfl⟩
    | making =>
      simp only [Running.act, mkdir] at h
      cases hv : fs c.root with
      | none => exact absurd hv ht
      | some v => rw [hv] at h; cases h; exact ⟨hf, rfl⟩
    | ended _ => cases h
    | _ => exact hr.elim

/-- A call that has not made the folder, while there is nothing at its place. -/
theorem outside_act_free {c : Call} {r r' : Running} {fs fs' : FS Data}
    (hx : fs c.xlsx ≠ none) (hd : fs c.outdir ≠ none) (hu : fs c.root.dropLast = some .dir) (ht : fs c.root = none)
    {refused : Prop} (hr : r.Outside refused) {x : Act} (h : r.act c fs x = some (r', fs')) :
    (r'.Outside refused ∧ fs' = fs) ∨ (r'.Past ∧ r'.Fits c ∧ fs' = (fun q => if q = c.root then some .dir else fs q)) := by
  cases x with
  | move m =>
    cases r with
    | two o proc job parent => exact hr.elim
    | _ => simp [Running.act] at h
  | go =>
    cases r with
    | started =>
      simp only [Running.act, validPath] at h
      cases hv : fs c.xlsx with
      | none => exact absurd hv hx
      | some _ => rw [hv] at h; cases h; exact .inl ⟨trivial, rfl⟩
    | checking =>
      simp only [Running.act, validPath] at h
      cases hv : fs c.outdir with
      | none => exact absurd hv hd
      | some _ => rw [hv] at h; cases h; exact .inl ⟨trivial, rfl⟩
    | looking =>
      simp only [Running.act, ht] at h
      cases h
      exact .inl ⟨trivial, rfl⟩
    | making =>
      simp only [Running.act, mkdir, ht, hu] at h
      cases h
      exact .inr ⟨trivial, ⟨prepare_within _, prepare_returns _ _ _⟩, rfl⟩
    | ended _ => cases h
    | _ => exact hr.elim

variable {ι : Type} [DecidableEq ι] {calls : ι → Call}

theorem own_snoc_self (i : ι) (x : Act) (ss : List (ι × Act)) : own i (ss ++ [(i, x)]) = own i ss ++ [x] := by
  unfold own
  rw [List.filter_append, List.map_append]
  simp

theorem own_snoc_other {i j : ι} (h : j ≠ i) (x : Act) (ss : List (ι × Act)) : own i (ss ++ [(j, x)]) = own i ss := by
  unfold own
  rw [List.filter_append, List.map_append]
  simp [h]

/-- Nobody has made the folder, or one has, and the disk is as that one leaves it. -/
def Pool.OneMaker (calls : ι → Call) (root : FPath) (fs : FS Data) (ss : List (ι × Act)) (P : Pool ι) : Prop :=
  (P.disk = fs ∧ ∀ i, (P.runs i).Outside (fs root ≠ none) ∧
    Running.started.acts (calls i) fs (own i ss) = some (P.runs i, fs)) ∨
  (fs root = none ∧ P.disk root ≠ none ∧ ∃ w, Running.started.acts (calls w) fs (own w ss) = some (P.runs w, P.disk) ∧
    (P.runs w).Past ∧ (P.runs w).Fits (calls w) ∧ (∀ q, ¬ root <+: q → P.disk q = fs q) ∧
    ∀ j, j ≠ w → (P.runs j).Outside True)

theorem outside_true {p : Prop} {r : Running} (h : r.Outside p) : r.Outside True := by
  cases r with
  | ended a =>
    cases a with
    | ok => exact h
    | error e => cases e <;> trivial
  | _ => exact h

theorem one_maker {root : FPath} (hroot : ∀ i, (calls i).root = root) (ho : ∀ i, (calls i).overwrite = false)
    {fs : FS Data} (hx : ∀ i, fs (calls i).xlsx ≠ none) (hout : ∀ i, ¬ root <+: (calls i).xlsx)
    (hd : ∀ i, fs (calls i).outdir ≠ none) (hdo : ∀ i, ¬ root <+: (calls i).outdir)
    (hu : fs root.dropLast = some .dir) {ss : List (ι × Act)} {P : Pool ι}
    (h : (Pool.start fs).acts calls ss = some P) : P.OneMaker calls root fs ss := by
  induction ss using List.reverseRecOn generalizing P with
  | nil =>
    cases h
    exact .inl ⟨rfl, fun i => ⟨trivial, rfl⟩⟩
  | append_singleton ss jx ih =>
    obtain ⟨j, x⟩ := jx
    rw [acts_append] at h
    cases hP : (Pool.start fs).acts calls ss with
    | none => rw [hP] at h; cases h
    | some P0 =>
    rw [hP] at h
    have h' : P0.act calls (j, x) = some P := by
      rw [Option.bind_some, Pool.acts] at h
      cases hq : P0.act calls (j, x) with
      | none => rw [hq] at h; cases h
      | some _ => rw [hq] at h; exact h
    obtain ⟨⟨r', d'⟩, hact, rfl⟩ := Option.map_eq_some_iff.mp h'
    dsimp only at hact
    have alone : ∀ {s : FS Data}, Running.started.acts (calls j) fs (own j ss) = some (P0.runs j, s) → s = P0.disk →
        Running.started.acts (calls j) fs (own j (ss ++ [(j, x)])) = some (r', d') := by
      intro s h1 h2
      rw [own_snoc_self, run_append, h1, Option.bind_some, Running.acts, h2, hact]
      rfl
    have upS : Function.update P0.runs j r' j = r' := Function.update_self ..
    have upO : ∀ i, i ≠ j → Function.update P0.runs j r' i = P0.runs i := fun i hi => Function.update_of_ne hi ..
    clear h h'
    unfold Pool.OneMaker
    dsimp only
    generalize Function.update P0.runs j r' = R at upS upO ⊢
    rcases ih hP with ⟨h1, h2⟩ | ⟨h0, hne, w, h1, h2, h3, h4, h5⟩
    · -- nobody yet
      rw [h1] at hact
      rcases (em (fs root = none)) with ht | ht
      · rcases outside_act_free (hx j) (hd j) (by rw [hroot]; exact hu) (by rw [hroot]; exact ht) (h2 j).1 hact with
          ⟨e1, e2⟩ | ⟨e1, e2, e3⟩
        · refine .inl ⟨e2, fun i => ?_⟩
          by_cases hij : i = j
          · subst hij
            rw [upS]
            exact ⟨e1, by rw [alone (h2 i).2 h1.symm, e2]⟩
          · rw [upO i hij,
              own_snoc_other (Ne.symm hij)]
            exact h2 i
        · refine .inr ⟨ht, ?_, j, ?_, ?_, ?_, ?_, ?_⟩
          · show d' root ≠ none
            rw [e3, hroot j]
            simp
          · rw [upS]
            exact alone (h2 j).2 h1.symm
          · rw [upS]
            exact e1
          · rw [upS]
            exact e2
          · intro q hq
            show d' q = fs q
            rw [e3, hroot j]
            exact if_neg fun e : q = root => hq (e ▸ List.prefix_rfl)
          · intro i hij
            rw [upO i hij]
            exact outside_true (h2 i).1
      · obtain ⟨e1, e2⟩ := outside_act_there (ho j) (hx j) (hd j) (by rw [hroot]; exact ht) ht (h2 j).1 hact
        refine .inl ⟨e2, fun i => ?_⟩
        by_cases hij : i = j
        · subst hij
          rw [upS]
          exact ⟨e1, by rw [alone (h2 i).2 h1.symm, e2]⟩
        · rw [upO i hij,
            own_snoc_other (Ne.symm hij)]
          exact h2 i
    · by_cases hjw : j = w
      · subst hjw
        obtain ⟨e1, e2⟩ := past_act h3 h2 hact
        obtain ⟨-, -, -, e3, e4⟩ := act_local h3 (fun _ _ => rfl : On _ P0.disk P0.disk) hact
        refine .inr ⟨h0, ?_, j, ?_, ?_, ?_, ?_, ?_⟩
        · show d' root ≠ none
          rw [hroot j] at e2
          rw [e2]
          exact hne
        · rw [upS]
          exact alone h1 rfl
        · rw [upS]
          exact e1
        · rw [upS]
          exact e3
        · intro q hq
          rw [← h4 q hq]
          exact e4 q (by unfold Call.Writes; rw [hroot]; exact hq)
        · intro i hij
          rw [upO i hij]
          exact h5 i hij
      · obtain ⟨e1, e2⟩ := outside_act_there (ho j) (by rw [h4 _ (hout j)]; exact hx j)
          (by rw [h4 _ (hdo j)]; exact hd j) (by rw [hroot]; exact hne) trivial (h5 j hjw) hact
        subst e2
        refine .inr ⟨h0, hne, w, ?_, ?_, ?_, h4, ?_⟩
        · rw [upO w (Ne.symm hjw),
            own_snoc_other hjw]
          exact h1
        · rw [upO w (Ne.symm hjw)]
          exact h2
        · rw [upO w (Ne.symm hjw)]
          exact h3
        · intro i hi
          by_cases hij : i = j
          · subst hij
            rw [upS]
            exact e1
          · rw [upO i hij]
            exact h5 i hi

end Disk
end Verif
