import Verif.Lemmas.TogetherAlone

/-!
# Lemmas for `Verif.Props.Together`: several calls that keep apart
-/

set_option autoImplicit false

namespace Verif
namespace Disk
open Files

variable {ι : Type} [DecidableEq ι] {calls : ι → Call}

theorem own_self (i : ι) (x : Act) (ss : List (ι × Act)) : own i ((i, x) :: ss) = x :: own i ss := by
  unfold own
  rw [List.filter_cons_of_pos (by simp), List.map_cons]

theorem own_other {i j : ι} (h : j ≠ i) (x : Act) (ss : List (ι × Act)) : own i ((j, x) :: ss) = own i ss := by
  unfold own
  rw [List.filter_cons_of_neg (by simpa using h)]

/-- Each call is where it would be alone, and sees what it would see alone. -/
theorem pool_alone (hA : ∀ i j, i ≠ j → ∀ q, (calls i).Writes q → ¬ (calls j).Looks q) {ss : List (ι × Act)} {P P' : Pool ι}
    {s : ι → FS Data} (hf : ∀ i, (P.runs i).Fits (calls i)) (hs : ∀ i, On (calls i).Looks P.disk (s i))
    (h : P.acts calls ss = some P') (i : ι) :
    ∃ s', (P.runs i).acts (calls i) (s i) (own i ss) = some (P'.runs i, s') ∧ On (calls i).Looks P'.disk s' ∧
      (P'.runs i).Fits (calls i) := by
  induction ss generalizing P s with
  | nil => cases h; exact ⟨s i, rfl, hs i, hf i⟩
  | cons jx ss ih =>
    obtain ⟨j, x⟩ := jx
    unfold Pool.acts Pool.act at h
    cases hr : (P.runs j).act (calls j) P.disk x with
    | none => rw [hr] at h; cases h
    | some p =>
      obtain ⟨r', a'⟩ := p
      rw [hr] at h
      obtain ⟨b', h1, h2, h3, h4⟩ := act_local (hf j) (hs j) hr
      have := ih (P := ⟨a', Function.update P.runs j r'⟩) (s := Function.update s j b')
        (fun k => by
          by_cases hk : k = j
          · subst hk; simpa using h3
          · simpa [Function.update_of_ne hk] using hf k)
        (fun k => by
          by_cases hk : k = j
          · subst hk; simpa using h2
          · rw [Function.update_of_ne hk]
            exact fun q hq => (h4 q fun hw => hA j k (Ne.symm hk) q hw hq).trans (hs k q hq))
        h
      obtain ⟨s', e1, e2, e3⟩ := this
      refine ⟨s', ?_, e2, e3⟩
      by_cases hi : i = j
      · subst hi
        rw [own_self]
        unfold Running.acts
        rw [h1]
        simpa using e1
      · rw [own_other (Ne.symm hi)]
        simpa [Function.update_of_ne hi] using e1

/-- Outside the folders of the studies nothing changes. -/
theorem pool_elsewhere {ss : List (ι × Act)} {P P' : Pool ι} (hf : ∀ i, (P.runs i).Fits (calls i))
    (h : P.acts calls ss = some P') {q : FPath} (hq : ∀ i, ¬ (calls i).Writes q) : P'.disk q = P.disk q := by
  induction ss generalizing P with
  | nil => cases h; rfl
  | cons jx ss ih =>
    obtain ⟨j, x⟩ := jx
    unfold Pool.acts Pool.act at h
    cases hr : (P.runs j).act (calls j) P.disk x with
    | none => rw [hr] at h; cases h
    | some p =>
      obtain ⟨r', a'⟩ := p
      rw [hr] at h
      obtain ⟨-, -, -, h3, h4⟩ := act_local (hf j) (fun _ _ => rfl : On _ P.disk P.disk) hr
      refine (ih (P := ⟨a', Function.update P.runs j r'⟩) (fun k => ?_) h).trans (h4 q (hq j))
      by_cases hk : k = j
      · subst hk; simpa using h3
      · simpa [Function.update_of_ne hk] using hf k

omit [DecidableEq ι] in
theorem start_fits (i : ι) (fs : FS Data) : ((Pool.start fs : Pool ι).runs i).Fits (calls i) := trivial

theorem acts_append {ss ss' : List (ι × Act)} {P : Pool ι} :
    P.acts calls (ss ++ ss') = (P.acts calls ss).bind fun P' => P'.acts calls ss' := by
  induction ss generalizing P with
  | nil => rfl
  | cons x ss ih =>
    rw [List.cons_append, Pool.acts, Pool.acts]
    cases P.act calls x with
    | none => rfl
    | some P' => exact ih

theorem run_append {c : Call} {xs ys : List Act} {r : Running} {fs : FS Data} :
    r.acts c fs (xs ++ ys) = (r.acts c fs xs).bind fun p => p.1.acts c p.2 ys := by
  induction xs generalizing r fs with
  | nil => rfl
  | cons x xs ih =>
    rw [List.cons_append, Running.acts, Running.acts]
    cases r.act c fs x with
    | none => rfl
    | some p => exact ih

/-- What a call can do alone from where it is, it can do among the others. -/
theorem pool_follow {P : Pool ι} {i : ι} {s : FS Data} (hf : (P.runs i).Fits (calls i))
    (hs : On (calls i).Looks P.disk s) {xs : List Act} {r' : Running} {s' : FS Data}
    (h : (P.runs i).acts (calls i) s xs = some (r', s')) :
    ∃ P', P.acts calls (xs.map fun x => (i, x)) = some P' ∧ P'.runs i = r' ∧ (∀ j, j ≠ i → P'.runs j = P.runs j) ∧
      On (calls i).Looks P'.disk s' := by
  induction xs generalizing P s with
  | nil => cases h; exact ⟨P, rfl, rfl, fun _ _ => rfl, hs⟩
  | cons x xs ih =>
    unfold Running.acts at h
    cases hx : (P.runs i).act (calls i) s x with
    | none => rw [hx] at h; cases h
    | some p =>
      rw [hx] at h
      obtain ⟨r1, s1⟩ := p
      obtain ⟨b', h1, h2, h3, -⟩ := act_local hf hs.symm hx
      obtain ⟨P', e1, e2, e3, e4⟩ := ih (P := ⟨b', Function.update P.runs i r1⟩) (s := s1) (by simpa using h3) h2.symm
        (by simpa using h)
      refine ⟨P', ?_, e2, fun j hj => by rw [e3 j hj]; exact Function.update_of_ne hj .., e4⟩
      show Pool.acts calls P ((i, x) :: _) = _
      unfold Pool.acts Pool.act
      dsimp only
      rw [h1]
      exact e1

end Disk
end Verif
