import Verif.Lemmas.TogetherPool
import Verif.Lemmas.DiskEnds
import Mathlib.Data.Fintype.Pigeonhole

/-!
# Lemmas for `Verif.Props.Together`: calls come to an end
-/

set_option autoImplicit false

namespace Verif
namespace Disk
open Files OutputProcess

/-- Where a call can be one step later, whatever the disk. -/
def After (c : Call) (r' r : Running) : Prop := ∃ s s' x, r.act c s x = some (r', s')

variable {c : Call}

theorem after_ended (a : Except PyErr Unit) : Acc (After c) (.ended a) :=
  ⟨_, fun _ ⟨_, _, x, h⟩ => by cases x <;> simp [Running.act] at h⟩

theorem after_late (p : Prog Unit) : Acc (After c) (.late p) := by
  induction p using child_wf.induction with
  | _ p ih =>
    refine ⟨_, fun r' ⟨s, s', x, h⟩ => ?_⟩
    cases x with
    | move m => simp [Running.act] at h
    | go =>
      cases p with
      | ret u => cases h; exact after_ended _
      | raise e => cases h; exact after_ended _
      | look k => cases h; exact ih _ ⟨s, s, rfl⟩
      | change g k => cases h; exact ih _ ⟨s, g s, rfl⟩

theorem after_two (o : Opened) (proc : State Name) (job : Prog Unit) (parent : Parent) :
    Acc (After c) (.two o proc job parent) := by
  obtain ⟨K, hK⟩ : ∃ K, K = Machine.key ⟨fun _ => none, proc, job, parent⟩ := ⟨_, rfl⟩
  induction K using nearer_wf.induction generalizing proc job parent with
  | _ K ih =>
    refine ⟨_, fun r' ⟨s, s', x, h⟩ => ?_⟩
    cases x with
    | go =>
      cases parent with
      | ended e => cases e with
        | none => cases h; exact after_late _
        | some _ => cases h
      | _ => cases h
    | move m =>
      obtain ⟨k, hk, e⟩ := Option.map_eq_some_iff.mp h
      cases e
      refine ih _ ?_ _ _ _ rfl
      rw [hK]
      have hn := move_nearer hk
      exact hn

theorem after_divide (o : Opened) : Acc (After c) (c.divide o) := by
  unfold Call.divide
  split
  · exact after_late _
  · exact after_two _ _ _ _

theorem after_early (p : Prog Opened) : Acc (After c) (.early p) := by
  induction p using child_wf.induction with
  | _ p ih =>
    refine ⟨_, fun r' ⟨s, s', x, h⟩ => ?_⟩
    cases x with
    | move m => simp [Running.act] at h
    | go =>
      cases p with
      | ret o => cases h; exact after_divide o
      | raise e => cases h; exact after_ended _
      | look k => cases h; exact ih _ ⟨s, s, rfl⟩
      | change g k => cases h; exact ih _ ⟨s, g s, rfl⟩

theorem after_making : Acc (After c) .making := by
  refine ⟨_, fun r' ⟨s, s', x, h⟩ => ?_⟩
  cases x with
  | move m => simp [Running.act] at h
  | go =>
    simp only [Running.act] at h
    split at h <;> cases h
    · exact after_ended _
    · exact after_early _

theorem after_removing (p : Prog Unit) : Acc (After c) (.removing p) := by
  induction p using child_wf.induction with
  | _ p ih =>
    refine ⟨_, fun r' ⟨s, s', x, h⟩ => ?_⟩
    cases x with
    | move m => simp [Running.act] at h
    | go =>
      cases p with
      | ret o => cases h; exact after_making
      | raise e => cases h; exact after_ended _
      | look k => cases h; exact ih _ ⟨s, s, rfl⟩
      | change g k => cases h; exact ih _ ⟨s, g s, rfl⟩

theorem after_looking : Acc (After c) .looking := by
  refine ⟨_, fun r' ⟨s, s', x, h⟩ => ?_⟩
  cases x with
  | move m => simp [Running.act] at h
  | go =>
    simp only [Running.act] at h
    split at h
    · cases h; exact after_making
    · split_ifs at h <;> cases h
      · exact after_removing _
      · exact after_ended _
    · split_ifs at h <;> cases h <;> exact after_ended _

theorem after_checking : Acc (After c) .checking := by
  refine ⟨_, fun r' ⟨s, s', x, h⟩ => ?_⟩
  cases x with
  | move m => simp [Running.act] at h
  | go =>
    simp only [Running.act] at h
    split at h <;> cases h
    · exact after_ended _
    · exact after_looking

theorem after_wf (c : Call) : WellFounded (After c) := by
  refine ⟨fun r => ?_⟩
  cases r with
  | started =>
    refine ⟨_, fun r' ⟨s, s', x, h⟩ => ?_⟩
    cases x with
    | move m => simp [Running.act] at h
    | go =>
      simp only [Running.act] at h
      split at h <;> cases h
      · exact after_ended _
      · exact after_checking
  | checking => exact after_checking
  | looking => exact after_looking
  | removing p => exact after_removing p
  | making => exact after_making
  | early p => exact after_early p
  | two o proc job parent => exact after_two o proc job parent
  | late p => exact after_late p
  | ended a => exact after_ended a

/-! ## Several calls -/

/-- There is no schedule of finitely many calls without an end. -/
theorem pool_ends {ι : Type} [DecidableEq ι] [Finite ι] {calls : ι → Call} (P : Pool ι) (f : ℕ → ι × Act) :
    ∃ k, P.acts calls ((List.range k).map f) = none := by
  by_contra hno
  push Not at hno
  have hsome : ∀ k, ∃ P', P.acts calls ((List.range k).map f) = some P' := fun k =>
    Option.ne_none_iff_exists'.mp (hno k)
  choose g hg using hsome
  have hstep : ∀ k, (g k).act calls (f k) = some (g (k + 1)) := fun k => by
    have h := hg (k + 1)
    rw [List.range_succ, List.map_append, acts_append, hg k] at h
    simp only [Option.bind_some, List.map_cons, List.map_nil, Pool.acts] at h
    split at h
    · cases h
    · rename_i P1 h1
      cases h
      exact h1
  obtain ⟨i, hi⟩ := Finite.exists_infinite_fiber fun k => (f k).1
  have stepAt : ∀ k, (f k).1 = i → After (calls i) ((g (k + 1)).runs i) ((g k).runs i) := fun k hk => by
    subst hk
    obtain ⟨⟨r', s'⟩, h1, h2⟩ := Option.map_eq_some_iff.mp (hstep k)
    rw [← h2]
    exact ⟨_, s', _, by simpa using h1⟩
  have stepOff : ∀ k, (f k).1 ≠ i → (g (k + 1)).runs i = (g k).runs i := fun k hk => by
    obtain ⟨r', -, h2⟩ := Option.map_eq_some_iff.mp (hstep k)
    rw [← h2]
    exact Function.update_of_ne (Ne.symm hk) ..
  have down : ∀ k n, (g (k + n)).runs i = (g k).runs i ∨
      Relation.TransGen (After (calls i)) ((g (k + n)).runs i) ((g k).runs i) := fun k n => by
    induction n with
    | zero => exact .inl rfl
    | succ n ih =>
      by_cases hk : (f (k + n)).1 = i
      · have h1 := stepAt _ hk
        rcases ih with ih | ih
        · exact .inr (.single (ih ▸ h1))
        · exact .inr (.head h1 ih)
      · have e : (g (k + (n + 1))).runs i = (g (k + n)).runs i := stepOff _ hk
        rw [e]
        exact ih
  obtain ⟨x, ⟨k, rfl⟩, hmin⟩ := (after_wf (calls i)).transGen.has_min (Set.range fun k => (g k).runs i) ⟨_, 0, rfl⟩
  obtain ⟨k', hk', hle⟩ : ∃ k', (f k').1 = i ∧ k ≤ k' := by
    by_contra hno'
    push Not at hno'
    refine (Set.infinite_coe_iff.mp hi) (Set.Finite.subset (Set.finite_lt_nat k) fun m hm => ?_)
    exact hno' m hm
  obtain ⟨n, rfl⟩ := Nat.exists_eq_add_of_le hle
  have h1 := stepAt _ hk'
  refine hmin _ ⟨k + n + 1, rfl⟩ ?_
  rcases down k n with h | h
  · rw [h] at h1
    exact .single h1
  · exact .head h1 h

/-! ## One call can come to its end -/

/-- The call has left the checks and the two processes behind, or has not reached the two processes. -/
def Running.straight : Running → Bool
  | .two .. => false
  | _ => true

/-- A call that is not in the hands of the two processes goes on until it has ended, or reaches them. -/
theorem goes_straight (r : Running) (s : FS Data) : ∃ n r' s', r.acts c s (List.replicate n .go) = some (r', s') ∧
    (r'.straight = false ∨ ∃ a, r' = .ended a) := by
  induction r using (after_wf c).induction generalizing s with
  | _ r ih =>
    by_cases hr : r.straight = false ∨ ∃ a, r = .ended a
    · exact ⟨0, r, s, rfl, hr⟩
    · have : ∃ r' s', r.act c s .go = some (r', s') := by
        cases r with
        | started => simp only [Running.act]; split <;> exact ⟨_, _, rfl⟩
        | checking => simp only [Running.act]; split <;> exact ⟨_, _, rfl⟩
        | looking => simp only [Running.act]; split <;> (try split_ifs) <;> exact ⟨_, _, rfl⟩
        | removing p => cases p <;> exact ⟨_, _, rfl⟩
        | making => simp only [Running.act]; split <;> exact ⟨_, _, rfl⟩
        | early p => cases p <;> exact ⟨_, _, rfl⟩
        | two => exact absurd (.inl rfl) hr
        | late p => cases p <;> exact ⟨_, _, rfl⟩
        | ended a => exact absurd (.inr ⟨a, rfl⟩) hr
      obtain ⟨r1, s1, h1⟩ := this
      obtain ⟨n, r', s', h2, h3⟩ := ih r1 ⟨s, s1, _, h1⟩ s1
      refine ⟨n + 1, r', s', ?_, h3⟩
      rw [List.replicate_succ, Running.acts, h1]
      exact h2

/-- After the two processes, or on one core, a call goes on until it has ended. -/
theorem late_ends (p : Prog Unit) (s : FS Data) :
    ∃ n a s', (Running.late p).acts c s (List.replicate n .go) = some (.ended a, s') := by
  induction p generalizing s with
  | ret u => exact ⟨1, _, s, rfl⟩
  | raise e => exact ⟨1, _, s, rfl⟩
  | look k ih =>
    obtain ⟨n, a, s', h⟩ := ih s s
    exact ⟨n + 1, a, s', h⟩
  | change g k ih =>
    obtain ⟨n, a, s', h⟩ := ih (g s)
    exact ⟨n + 1, a, s', h⟩

theorem moves_acts {o : Opened} {ms : List Move} {s : FS Data} {proc : State Name} {job : Prog Unit} {parent : Parent}
    {m : Machine} (h : o.moves c.libs c.gekko c.removal ⟨s, proc, job, parent⟩ ms = some m) :
    (Running.two o proc job parent).acts c s (ms.map .move) = some (.two o m.proc m.job m.parent, m.disk) := by
  unfold Opened.moves at h
  induction ms generalizing s proc job parent with
  | nil => cases h; rfl
  | cons a ms ih =>
    rw [Machine.moves] at h
    rw [List.map_cons, Running.acts]
    split at h
    · cases h
    · rename_i m1 h1
      have : (Running.two o proc job parent).act c s (.move a) = some (.two o m1.proc m1.job m1.parent, m1.disk) := by
        show Option.map _ _ = _
        rw [h1]
        rfl
      rw [this]
      exact ih h

end Disk
end Verif
