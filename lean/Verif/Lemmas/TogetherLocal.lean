import Verif.Lemmas.Together

/-!
# Lemmas for `Verif.Props.Together`: every step of a call keeps to its folder
-/

set_option autoImplicit false

namespace Verif
namespace Disk
open Files Para Pandas Programme Report InputReader Simulation Workbook OutputProcess

/-- What a call looks at. -/
def Call.Looks (c : Call) (q : FPath) : Prop :=
  q = c.xlsx ∨ q = c.outdir ∨ q = c.root.dropLast ∨ c.root <+: q

/-- What a call changes. -/
def Call.Writes (c : Call) (q : FPath) : Prop := c.root <+: q

variable {c : Call} {a a' b : FS Data}

theorem eyes_looks {q : FPath} (h : Eyes c.xlsx c.root q) : c.Looks q := by
  rcases h with h | h
  · exact .inl h
  · exact .inr (.inr (.inr h))

/-- The call keeps to its files from here on. -/
def Running.Fits (c : Call) : Running → Prop
  | .removing p => p.Within c.Looks c.Writes
  | .early p => p.Within (Eyes c.xlsx c.root) (Inside c.root) ∧ p.Returns fun o => o.root = c.root
  | .two o _ job parent => o.root = c.root ∧ job.Within (Eyes c.xlsx c.root) (Inside c.root) ∧
    ∀ n p todo, parent = .solving n p todo → p.Within (Eyes c.xlsx c.root) (Inside c.root)
  | .late p => p.Within (Eyes c.xlsx c.root) (Inside c.root)
  | _ => True

theorem next_local {α : Type} {p p' : Prog α} (h : p.Within (Eyes c.xlsx c.root) (Inside c.root))
    (hab : On c.Looks a b) (hn : p.next a = some (p', a')) :
    ∃ b', p.next b = some (p', b') ∧ On c.Looks a' b' ∧ p'.Within (Eyes c.xlsx c.root) (Inside c.root) ∧
      Except' (Inside c.root) a a' := by
  have hm : p.Within c.Looks c.Writes := h.mono (fun _ h => .of_inside h) (fun _ => eyes_looks) fun _ => Inside.below
  obtain ⟨b', h1, h2, -, -⟩ := hm.next hab hn
  obtain ⟨-, -, -, h3, h4⟩ := h.next (fun _ _ => rfl : On _ a a) hn
  exact ⟨b', h1, h2, h3, h4⟩

theorem move_local {solve plot : Name → Prog Unit} (hs : ∀ n, (solve n).Within (Eyes c.xlsx c.root) (Inside c.root))
    (hp : ∀ n, (plot n).Within (Eyes c.xlsx c.root) (Inside c.root)) {proc : State Name} {job : Prog Unit} {parent : Parent}
    (hj : job.Within (Eyes c.xlsx c.root) (Inside c.root))
    (hw : ∀ n p todo, parent = .solving n p todo → p.Within (Eyes c.xlsx c.root) (Inside c.root))
    (hab : On c.Looks a b) {m : Move} {k : Machine}
    (h : Machine.move solve plot ⟨a, proc, job, parent⟩ m = some k) :
    ∃ b', Machine.move solve plot ⟨b, proc, job, parent⟩ m = some ⟨b', k.proc, k.job, k.parent⟩ ∧
      On c.Looks k.disk b' ∧ k.job.Within (Eyes c.xlsx c.root) (Inside c.root) ∧
      (∀ n p todo, k.parent = .solving n p todo → p.Within (Eyes c.xlsx c.root) (Inside c.root)) ∧
      Except' (Inside c.root) a k.disk := by
  have easy : ∀ (j : Prog Unit) (p : Parent) (f : FS Data → Option Machine) (o : Option (State Name)),
      (∀ fs, f fs = o.map fun s => ⟨fs, s, j, p⟩) → j.Within (Eyes c.xlsx c.root) (Inside c.root) →
      (∀ n q todo, p = .solving n q todo → q.Within (Eyes c.xlsx c.root) (Inside c.root)) → f a = some k →
      ∃ b', f b = some ⟨b', k.proc, k.job, k.parent⟩ ∧
        On c.Looks k.disk b' ∧ k.job.Within (Eyes c.xlsx c.root) (Inside c.root) ∧
        (∀ n p todo, k.parent = .solving n p todo → p.Within (Eyes c.xlsx c.root) (Inside c.root)) ∧
        Except' (Inside c.root) a k.disk := by
    intro j p f o e1 e2 e3 e4
    rw [e1] at e4
    obtain ⟨s, hs, rfl⟩ := Option.map_eq_some_iff.mp e4
    refine ⟨b, ?_, hab, e2, e3, fun _ _ => rfl⟩
    rw [e1, hs, Option.map_some]
  cases m with
  | start =>
    cases parent with
    | starting names =>
      exact easy job (.loop names) (fun fs => Machine.move solve plot ⟨fs, proc, job, .starting names⟩ .start)
        (step (fun _ => .returns) proc .start) (fun _ => rfl) hj (fun _ _ _ e => by cases e) h
    | _ => cases h
  | begin =>
    cases parent with
    | loop todo =>
      cases todo with
      | nil => cases h
      | cons n todo =>
        cases h
        exact ⟨b, rfl, hab, hj, fun n' p' todo' e => by cases e; exact hs n, fun _ _ => rfl⟩
    | _ => cases h
  | work =>
    cases parent with
    | solving n p todo =>
      obtain ⟨⟨p', a'⟩, hn, rfl⟩ := Option.map_eq_some_iff.mp h
      obtain ⟨b', h1, h2, h3, h4⟩ := next_local (hw n p todo rfl) hab hn
      refine ⟨b', ?_, h2, hj, fun n' p'' todo' e => by cases e; exact h3, h4⟩
      show (p.next b).map _ = _
      rw [h1]
      rfl
    | _ => cases h
  | submit =>
    cases parent with
    | solving n p todo =>
      cases p with
      | ret u =>
        exact easy job (.loop todo)
          (fun fs => Machine.move solve plot ⟨fs, proc, job, .solving n (.ret u) todo⟩ .submit)
          (step (fun _ => .returns) proc (.submit n)) (fun _ => rfl) hj (fun _ _ _ e => by cases e) h
      | _ => cases h
    | _ => cases h
  | call =>
    cases parent with
    | loop todo =>
      cases todo with
      | nil =>
        exact easy job (.stopping none) (fun fs => Machine.move solve plot ⟨fs, proc, job, .loop []⟩ .call)
          (step (fun _ => .returns) proc (.stop true)) (fun _ => rfl) hj (fun _ _ _ e => by cases e) h
      | cons n todo => cases h
    | solving n p todo =>
      cases p with
      | raise e =>
        exact easy job (.cancelling e)
          (fun fs => Machine.move solve plot ⟨fs, proc, job, .solving n (.raise e) todo⟩ .call)
          (step (fun _ => .returns) proc (.cancel true)) (fun _ => rfl) hj (fun _ _ _ e => by cases e) h
      | _ => cases h
    | leaving e =>
      exact easy job (.stopping (some e)) (fun fs => Machine.move solve plot ⟨fs, proc, job, .leaving e⟩ .call)
        (step (fun _ => .returns) proc (.stop true)) (fun _ => rfl) hj (fun _ _ _ e => by cases e) h
    | _ => cases h
  | reply r =>
    cases parent with
    | cancelling e =>
      exact easy job (.leaving ((Main.replyErr r).getD e))
        (fun fs => Machine.move solve plot ⟨fs, proc, job, .cancelling e⟩ (.reply r))
        (step (fun _ => .returns) proc (.reply r)) (fun _ => rfl) hj (fun _ _ _ e => by cases e) h
    | stopping e =>
      exact easy job (.ended ((Main.replyErr r).or e))
        (fun fs => Machine.move solve plot ⟨fs, proc, job, .stopping e⟩ (.reply r))
        (step (fun _ => .returns) proc (.reply r)) (fun _ => rfl) hj (fun _ _ _ e => by cases e) h
    | _ => cases h
  | timeout =>
    exact easy job parent (fun fs => Machine.move solve plot ⟨fs, proc, job, parent⟩ .timeout)
      (step (fun _ => .returns) proc .timeout) (fun _ => rfl) hj hw h
  | quit =>
    exact easy job parent (fun fs => Machine.move solve plot ⟨fs, proc, job, parent⟩ .quit)
      (step (fun _ => .returns) proc (.quit 0)) (fun _ => rfl) hj hw h
  | kill code =>
    exact easy job parent (fun fs => Machine.move solve plot ⟨fs, proc, job, parent⟩ (.kill code))
      (step (fun _ => .returns) proc (.kill 0 code)) (fun _ => rfl) hj hw h
  | take =>
    obtain ⟨queue, workers, current, pc⟩ := proc
    cases queue with
    | nil => cases h
    | cons it queue => cases it with
      | sentinel => cases h
      | job n =>
        exact easy (plot n) parent
          (fun fs => Machine.move solve plot ⟨fs, ⟨.job n :: queue, workers, current, pc⟩, job, parent⟩ .take)
          (step (fun _ => .returns) ⟨.job n :: queue, workers, current, pc⟩ (.take 0 n)) (fun _ => rfl) (hp n) hw h
  | draw =>
    obtain ⟨queue, workers, current, pc⟩ := proc
    match workers, h with
    | [.running n], h =>
      obtain ⟨⟨p', a'⟩, hn, rfl⟩ := Option.map_eq_some_iff.mp h
      obtain ⟨b', h1, h2, h3, h4⟩ := next_local hj hab hn
      refine ⟨b', ?_, h2, h3, hw, h4⟩
      show (job.next b).map _ = _
      rw [h1]
      rfl
    | [], h => cases h
    | [.waiting], h => cases h
    | [.exited _], h => cases h
    | _ :: _ :: _, h => simp [Machine.move] at h
  | finish =>
    obtain ⟨queue, workers, current, pc⟩ := proc
    match workers, job, hj, h with
    | [.running n], .ret u, hj, h =>
      exact easy (.ret u) parent
        (fun fs => Machine.move solve plot ⟨fs, ⟨queue, [.running n], current, pc⟩, .ret u, parent⟩ .finish)
        (step (fun _ => .returns) ⟨queue, [.running n], current, pc⟩ (.finish 0 n)) (fun _ => rfl) hj hw h
    | [.running _], .raise _, _, h => cases h
    | [.running _], .look _, _, h => cases h
    | [.running _], .change _ _, _, h => cases h
    | [], _, _, h => cases h
    | [.waiting], _, _, h => cases h
    | [.exited _], _, _, h => cases h
    | _ :: _ :: _, _, _, h => simp [Machine.move] at h
  | fail =>
    obtain ⟨queue, workers, current, pc⟩ := proc
    match workers, job, hj, h with
    | [.running n], .raise e, hj, h =>
      exact easy (.raise e) parent
        (fun fs => Machine.move solve plot ⟨fs, ⟨queue, [.running n], current, pc⟩, .raise e, parent⟩ .fail)
        (step (fun _ => .raises) ⟨queue, [.running n], current, pc⟩ (.fail 0 n)) (fun _ => rfl) hj hw h
    | [.running _], .ret _, _, h => cases h
    | [.running _], .look _, _, h => cases h
    | [.running _], .change _ _, _, h => cases h
    | [], _, _, h => cases h
    | [.waiting], _, _, h => cases h
    | [.exited _], _, _, h => cases h
    | _ :: _ :: _, _, _, h => simp [Machine.move] at h

theorem removeTree_fits : (Prog.removeTree c.removal c.root).Within c.Looks c.Writes :=
  .removeTree _ (fun _ h => .inr (.inr (.inr h))) fun _ h => h

theorem divide_fits {o : Opened} (h : o.root = c.root) : (c.divide o).Fits c := by
  unfold Call.divide
  split
  · show (Prog.loop c.libs c.gekko c.removal o >>= fun _ => Prog.kpis c.libs c.removal (lastName o.root) o.root).Within
      (Eyes c.xlsx c.root) (Inside c.root)
    rw [← h]
    exact (loop_within c.libs c.gekko c.removal o).bind fun _ => kpis_within c.libs c.removal _
  · exact ⟨h, trivial, fun _ _ _ e => by cases e⟩

/-- A step of a call: it depends only on what the call looks at, and changes only the folder of the study. -/
theorem act_local {r r' : Running} (hr : r.Fits c) (hab : On c.Looks a b) {x : Act} (h : r.act c a x = some (r', a')) :
    ∃ b', r.act c b x = some (r', b') ∧ On c.Looks a' b' ∧ r'.Fits c ∧ Except' c.Writes a a' := by
  have hx : a c.xlsx = b c.xlsx := hab _ (.inl rfl)
  have hd : a c.outdir = b c.outdir := hab _ (.inr (.inl rfl))
  have hu : a c.root.dropLast = b c.root.dropLast := hab _ (.inr (.inr (.inl rfl)))
  have hroot : a c.root = b c.root := hab _ (.inr (.inr (.inr List.prefix_rfl)))
  have same : ∀ fs : FS Data, Except' c.Writes fs fs := fun _ _ _ => rfl
  have wide : ∀ {fs fs' : FS Data}, Except' (Inside c.root) fs fs' → Except' c.Writes fs fs' :=
    fun h q hq => h q fun hi => hq hi.below
  cases x with
  | go =>
    cases r with
    | started =>
      simp only [Running.act, validPath] at h ⊢
      rw [← hx]
      cases hv : a c.xlsx with
      | none => rw [hv] at h; cases h; exact ⟨b, rfl, hab, trivial, same _⟩
      | some _ => rw [hv] at h; cases h; exact ⟨b, rfl, hab, trivial, same _⟩
    | checking =>
      simp only [Running.act, validPath] at h ⊢
      rw [← hd]
      cases hv : a c.outdir with
      | none => rw [hv] at h; cases h; exact ⟨b, rfl, hab, trivial, same _⟩
      | some _ => rw [hv] at h; cases h; exact ⟨b, rfl, hab, trivial, same _⟩
    | looking =>
      simp only [Running.act] at h ⊢
      rw [← hroot]
      cases hv : a c.root with
      | none => rw [hv] at h; cases h; exact ⟨b, rfl, hab, trivial, same _⟩
      | some v =>
        rw [hv] at h
        cases v with
        | dir =>
          dsimp only at h ⊢
          split_ifs at h ⊢ <;> cases h
          · exact ⟨b, rfl, hab, removeTree_fits, same _⟩
          · exact ⟨b, rfl, hab, trivial, same _⟩
        | file _ =>
          dsimp only at h ⊢
          split_ifs at h ⊢ <;> cases h <;> exact ⟨b, rfl, hab, trivial, same _⟩
    | removing p =>
      have hp : p.Within c.Looks c.Writes := hr
      cases p with
      | ret _ => cases h; exact ⟨b, rfl, hab, trivial, same _⟩
      | raise _ => cases h; exact ⟨b, rfl, hab, trivial, same _⟩
      | look k =>
        cases h
        have hn : (Prog.look k).next a = some (k a, a) := rfl
        obtain ⟨b', h1, h2, h3, h4⟩ := hp.next hab hn
        obtain ⟨hk, rfl⟩ : k b = k a ∧ b = b' := by simpa [Prog.next] using h1
        exact ⟨_, by simp only [Running.act, Prog.next, Option.map_some, hk], h2, h3, h4⟩
      | change g k =>
        cases h
        have hn : (Prog.change g k).next a = some (k, g a) := rfl
        obtain ⟨b', h1, h2, h3, h4⟩ := hp.next hab hn
        cases h1; exact ⟨_, by simp only [Running.act, Prog.next, Option.map_some], h2, h3, h4⟩
    | making =>
      simp only [Running.act, mkdir] at h ⊢
      rw [← hroot, ← hu]
      cases hv : a c.root with
      | some _ => rw [hv] at h; cases h; exact ⟨b, rfl, hab, trivial, same _⟩
      | none =>
        rw [hv] at h
        dsimp only at h ⊢
        cases hw : a c.root.dropLast with
        | none => rw [hw] at h; cases h; exact ⟨b, rfl, hab, trivial, same _⟩
        | some v =>
          rw [hw] at h
          cases v with
          | file _ => cases h; exact ⟨b, rfl, hab, trivial, same _⟩
          | dir =>
            cases h
            refine ⟨_, rfl, fun q hq => ?_, ⟨prepare_within _, prepare_returns _ _ _⟩, fun q hq => ?_⟩
            · dsimp only
              split_ifs
              · rfl
              · exact hab q hq
            · exact if_neg fun e : q = c.root => hq (e ▸ List.prefix_rfl)
    | early p =>
      obtain ⟨hp, ho⟩ := hr
      cases p with
      | ret o => cases h; exact ⟨b, rfl, hab, divide_fits ho, same _⟩
      | raise _ => cases h; exact ⟨b, rfl, hab, trivial, same _⟩
      | look k =>
        cases h
        have hn : (Prog.look k).next a = some (k a, a) := rfl
        obtain ⟨b', h1, h2, h3, h4⟩ := next_local hp hab hn
        obtain ⟨hk, rfl⟩ : k b = k a ∧ b = b' := by simpa [Prog.next] using h1
        exact ⟨_, by simp only [Running.act, Prog.next, Option.map_some, hk], h2, ⟨h3, ho.next hn⟩, wide h4⟩
      | change g k =>
        cases h
        have hn : (Prog.change g k).next a = some (k, g a) := rfl
        obtain ⟨b', h1, h2, h3, h4⟩ := next_local hp hab hn
        cases h1; exact ⟨_, by simp only [Running.act, Prog.next, Option.map_some], h2, ⟨h3, ho.next hn⟩, wide h4⟩
    | two o proc job parent =>
      cases parent with
      | ended e =>
        cases e with
        | none =>
          cases h
          exact ⟨b, rfl, hab, hr.1 ▸ kpis_within _ _ _, same _⟩
        | some _ => cases h
      | _ => cases h
    | late p =>
      have hp : p.Within (Eyes c.xlsx c.root) (Inside c.root) := hr
      cases p with
      | ret _ => cases h; exact ⟨b, rfl, hab, trivial, same _⟩
      | raise _ => cases h; exact ⟨b, rfl, hab, trivial, same _⟩
      | look k =>
        cases h
        have hn : (Prog.look k).next a = some (k a, a) := rfl
        obtain ⟨b', h1, h2, h3, h4⟩ := next_local hp hab hn
        obtain ⟨hk, rfl⟩ : k b = k a ∧ b = b' := by simpa [Prog.next] using h1
        exact ⟨_, by simp only [Running.act, Prog.next, Option.map_some, hk], h2, h3, wide h4⟩
      | change g k =>
        cases h
        have hn : (Prog.change g k).next a = some (k, g a) := rfl
        obtain ⟨b', h1, h2, h3, h4⟩ := next_local hp hab hn
        cases h1; exact ⟨_, by simp only [Running.act, Prog.next, Option.map_some], h2, h3, wide h4⟩
    | ended _ => cases h
  | move m =>
    cases r with
    | two o proc job parent =>
      obtain ⟨ho, hj, hw⟩ := hr
      obtain ⟨k, hk, e⟩ := Option.map_eq_some_iff.mp h
      cases e
      obtain ⟨b', h1, h2, h3, h4, h5⟩ := move_local (fun n => ho ▸ solve_within' ..) (fun n => ho ▸ plot_within' ..) hj hw
        hab hk
      exact ⟨b', by show Option.map _ _ = _; rw [h1]; rfl, h2, ⟨ho, h3, h4⟩, wide h5⟩
    | _ => simp [Running.act] at h

end Disk
end Verif
