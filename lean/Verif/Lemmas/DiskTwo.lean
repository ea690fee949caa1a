import Verif.Model.DiskTwo
import Verif.Lemmas.DiskBody

/-!
# Lemmas for `Verif.Props.DiskTwo`: a process alone on the disk, and among others
-/

set_option autoImplicit false

namespace Verif
namespace Disk
open Files Para Pandas Programme Report InputReader Simulation Workbook OutputProcess

variable {α β γ : Type}

/-! ## A process alone -/

/-- A process that is alone on the disk. -/
def Prog.run : Prog α → Op α
  | .ret a => pure a
  | .raise e => Disk.fail e
  | .look k => fun fs => (k fs).run fs
  | .change g k => fun fs => ⟨(k.run (g fs)).result, (k.run (g fs)).disk, g fs :: (k.run (g fs)).seen⟩

theorem Op.assoc (m : Op α) (f : α → Op β) (g : β → Op γ) : (m >>= f) >>= g = m >>= fun a => f a >>= g := by
  funext fs
  cases h : (m fs).result with
  | error e =>
    rw [bind_error h, bind_error (e := e) (by rw [bind_error h]), bind_error h]
  | ok a =>
    rw [bind_ok h]
    cases h2 : (f a (m fs).disk).result with
    | error e =>
      rw [bind_error (e := e) (by rw [bind_ok h]; exact h2), bind_ok h, bind_error h2]
    | ok b =>
      rw [bind_ok (a := b) (by rw [bind_ok h]; exact h2), bind_ok h, bind_ok h2]
      simp only [List.append_assoc]

theorem Op.pure_then (a : α) (f : α → Op β) : (pure a : Op α) >>= f = f a := by
  funext fs
  rw [bind_ok (a := a) rfl]
  show (⟨(f a fs).result, (f a fs).disk, [] ++ (f a fs).seen⟩ : Done β) = f a fs
  rfl

theorem Op.fail_then (e : PyErr) (f : α → Op β) : (Disk.fail e : Op α) >>= f = Disk.fail e := rfl

theorem Prog.bind_def (p : Prog α) (f : α → Prog β) : p >>= f = p.bind f := rfl

theorem Prog.run_bind (p : Prog α) (f : α → Prog β) : (p >>= f).run = p.run >>= fun a => (f a).run := by
  rw [Prog.bind_def]
  induction p with
  | ret a => exact (Op.pure_then a fun a => (f a).run).symm
  | raise e => rfl
  | look k ih =>
    funext fs
    show ((k fs).bind f).run fs = _
    rw [ih fs]
    rfl
  | change g k ih =>
    funext fs
    show (⟨_, _, _⟩ : Done β) = _
    rw [ih]
    cases h : (k.run (g fs)).result with
    | error e =>
      rw [bind_error h, bind_error (m := (Prog.change g k).run) (fs := fs) (e := e) h]
      rfl
    | ok a =>
      rw [bind_ok h, bind_ok (m := (Prog.change g k).run) (fs := fs) (a := a) h]
      rfl

theorem Prog.run_pure (a : α) : (pure a : Prog α).run = pure a := rfl
theorem Prog.run_ret (a : α) : (Prog.ret a).run = pure a := rfl
theorem Prog.run_raise (e : PyErr) : (Prog.raise e : Prog α).run = Disk.fail e := rfl

theorem Prog.run_lift (x : Except PyErr α) : (Prog.lift x).run = Disk.lift x := by
  cases x <;> rfl

theorem Prog.run_each {f : β → Prog Unit} {g : β → Op Unit} (h : ∀ b, (f b).run = g b) (bs : List β) :
    (Prog.each f bs).run = Disk.each g bs := by
  induction bs with
  | nil => rfl
  | cons b bs ih =>
    show (f b >>= fun _ => Prog.each f bs).run = _
    rw [Prog.run_bind, h b, ih]
    rfl

theorem Prog.run_makeDir (p : FPath) : (Prog.makeDir p).run = Disk.makeDir p := by
  funext fs
  show (match mkdir fs p with
    | .error e => Prog.raise e
    | .ok _ => .change (fun fs q => if q = p then some .dir else fs q) (.ret ()) : Prog Unit).run fs = _
  unfold Disk.makeDir mkdir
  cases fs p with
  | some _ => rfl
  | none => cases fs p.dropLast with
    | none => rfl
    | some v => cases v <;> rfl

theorem Prog.run_change {g : FS Data → FS Data} {k : Prog α} {fs fs' : FS Data} (h : g fs = fs') :
    (Prog.change g k).run fs = ⟨(k.run fs').result, (k.run fs').disk, fs' :: (k.run fs').seen⟩ := by
  subst h
  rfl

theorem stage_of_without (fs : FS Data) (p : FPath) (a b : FPath → Bool) :
    (fun q => if p <+: q then without fs p b q else without fs p a q) = without fs p b := by
  funext q
  unfold without
  by_cases h : p <+: q <;> simp [h]

theorem stage_of_self (fs : FS Data) (p : FPath) (b : FPath → Bool) :
    (fun q => if p <+: q then without fs p b q else fs q) = without fs p b := by
  funext q
  unfold without
  by_cases h : p <+: q <;> simp [h]

theorem Prog.run_removeTree (E : FPath → Removal) (p : FPath) : (Prog.removeTree E p).run = Disk.removeTree E p := by
  funext fs
  unfold Prog.removeTree Disk.removeTree
  have key : ∀ (stages : List (FPath → Bool)) (cur : FS Data), (∀ b, (fun q => if p <+: q then without fs p b q else cur q)
      = without fs p b) → without cur p (fun _ => true) = without fs p (fun _ => true) →
      (stages.foldr (fun gone k => Prog.change (fun fs' q => if p <+: q then without fs p gone q else fs' q) k)
        (match (E p).err with
          | none => .change (fun fs => without fs p fun _ => true) (.ret ())
          | some e => .raise e : Prog Unit)).run cur =
      match (E p).err with
      | none => ⟨.ok (), without fs p fun _ => true, stages.map (without fs p) ++ [without fs p fun _ => true]⟩
      | some e => ⟨.error e, (stages.map (without fs p)).getLast?.getD cur, stages.map (without fs p)⟩ := by
    intro stages
    induction stages with
    | nil =>
      intro cur _ h2
      cases (E p).err with
      | none =>
        exact Prog.run_change h2
      | some e => rfl
    | cons g gs ih =>
      intro cur h1 _
      have ih' := ih (without fs p g) (stage_of_without fs p g) (by
        funext q
        unfold without
        by_cases h : p <+: q <;> simp [h])
      rw [List.foldr_cons, Prog.run_change (h1 g), ih']
      cases (E p).err with
      | none => rfl
      | some e =>
        simp only [List.map_cons, List.getLast?_cons, Option.getD_some]
  exact key _ fs (stage_of_self fs p) rfl

theorem Prog.run_freshDir (E : FPath → Removal) (p : FPath) : (Prog.freshDir E p).run = Disk.freshDir E p := by
  have h : (Prog.removeTree E p >>= fun _ => Prog.makeDir p).run =
      (do Disk.removeTree E p; Disk.makeDir p : Op Unit) := by
    rw [Prog.run_bind, Prog.run_removeTree, Prog.run_makeDir]
  funext fs
  unfold Disk.freshDir
  show (match fs p with
    | some .dir => (do Prog.removeTree E p; Prog.makeDir p)
    | _ => Prog.makeDir p : Prog Unit).run fs = _
  cases fs p with
  | none => exact congrFun (Prog.run_makeDir p) fs
  | some v => cases v with
    | dir => exact congrFun h fs
    | file _ => exact congrFun (Prog.run_makeDir p) fs

theorem Prog.run_put (p : FPath) (d : Data) : (Prog.put p d).run = Disk.put p d := rfl

theorem Prog.run_write (p : FPath) (d : Data) : (Prog.write p d).run = Disk.write p d := by
  have h : (Prog.put p .torn >>= fun _ => Prog.put p d).run = (do Disk.put p .torn; Disk.put p d : Op Unit) := by
    rw [Prog.run_bind, Prog.run_put]
    rfl
  funext fs
  unfold Disk.write
  show (match fs p.dropLast with
    | none => .raise .fileNotFoundError
    | some (.file _) => .raise .other
    | some .dir => match fs p with
      | some .dir => .raise .other
      | _ => (do Prog.put p .torn; Prog.put p d) : Prog Unit).run fs = _
  cases fs p.dropLast with
  | none => rfl
  | some v => cases v with
    | file _ => rfl
    | dir => cases fs p with
      | none => exact congrFun h fs
      | some v => cases v with
        | dir => rfl
        | file _ => exact congrFun h fs

theorem Prog.run_read (p : FPath) : (Prog.read p).run = Disk.read p := by
  funext fs
  unfold Disk.read
  show (match fs p with
    | none => .raise .fileNotFoundError
    | some .dir => .raise .other
    | some (.file d) => .ret d : Prog Data).run fs = _
  cases fs p with
  | none => rfl
  | some v => cases v <;> rfl

theorem Prog.run_readContainer (p : FPath) : (Prog.readContainer p).run = Disk.readContainer p := by
  unfold Prog.readContainer Disk.readContainer
  rw [Prog.run_bind, Prog.run_read]
  congr 1
  funext d
  cases d <;> rfl

theorem Prog.run_readOutcome (p : FPath) : (Prog.readOutcome p).run = Disk.readOutcome p := by
  unfold Prog.readOutcome Disk.readOutcome
  rw [Prog.run_bind, Prog.run_read]
  congr 1
  funext d
  cases d <;> rfl

/-- The two descriptions of solving a combination are the same. -/
theorem solve_steps (L : Libs) (gekko : Gekko) (root : FPath) (v : Value) (first n : ℕ) (name : Name) :
    (Prog.solve L gekko root v first n name).run = Disk.solve L gekko root v first n name := by
  unfold Prog.solve Disk.solve
  simp only [Prog.run_bind, Prog.run_readContainer, Prog.run_lift, Prog.run_write]

theorem plotPeriod_steps (E : FPath → Removal) (root : FPath) (name : Name) (pb : Figures.Period × Bool) :
    (Prog.plotPeriod E root name pb).run = Disk.plotPeriod E root name pb := by
  unfold Prog.plotPeriod Disk.plotPeriod
  simp only [Prog.run_bind, Prog.run_readContainer, Prog.run_readOutcome, Prog.run_lift, Prog.run_freshDir,
    fun (d : Data) => Prog.run_each (fun f => Prog.run_write (root ++ [outDir, name, periodName pb.1, f]) d)]

/-- The two descriptions of plotting a combination are the same. -/
theorem plot_steps (E : FPath → Removal) (root : FPath) (name : Name) :
    (Prog.plot E root name).run = Disk.plot E root name := by
  unfold Prog.plot Disk.plot
  simp only [Prog.run_bind, Prog.run_readContainer, Prog.run_lift, Prog.run_each (plotPeriod_steps E root name)]

end Disk
end Verif
