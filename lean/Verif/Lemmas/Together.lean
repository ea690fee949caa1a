import Verif.Model.Together
import Verif.Lemmas.DiskApart

/-!
# Lemmas for `Verif.Props.Together`: a call keeps to its folder
-/

set_option autoImplicit false

namespace Verif
namespace Disk
open Files Para Pandas Programme Report InputReader Simulation Workbook OutputProcess

variable {α β : Type} {R W R' W' : FPath → Prop}

/-! ## The parts of `main` are those of `Verif.Model.Disk` -/

theorem Prog.run_valid (p : FPath) : (Prog.valid p).run = Disk.valid (.path p) := by
  funext fs
  unfold Disk.valid validPath
  show (match fs p with
    | none => .raise .fileNotFoundError
    | some _ => .ret p : Prog FPath).run fs = _
  dsimp only
  cases fs p <;> rfl

theorem Prog.run_readWorkbook (p : FPath) : (Prog.readWorkbook p).run = Disk.readWorkbook p := by
  unfold Prog.readWorkbook Disk.readWorkbook
  rw [Prog.run_bind, Prog.run_read]
  congr 1
  funext d
  cases d <;> rfl

theorem readExcel_steps (x : FPath) (E : FPath → Removal) (root : FPath) :
    (Prog.readExcel x E root).run =
      Disk.readExcel (do let _ ← Disk.valid (.path x)) (Disk.readWorkbook x) E root := by
  unfold Prog.readExcel Disk.readExcel
  simp only [Prog.run_bind, Prog.run_valid, Prog.run_readWorkbook, Prog.run_freshDir, Prog.run_lift, Prog.run_write,
    Op.assoc, Op.pure_then]

theorem para_steps (E : FPath → Removal) (root : FPath) : (Prog.para E root).run = Disk.para E root := by
  unfold Prog.para Disk.para
  simp only [Prog.run_bind, Prog.run_valid, Prog.run_readContainer, Prog.run_lift, Prog.run_pure,
    Prog.run_each fun s => Prog.run_freshDir E (root ++ [outDir, folderName s])]

theorem makePickles_steps (root : FPath) (sizes : List (ℤ × ℤ)) :
    (Prog.makePickles root sizes).run = Disk.makePickles root sizes := by
  unfold Prog.makePickles Disk.makePickles
  refine Prog.run_each (fun s => ?_) sizes
  simp only [Prog.run_bind, Prog.run_readContainer, Prog.run_lift, Prog.run_write]

/-- `main` L73-101. -/
def prepare (E : FPath → Removal) (x root : FPath) : Op Opened := do
  write (root ++ [logName]) .log
  readExcel (do let _ ← valid (.path x)) (readWorkbook x) E root
  let sizes ← para E root
  makePickles root sizes
  match sizes with
  | [] => fail .indexError
  | s :: _ => do
    let c ← readContainer (root ++ [inDir, folderName s ++ ".pkl".toList])
    let controller ← lift (Dict.get c.controller.info "controller")
    let n ← lift (do natOf (← Dict.get c.controller.info "total_timesteps"))
    let first ← lift (do natOf (← Dict.get c.controller.info "first_hour"))
    return ⟨root, sizes, controller, first, n⟩

theorem prepare_steps (E : FPath → Removal) (x root : FPath) : (Prog.prepare E x root).run = prepare E x root := by
  unfold Prog.prepare prepare
  rw [Prog.run_bind, Prog.run_write]
  congr 1; funext _
  rw [Prog.run_bind, readExcel_steps]
  congr 1; funext _
  rw [Prog.run_bind, para_steps]
  congr 1; funext sizes
  rw [Prog.run_bind, makePickles_steps]
  congr 1; funext _
  cases sizes with
  | nil => rfl
  | cons s ss =>
    dsimp only
    simp only [Prog.run_bind, Prog.run_readContainer, Prog.run_lift, Prog.run_pure]

theorem opening_parts (E : FPath → Removal) (x d : FPath) (overwrite : Bool) :
    opening E (.path x) (.path d) overwrite = valid (.path x) >>= fun x' => valid (.path d) >>= fun d' =>
      makeRoot E overwrite (join d' (stem (lastName x'))) >>= fun _ => prepare E x' (join d' (stem (lastName x'))) := rfl

theorem loop_steps' (L : Libs) (gekko : Gekko) (E : FPath → Removal) (o : Opened) :
    (Prog.loop L gekko E o).run = o.loop L gekko E := by
  unfold Prog.loop Opened.loop
  refine Prog.run_each (fun n => ?_) _
  rw [Prog.run_bind]
  rfl

theorem kpis_steps (L : Libs) (E : FPath → Removal) (title : Name) (root : FPath) :
    (Prog.kpis L E title root).run = Disk.kpis L E title root := by
  unfold Prog.kpis Disk.kpis
  rw [Prog.run_bind, Prog.run_freshDir]
  congr 1; funext _
  rw [Prog.run_bind, Prog.run_readContainer]
  congr 1; funext base
  funext fs
  rw [bind_ok (m := snapshot) (fs := fs) (a := fs) rfl]
  have e : ∀ (l : List (String × KpiTables.Content)) (o : Option PyErr),
      (Prog.each (fun fc => Prog.write (root ++ [outDir, kpiDir, fc.1.toList]) (.kpi fc.2)) l >>= fun _ => match o with
        | none => pure ()
        | some e => .raise e : Prog Unit).run =
      (each (fun fc => write (root ++ [outDir, kpiDir, fc.1.toList]) (.kpi fc.2)) l >>= fun _ => match o with
        | none => pure ()
        | some e => fail e : Op Unit) := fun l o => by
    rw [Prog.run_bind, Prog.run_each fun fc : String × KpiTables.Content =>
      Prog.run_write (root ++ [outDir, kpiDir, fc.1.toList]) (.kpi fc.2)]
    cases o <;> rfl
  exact congrFun (e (Report.tables L base (inputFiles root fs) (String.ofList title) (resultFiles root fs)).1
    (Report.tables L base (inputFiles root fs) (String.ofList title) (resultFiles root fs)).2) fs

/-! ## What the parts look at and what they change -/

theorem Prog.Within.mono {p : Prog α} (h : p.Within R W) (hs : ∀ q, W q → R q) (hR : ∀ q, R q → R' q)
    (hW : ∀ q, W q → W' q) : p.Within R' W' := by
  induction p with
  | ret _ => trivial
  | raise _ => trivial
  | look k ih => exact ⟨fun a b hab => h.1 a b fun q hq => hab q (hR q hq), fun a => ih a (h.2 a)⟩
  | change g k ih =>
    refine ⟨fun a b hab q hq => ?_, fun a q hq => h.2.1 a q fun hw => hq (hW q hw), ih h.2.2⟩
    by_cases hr : R q
    · exact h.1 a b (fun q hq => hab q (hR q hq)) q hr
    · rw [h.2.1 a q fun hw => hr (hs q hw), h.2.1 b q fun hw => hr (hs q hw)]
      exact hab q hq

theorem Prog.Within.valid {p : FPath} (hR : R p) : (Prog.valid p).Within R W := by
  refine ⟨fun a b h => by dsimp only; rw [h p hR], fun a => ?_⟩
  dsimp only
  split <;> trivial

theorem Prog.Within.readWorkbook {p : FPath} (hR : R p) : (Prog.readWorkbook p).Within R W :=
  (Prog.Within.read hR).bind fun d => by cases d <;> trivial

/-- Strictly inside a folder. -/
def Inside (root q : FPath) : Prop := ∃ n t, q = root ++ n :: t

theorem inside_of (root : FPath) (n : Name) (t : FPath) : Inside root (root ++ n :: t) := ⟨n, t, rfl⟩

theorem Inside.below {root q : FPath} (h : Inside root q) : root <+: q := by
  obtain ⟨n, t, rfl⟩ := h
  exact ⟨n :: t, rfl⟩

theorem Inside.mono {root q : FPath} {n : Name} {t : FPath} (h : root ++ n :: t <+: q) : Inside root q := by
  obtain ⟨k, rfl⟩ := h
  exact ⟨n, t ++ k, by simp⟩

theorem not_inside (root : FPath) : ¬ Inside root root := fun ⟨n, t, e⟩ => by
  have := congrArg List.length e
  simp at this

/-- What a call looks at once it has its folder: the workbook and the folder. -/
def Eyes (x root q : FPath) : Prop := q = x ∨ root <+: q

section
variable {x root : FPath}

theorem Eyes.of_inside {q : FPath} (h : Inside root q) : Eyes x root q := .inr h.below

theorem dropLast_one (root : FPath) (a : Name) : (root ++ [a]).dropLast = root := List.dropLast_concat
theorem dropLast_two (root : FPath) (a b : Name) : (root ++ [a, b]).dropLast = root ++ [a] := by
  rw [show root ++ [a, b] = (root ++ [a]) ++ [b] by simp, List.dropLast_concat]
theorem dropLast_three (root : FPath) (a b c : Name) : (root ++ [a, b, c]).dropLast = root ++ [a, b] := by
  rw [show root ++ [a, b, c] = (root ++ [a, b]) ++ [c] by simp, List.dropLast_concat]

theorem fresh_one (E : FPath → Removal) (a : Name) : (Prog.freshDir E (root ++ [a])).Within (Eyes x root) (Inside root) :=
  .freshDir E (fun _ h => .of_inside (.mono h)) (.inr (by rw [dropLast_one])) fun _ h => .mono h
theorem fresh_two (E : FPath → Removal) (a b : Name) :
    (Prog.freshDir E (root ++ [a, b])).Within (Eyes x root) (Inside root) :=
  .freshDir E (fun _ h => .of_inside (.mono h)) (.inr (by rw [dropLast_two]; exact ⟨_, rfl⟩)) fun _ h => .mono h
theorem write_one (a : Name) (d : Data) : (Prog.write (root ++ [a]) d).Within (Eyes x root) (Inside root) :=
  .write (.of_inside (inside_of ..)) (.inr (by rw [dropLast_one])) (inside_of ..) d
theorem write_two (a b : Name) (d : Data) : (Prog.write (root ++ [a, b]) d).Within (Eyes x root) (Inside root) :=
  .write (.of_inside (inside_of ..)) (.inr (by rw [dropLast_two]; exact ⟨_, rfl⟩)) (inside_of ..) d
theorem write_three (a b c : Name) (d : Data) :
    (Prog.write (root ++ [a, b, c]) d).Within (Eyes x root) (Inside root) :=
  .write (.of_inside (inside_of ..)) (.inr (by rw [dropLast_three]; exact ⟨_, rfl⟩)) (inside_of ..) d

theorem readExcel_within (E : FPath → Removal) : (Prog.readExcel x E root).Within (Eyes x root) (Inside root) :=
  (Prog.Within.valid (.inl rfl)).bind fun _ => (fresh_one E _).bind fun _ =>
    (Prog.Within.readWorkbook (.inl rfl)).bind fun _ => (fresh_one E _).bind fun _ =>
    (Prog.Within.lift _).bind fun _ => write_two _ _ _

theorem para_within (E : FPath → Removal) : (Prog.para E root).Within (Eyes x root) (Inside root) :=
  (Prog.Within.valid (.of_inside (inside_of ..))).bind fun _ => (Prog.Within.valid (.of_inside (inside_of ..))).bind fun _ =>
    (Prog.Within.readContainer (.of_inside (inside_of ..))).bind fun _ => (Prog.Within.lift _).bind fun _ =>
    (Prog.Within.lift _).bind fun _ => (Prog.Within.each fun _ _ => fresh_two E _ _).bind fun _ => trivial

theorem makePickles_within (sizes : List (ℤ × ℤ)) : (Prog.makePickles root sizes).Within (Eyes x root) (Inside root) :=
  Prog.Within.each fun _ _ => (Prog.Within.readContainer (.of_inside (inside_of ..))).bind fun _ =>
    (Prog.Within.lift _).bind fun _ => write_two _ _ _

theorem prepare_within (E : FPath → Removal) : (Prog.prepare E x root).Within (Eyes x root) (Inside root) := by
  refine (write_one _ _).bind fun _ => (readExcel_within E).bind fun _ => (para_within E).bind fun sizes =>
    (makePickles_within sizes).bind fun _ => ?_
  cases sizes with
  | nil => trivial
  | cons s ss =>
    exact (Prog.Within.readContainer (.of_inside (inside_of ..))).bind fun _ => (Prog.Within.lift _).bind fun _ =>
      (Prog.Within.lift _).bind fun _ => (Prog.Within.lift _).bind fun _ => trivial

theorem mine_inside {name : Name} {q : FPath} (h : Mine root name q) : Inside root q := .mono h

theorem sees_eyes {name : Name} {q : FPath} (h : Sees root name q) : Eyes x root q := by
  rcases h with rfl | h
  · exact .of_inside (inside_of ..)
  · exact .of_inside (mine_inside h)

theorem solve_within' (L : Libs) (gekko : Gekko) (v : Value) (first n : ℕ) (name : Name) :
    (Prog.solve L gekko root v first n name).Within (Eyes x root) (Inside root) :=
  (solve_within L gekko root v first n name).mono (fun _ h => .inr h) (fun _ => sees_eyes) fun _ => mine_inside

theorem plot_within' (E : FPath → Removal) (name : Name) :
    (Prog.plot E root name).Within (Eyes x root) (Inside root) :=
  (plot_within E root name).mono (fun _ h => .inr h) (fun _ => sees_eyes) fun _ => mine_inside

theorem loop_within (L : Libs) (gekko : Gekko) (E : FPath → Removal) (o : Opened) :
    (Prog.loop L gekko E o).Within (Eyes x o.root) (Inside o.root) :=
  Prog.Within.each fun name _ => (solve_within' L gekko _ _ _ name).bind fun _ => plot_within' E name

theorem kpis_within (L : Libs) (E : FPath → Removal) (title : Name) :
    (Prog.kpis L E title root).Within (Eyes x root) (Inside root) := by
  refine (fresh_two E _ _).bind fun _ => (Prog.Within.readContainer (.of_inside (inside_of ..))).bind fun base =>
    ⟨fun a b h => ?_, fun a => ?_⟩
  · have e1 : inputFiles root a = inputFiles root b := by
      funext n
      unfold inputFiles
      rw [h _ (.of_inside (inside_of root inDir [n]))]
    have e2 : resultFiles root a = resultFiles root b := by
      funext n
      unfold resultFiles
      rw [h _ (.of_inside (inside_of root outDir [n, resultsName]))]
    dsimp only
    rw [e1, e2]
  · refine (Prog.Within.each fun fc _ => write_three _ _ _ _).bind fun _ => ?_
    split <;> trivial

end

/-! ## What the opening returns -/

/-- Whatever the process returns is like this. -/
def Prog.Returns (T : α → Prop) : Prog α → Prop
  | .ret a => T a
  | .raise _ => True
  | .look k => ∀ fs, (k fs).Returns T
  | .change _ k => k.Returns T

theorem Prog.Returns.bind {T : β → Prop} {f : α → Prog β} (hf : ∀ a, (f a).Returns T) (p : Prog α) :
    (p >>= f).Returns T := by
  rw [Prog.bind_def]
  induction p with
  | ret a => exact hf a
  | raise _ => trivial
  | look k ih => exact fun fs => ih fs
  | change g k ih => exact ih

theorem Prog.Returns.next {T : α → Prop} {p p' : Prog α} (hp : p.Returns T) {a a' : FS Data}
    (h : p.next a = some (p', a')) : p'.Returns T := by
  cases p with
  | ret _ => cases h
  | raise _ => cases h
  | look k => obtain ⟨rfl, rfl⟩ : k a = p' ∧ a = a' := by simpa [Prog.next] using h
              exact hp a
  | change g k => obtain ⟨rfl, rfl⟩ : k = p' ∧ g a = a' := by simpa [Prog.next] using h
                  exact hp

theorem prepare_returns (E : FPath → Removal) (x root : FPath) : (Prog.prepare E x root).Returns fun o => o.root = root := by
  refine Prog.Returns.bind (fun _ => Prog.Returns.bind (fun _ => Prog.Returns.bind (fun sizes => Prog.Returns.bind
    (fun _ => ?_) _) _) _) _
  cases sizes with
  | nil => trivial
  | cons s ss =>
    refine Prog.Returns.bind (fun _ => Prog.Returns.bind (fun _ => Prog.Returns.bind (fun _ => Prog.Returns.bind
      (fun _ => ?_) _) _) _) _
    exact rfl

end Disk
end Verif
