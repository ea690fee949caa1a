import Verif.Lemmas.DiskEnds
import Verif.Props.DiskRun

/-!
# Lemmas for `Verif.Props.DiskTwo`: the disk at every moment
-/

set_option autoImplicit false

namespace Verif
namespace Disk
open Files Para Pandas Programme Report InputReader Simulation Workbook OutputProcess Spec

variable {α β : Type} {R W : FPath → Prop}

/-- On disks that are the same where a process looks, it goes through disks that are the same there. -/
theorem Prog.Within.run_seen {p : Prog α} (hp : p.Within R W) {a b : FS Data} (hab : On R a b) :
    ∀ s ∈ (p.run a).seen, ∃ s' ∈ (p.run b).seen, On R s s' := by
  induction p generalizing a b with
  | ret _ => exact fun s h => absurd h (by simp [Prog.run_ret, pure])
  | raise _ => exact fun s h => absurd h (by simp [Prog.run_raise, Disk.fail, Disk.lift])
  | look k ih =>
    show ∀ s ∈ ((k a).run a).seen, ∃ s' ∈ ((k b).run b).seen, On R s s'
    rw [hp.1 a b hab]
    exact ih b (hp.2 b) hab
  | change g k ih =>
    have h0 := hp.1 a b hab
    intro s hs
    rcases List.mem_cons.mp hs with rfl | hs
    · exact ⟨g b, List.mem_cons_self .., h0⟩
    · obtain ⟨s', h1, h2⟩ := ih hp.2.2 h0 s hs
      exact ⟨s', List.mem_cons_of_mem _ h1, h2⟩

/-- What a process alone has seen. -/
theorem Prog.Reach.mem {p q : Prog α} {a b : FS Data} (h : p.Reach a q b) : b = a ∨ b ∈ (p.run a).seen := by
  obtain ⟨l, h1, h2⟩ := h.seen
  rcases h2 with h2 | h2
  · exact .inl h2
  · exact .inr (by rw [h1]; exact List.mem_append_left _ h2)

theorem run_disk_mem (p : Prog α) (a : FS Data) : (p.run a).disk = a ∨ (p.run a).disk ∈ (p.run a).seen := by
  induction p generalizing a with
  | ret _ => exact .inl rfl
  | raise _ => exact .inl rfl
  | look k ih => exact ih a a
  | change g k ih =>
    rcases ih (g a) with h | h
    · refine .inr (List.mem_cons.mpr (.inl ?_))
      exact h
    · exact .inr (List.mem_cons_of_mem _ h)

section
variable {solve plot : Name → Prog Unit} {A W : Name → FPath → Prop} {fs0 : FS Data}

/-- Where a combination can be: at a moment of being solved and plotted alone. -/
theorem stage_moment {n : Name} {g : FS Data} (h : (∃ p, (solve n).Reach fs0 p g) ∨
    (SolveOk solve fs0 n ∧ ∃ p, (plot n).Reach (solved solve fs0 n) p g)) :
    g = fs0 ∨ g ∈ (both solve plot n fs0).seen := by
  have hsub : ∀ s ∈ ((solve n).run fs0).seen, s ∈ (both solve plot n fs0).seen := by
    intro s hs
    unfold both
    cases hr : ((solve n).run fs0).result with
    | error e => rw [bind_error hr]; exact hs
    | ok u => rw [bind_ok hr]; exact List.mem_append_left _ hs
  rcases h with ⟨p, h⟩ | ⟨hok, p, h⟩
  · rcases h.mem with h | h
    · exact .inl h
    · exact .inr (hsub g h)
  · have e : both solve plot n fs0 = _ := bind_ok hok
    rcases h.mem with h | h
    · subst h
      rcases run_disk_mem (solve n) fs0 with h | h
      · exact .inl h
      · exact .inr (hsub _ h)
    · exact .inr (by rw [e]; exact List.mem_append_right _ h)

theorem both_seen (H : Apart solve plot A W) (n : Name) {a b : FS Data} (hab : On (A n) a b) :
    ∀ s ∈ (both solve plot n a).seen, ∃ s' ∈ (both solve plot n b).seen, On (A n) s s' := by
  obtain ⟨r1, r2⟩ := (H.solve n).run hab
  have s1 := (H.solve n).run_seen hab
  have s2 := (H.plot n).run_seen r2
  unfold both
  cases hr : ((solve n).run a).result with
  | error e =>
    rw [bind_error hr, bind_error (r1.symm.trans hr)]
    exact s1
  | ok u =>
    rw [bind_ok hr, bind_ok (r1.symm.trans hr)]
    intro s hs
    rcases List.mem_append.mp hs with hs | hs
    · obtain ⟨s', h1, h2⟩ := s1 s hs
      exact ⟨s', List.mem_append_left _ h1, h2⟩
    · obtain ⟨s', h1, h2⟩ := s2 s hs
      exact ⟨s', List.mem_append_right _ h1, h2⟩

/-- A loop on one core that succeeds goes through every moment of every combination. -/
theorem each_moments (H : Apart solve plot A W) {n : Name} {g : FS Data}
    (hg : g = fs0 ∨ g ∈ (both solve plot n fs0).seen) : ∀ {names : List Name} {fs : FS Data}, names.Nodup → n ∈ names →
    On (A n) fs fs0 → (each (both solve plot) names fs).result = .ok () →
    ∃ s, (s = fs ∨ s ∈ (each (both solve plot) names fs).seen) ∧ On (A n) g s
  | [], _, _, hn, _, _ => absurd hn (by simp)
  | m :: ms, fs, hnd, hn, hfs, hok => by
    rcases hg with rfl | hg
    · exact ⟨fs, .inl rfl, hfs.symm⟩
    obtain ⟨hm, hnd⟩ := List.nodup_cons.mp hnd
    obtain ⟨u, h1, h2⟩ := bind_result_ok hok
    have e : each (both solve plot) (m :: ms) fs = _ := bind_ok h1
    by_cases hnm : n = m
    · subst hnm
      obtain ⟨s, t1, t2⟩ := both_seen H n hfs.symm g hg
      exact ⟨s, .inr (by rw [e]; exact List.mem_append_left _ t1), t2⟩
    · have hout := (both_run H m (fs := fs) (fs0 := fs) fun _ _ => rfl).2.2
      have hfs' : On (A n) (both solve plot m fs).disk fs0 := fun q hq =>
        (hout q fun hw => H.apart m n q (fun e => hnm e.symm) hw hq).trans (hfs q hq)
      obtain ⟨s, t1, t2⟩ := each_moments H (.inr hg) hnd ((List.mem_cons.mp hn).resolve_left hnm) hfs' h2
      refine ⟨s, ?_, t2⟩
      rcases t1 with rfl | t1
      · -- the disk after the first combination
        have hd : (both solve plot m fs).disk = fs ∨ (both solve plot m fs).disk ∈ (both solve plot m fs).seen := by
          unfold both
          have hd1 := run_disk_mem (solve m) fs
          cases hr : ((solve m).run fs).result with
          | error e => rw [bind_error hr]; exact hd1
          | ok u =>
            rw [bind_ok hr]
            rcases run_disk_mem (plot m) ((solve m).run fs).disk with h | h
            · dsimp only
              rw [h]
              rcases hd1 with h | h
              · exact .inl h
              · exact .inr (List.mem_append_left _ h)
            · exact .inr (List.mem_append_right _ h)
        rcases hd with h | h
        · exact .inl h
        · exact .inr (by rw [e]; exact List.mem_append_left _ h)
      · exact .inr (by rw [e]; exact List.mem_append_right _ t1)

end

/-! ## Every disk is recorded -/

/-- The last disk is among those on the way, unless nothing changed. -/
def Recorded (m : Op α) : Prop := ∀ fs, (m fs).disk = fs ∨ (m fs).disk ∈ (m fs).seen

theorem Recorded.bind {m : Op α} {f : α → Op β} (hm : Recorded m) (hf : ∀ a, Recorded (f a)) : Recorded (m >>= f) := by
  intro fs
  cases h : (m fs).result with
  | error e => rw [bind_error h]; exact hm fs
  | ok a =>
    rw [bind_ok h]
    rcases hf a (m fs).disk with h2 | h2
    · dsimp only
      rw [h2]
      rcases hm fs with h1 | h1
      · exact .inl h1
      · exact .inr (List.mem_append_left _ h1)
    · exact .inr (List.mem_append_right _ h2)

theorem Recorded.still {m : Op α} (h : ∀ fs, (m fs).disk = fs) : Recorded m := fun fs => .inl (h fs)

theorem Recorded.each {f : β → Op Unit} (h : ∀ b, Recorded (f b)) (bs : List β) : Recorded (each f bs) := by
  induction bs with
  | nil => exact Recorded.still fun _ => rfl
  | cons b bs ih => exact (h b).bind fun _ => ih

theorem Recorded.makeDir (p : FPath) : Recorded (makeDir p) := by
  intro fs
  rcases makeDir_cases p fs with ⟨e, he⟩ | ⟨-, -, he⟩ <;> rw [he]
  · exact .inl rfl
  · exact .inr (List.mem_singleton_self _)

theorem Recorded.removeTree (E : FPath → Removal) (p : FPath) : Recorded (removeTree E p) := by
  intro fs
  unfold Disk.removeTree
  dsimp only
  cases (E p).err with
  | none => exact .inr (by simp)
  | some e =>
    dsimp only
    cases h : ((E p).stages.map (without fs p)).getLast? with
    | none => exact .inl rfl
    | some g => exact .inr (List.mem_of_getLast? h)

theorem Recorded.freshDir (E : FPath → Removal) (p : FPath) : Recorded (freshDir E p) := by
  have h := (Recorded.removeTree E p).bind fun _ => Recorded.makeDir p
  intro fs
  unfold Disk.freshDir
  split
  · exact h fs
  · exact Recorded.makeDir p fs

theorem Recorded.makeRoot (E : FPath → Removal) (overwrite : Bool) (p : FPath) : Recorded (makeRoot E overwrite p) := by
  have h := (Recorded.removeTree E p).bind fun _ => Recorded.makeDir p
  intro fs
  unfold Disk.makeRoot
  split
  · exact Recorded.makeDir p fs
  · split_ifs
    · exact h fs
    · exact .inl rfl
  · split_ifs <;> exact .inl rfl

theorem Recorded.write (p : FPath) (v : Data) : Recorded (write p v) := by
  intro fs
  rcases write_cases p v fs with ⟨e, he⟩ | ⟨-, -, he⟩ <;> rw [he]
  · exact .inl rfl
  · exact .inr (by simp)

theorem Recorded.lift (x : Except PyErr α) : Recorded (lift x) := .still fun _ => rfl
theorem Recorded.read (p : FPath) : Recorded (read p) := .still fun _ => rfl
theorem Recorded.readContainer (p : FPath) : Recorded (readContainer p) :=
  (Recorded.read p).bind fun d => by cases d <;> exact .still fun _ => rfl
theorem Recorded.readWorkbook (p : FPath) : Recorded (readWorkbook p) :=
  (Recorded.read p).bind fun d => by cases d <;> exact .still fun _ => rfl

theorem opening_recorded (E : FPath → Removal) (xlsx outdir : Arg) (overwrite : Bool) :
    Recorded (opening E xlsx outdir overwrite) := by
  have hv : ∀ a, Recorded (valid a) := fun a => .still fun _ => rfl
  refine (hv _).bind fun x => (hv _).bind fun d => (Recorded.makeRoot _ _ _).bind fun _ => (Recorded.write _ _).bind fun _ =>
    Recorded.bind ?_ fun _ => Recorded.bind ?_ fun sizes => Recorded.bind ?_ fun _ => ?_
  · exact ((hv _).bind fun _ => .still fun _ => rfl).bind fun _ => (Recorded.freshDir _ _).bind fun _ =>
      (Recorded.readWorkbook _).bind fun _ => (Recorded.freshDir _ _).bind fun _ => (Recorded.lift _).bind fun _ =>
      Recorded.write _ _
  · exact (hv _).bind fun _ => (hv _).bind fun _ => (Recorded.readContainer _).bind fun _ => (Recorded.lift _).bind fun _ =>
      (Recorded.lift _).bind fun _ => (Recorded.each (fun _ => Recorded.freshDir _ _) _).bind fun _ => .still fun _ => rfl
  · exact Recorded.each (fun _ => (Recorded.readContainer _).bind fun _ => (Recorded.lift _).bind fun _ =>
      Recorded.write _ _) _
  · cases sizes with
    | nil => exact .still fun _ => rfl
    | cons s ss =>
      exact (Recorded.readContainer _).bind fun _ => (Recorded.lift _).bind fun _ => (Recorded.lift _).bind fun _ =>
        (Recorded.lift _).bind fun _ => .still fun _ => rfl

/-- The disks of the first part of a program are disks of the program. -/
theorem states_first {m : Op α} {f : α → Op β} (hm : Recorded m) {fs s : FS Data} (h : s ∈ (m fs).states) :
    s = fs ∨ s ∈ ((m >>= f) fs).states := by
  have hseen : ∀ s ∈ (m fs).seen, s ∈ ((m >>= f) fs).states := fun s hs => by
    cases hr : (m fs).result with
    | error e => rw [bind_error hr]; exact List.mem_cons_of_mem _ hs
    | ok a => rw [bind_ok hr]; exact List.mem_cons_of_mem _ (List.mem_append_left _ hs)
  rcases List.mem_cons.mp h with rfl | h
  · rcases hm fs with h | h
    · exact .inl h
    · exact .inr (hseen _ h)
  · exact .inr (hseen _ h)

/-- The disks of the second part, too. -/
theorem seen_second {m : Op α} {f : α → Op β} {fs s : FS Data} {a : α} (hr : (m fs).result = .ok a)
    (h : s ∈ (f a (m fs).disk).seen) : s ∈ ((m >>= f) fs).seen := by
  rw [bind_ok hr]; exact List.mem_append_right _ h

theorem seen_first {m : Op α} {f : α → Op β} {fs s : FS Data} (h : s ∈ (m fs).seen) : s ∈ ((m >>= f) fs).seen := by
  cases hr : (m fs).result with
  | error e => rw [bind_error hr]; exact h
  | ok a => rw [bind_ok hr]; exact List.mem_append_left _ h

/-! ## What is known when the loop begins -/

theorem bind_run_ok {m : Op α} {f : α → Op β} {fs : FS Data} {b : β} (h : ((m >>= f) fs).result = .ok b) :
    ∃ a, (m fs).result = .ok a ∧ (f a (m fs).disk).result = .ok b ∧ ((m >>= f) fs).disk = (f a (m fs).disk).disk := by
  obtain ⟨a, h1, h2⟩ := bind_result_ok h
  exact ⟨a, h1, h2, by rw [bind_ok h1]⟩

/-- The disk when the loop begins. -/
structure Ready (L : Libs) (gekko : Gekko) (wb : Pandas.Workbook) (o : Opened) (fs : FS Data) (dir : Dir Container) :
    Prop where
  inputs : Inputs o.root fs dir
  folders : ∀ s ∈ o.sizes, fs (o.root ++ [outDir, folderName s]) = some .dir
  empty : NoOut o.root fs
  setup : Programme.setup L gekko wb = .ok ⟨o.sizes.map folderName, solver L gekko o.controller o.first o.n dir⟩

theorem opening_run {L : Libs} {gekko : Gekko} {E : FPath → Removal} {x d : FPath} {base : Name} {overwrite : Bool}
    (hw : Spec.Workbook x base) (hb : Ordinary base) {fs : FS Data} (hs : Sound (d ++ [base]) fs) (hd : fs d = some .dir)
    (hout : ¬ Below (d ++ [base]) x) {wb : Pandas.Workbook} (hx : fs x = some (.file (.workbook wb))) {o : Opened}
    (h : (opening E (.path x) (.path d) overwrite fs).result = .ok o) :
    o.root = d ++ [base] ∧ ∃ dir, Ready L gekko wb o (opening E (.path x) (.path d) overwrite fs).disk dir := by
  have h1 : Disk.valid (.path x) fs = ⟨.ok x, fs, []⟩ := valid_at (by rw [hx]; simp)
  have h2 : Disk.valid (.path d) fs = ⟨.ok d, fs, []⟩ := valid_at (by rw [hd]; simp)
  unfold opening at h ⊢
  rw [bind_still h1, bind_still h2, target_eq hw hb] at h ⊢
  obtain ⟨_, r1, h, e1⟩ := bind_run_ok h
  rw [e1]
  clear e1
  rw [makeRoot_ok hs hd r1] at h ⊢
  have top := emptied_self fs (d ++ [base])
  have empty := emptied_below fs (d ++ [base])
  have hx' : emptied fs (d ++ [base]) x = some (.file (.workbook wb)) := (emptied_outside hout).trans hx
  generalize emptied fs (d ++ [base]) = fs1 at *
  generalize d ++ [base] = root at *
  let g := set fs1 (root ++ [logName]) (.file .log)
  have h1 : write (root ++ [logName]) .log fs1 = ⟨.ok (), g, [set fs1 (root ++ [logName]) (.file .torn), g]⟩ :=
    write_at (rest := []) .log (by rw [List.nil_append, empty]; simp) (by rw [List.append_nil]; exact top)
  have k : ∀ {q : FPath}, q ≠ [logName] → g (root ++ q) = fs1 (root ++ q) := set_at_ne
  have hl : logName ≠ outDir := by decide
  have hl' : logName ≠ inDir := by decide
  have gtop : g root = some .dir := by
    have := k (q := []) (by simp)
    rw [List.append_nil] at this
    exact this.trans top
  obtain ⟨x1, x2⟩ := readExcel_run (E := E) (fs := g) gtop (fun rest => (k (by simp [hl'.symm])).trans (empty ..))
    (fun rest => (k (by simp [hl.symm])).trans (empty ..)) hout ((set_out hout _ _).trans hx')
  obtain ⟨_, -, h, e1⟩ := bind_run_ok h
  rw [e1]
  clear e1
  rw [h1] at h ⊢
  dsimp only at h ⊢
  obtain ⟨_, r2, h, e1⟩ := bind_run_ok h
  rw [e1]
  clear e1
  cases hr : readInputs wb with
  | error e =>
    rw [hr] at x1
    rw [x1] at r2
    cases r2
  | ok base =>
  rw [hr] at x1
  obtain ⟨y1, y2, y3⟩ := x1
  have base0 : (fun n => if n = baseFile then some base else none : Dir Container) baseFile = some base := if_pos rfl
  obtain ⟨p1, p2⟩ := para_run (E := E) y2 base0 y3
  obtain ⟨sizes, r3, h, e1⟩ := bind_run_ok h
  rw [e1]
  clear e1
  cases hz : (do let pa ← rangesOf base.parametric; combos pa) with
  | error e =>
    rw [hz] at p1
    rw [p1] at r3
    cases r3
  | ok sizes' =>
  rw [hz] at p1
  obtain ⟨q1, q2, q3, q4⟩ := p1
  cases Except.ok.inj (q1.symm.trans r3)
  obtain ⟨pa, hpa, hco⟩ : ∃ pa, rangesOf base.parametric = .ok pa ∧ combos pa = .ok sizes := by
    simpa only [FixedOrder.except_bind_ok] using hz
  have m1 := makePickles_run (ss := sizes) q2 base0
  have mt := makePickles_touches (root := root) sizes
    (para E root (readExcel (do let _ ← Disk.valid (.path x)) (readWorkbook x) E root g).disk).disk
  obtain ⟨_, r4, h, e1⟩ := bind_run_ok h
  rw [e1]
  clear e1
  have m2 : NoOut root (makePickles root sizes
      (para E root (readExcel (do let _ ← Disk.valid (.path x)) (readWorkbook x) E root g).disk).disk).disk :=
    (p2 _ (List.mem_cons_self ..)).congr (mt _ (List.mem_cons_self ..)) fun n r rest ⟨i, e⟩ => by
      have := List.append_cancel_left e
      simp at this
  cases hdi : createPickles base sizes (fun n => if n = baseFile then some base else none) with
  | error e =>
    rw [hdi] at m1
    rw [m1] at r4
    cases r4
  | ok dir =>
  rw [hdi] at m1
  obtain ⟨m3, m4⟩ := m1
  have km := fun q hq => mt _ (List.mem_cons_self ..) q hq
  have m5 : ∀ s ∈ sizes, _ := fun s hs => (km (root ++ [outDir, folderName s]) (fun ⟨i, e⟩ => by
    have := List.append_cancel_left e
    simp [in_ne_out.symm] at this)).trans (q3 s hs)
  have hset := setup_dir (L := L) (gekko := gekko) hr hpa hco hdi
  obtain ⟨P1, -⟩ := createPickles_ok hdi
  generalize (makePickles root sizes
    (para E root (readExcel (do let _ ← Disk.valid (.path x)) (readWorkbook x) E root g).disk).disk).disk = fs2 at *
  cases sizes with
  | nil => cases h
  | cons s ss =>
    obtain ⟨c, -, hc⟩ := P1 s (List.mem_cons_self ..)
    have hfile : fs2 (root ++ [inDir, folderName s ++ ".pkl".toList]) = some (.file (.inputs c)) := by
      rw [m4.files]
      show (dir (pickleName s)).map _ = _
      rw [hc]; rfl
    dsimp only at h hset ⊢
    rw [hc] at hset
    dsimp only at hset
    rw [bind_still (readContainer_some hfile)] at h ⊢
    obtain ⟨v, hv, h, e1⟩ := bind_run_ok h
    rw [e1]
    obtain ⟨n, hn, h, e2⟩ := bind_run_ok h
    rw [e2]
    obtain ⟨first, hf, h, e3⟩ := bind_run_ok h
    rw [e3]
    cases Except.ok.inj h
    have hv' : Pandas.Dict.get c.controller.info "controller" = .ok v := hv
    have hn' : (do natOf (← Pandas.Dict.get c.controller.info "total_timesteps")) = .ok n := hn
    have hf' : (do natOf (← Pandas.Dict.get c.controller.info "first_hour")) = .ok first := hf
    rw [hv', okBind, hn', okBind, hf', okBind] at hset
    exact ⟨rfl, dir, m4, m5, m2, hset⟩

/-- What is under the name of the results while a combination is solved and plotted alone. -/
theorem both_results {L : Libs} {gekko : Gekko} {E : FPath → Removal} {wb : Pandas.Workbook} {o : Opened}
    {fs : FS Data} {dir : Dir Container} (h : Ready L gekko wb o fs dir) {z : ℤ × ℤ} (hz : z ∈ o.sizes) {g : FS Data}
    (hg : g = fs ∨ g ∈ (both (Prog.solve L gekko o.root o.controller o.first o.n) (Prog.plot E o.root)
      (folderName z) fs).seen) {v : Node Data} (hv : g (o.root ++ [outDir, folderName z, resultsName]) = some v) :
    v = .file .torn ∨ ∃ r, v = .file (.results r) ∧
      solver L gekko o.controller o.first o.n dir (folderName z) = .ok r := by
  rcases hg with rfl | hg
  · rw [h.empty] at hv; cases hv
  have hsol := solve_run (L := L) (gekko := gekko) (v := o.controller) (first := o.first) (n := o.n) h.inputs
    (h.folders z hz) (by rw [h.empty]; simp)
  unfold both at hg
  rw [solve_steps, plot_steps] at hg
  cases hr : solver L gekko o.controller o.first o.n dir (folderName z) with
  | error e =>
    rw [hr] at hsol
    dsimp only at hsol
    rw [bind_stop hsol] at hg
    exact absurd hg (by simp)
  | ok r =>
    rw [hr] at hsol
    dsimp only at hsol
    rw [bind_run hsol] at hg
    rcases List.mem_append.mp hg with hg | hg
    · simp only [List.mem_cons, List.not_mem_nil, or_false] at hg
      rcases hg with rfl | rfl
      · rw [set_self] at hv; cases hv; exact .inl rfl
      · rw [set_self] at hv; cases hv; exact .inr ⟨r, rfl, rfl⟩
    · have pt := plot_touches (E := E) (root := o.root) (folderName z) _ g (List.mem_cons_of_mem _ hg)
      rw [pt _ fun ⟨p, rest, e⟩ => by
        have := List.append_cancel_left e
        simp only [List.cons.injEq, true_and] at this
        exact periodName_ne_results p this.1.symm, set_self] at hv
      cases hv
      exact .inr ⟨r, rfl, rfl⟩

end Disk
end Verif
