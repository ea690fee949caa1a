import Verif.Lemmas.Disk
import Verif.Props.Para
import Verif.Props.KpiTables
import Verif.Lemmas.Programme

/-!
# Lemmas for `Verif.Props.DiskRun`: the stages of `main` on the disk give what the stages on values give
-/

set_option autoImplicit false

namespace Verif
namespace Disk
open Files Para Programme Report InputReader Simulation Workbook Spec

variable {α β : Type} {root : FPath} {E : FPath → Removal}

/-! ## Single operations -/

theorem bind_still {m : Op α} {f : α → Op β} {fs : FS Data} {a : α} (h : m fs = ⟨.ok a, fs, []⟩) :
    (m >>= f) fs = f a fs := by
  rw [bind_ok (m := m) (fs := fs) (a := a) (by rw [h]), h]
  rfl

theorem bind_stop {m : Op α} {f : α → Op β} {fs : FS Data} {e : PyErr} (h : m fs = ⟨.error e, fs, []⟩) :
    (m >>= f) fs = ⟨.error e, fs, []⟩ := by
  rw [bind_error (m := m) (fs := fs) (e := e) (by rw [h]), h]

theorem bind_run {m : Op α} {f : α → Op β} {fs g : FS Data} {a : α} {l : List (FS Data)} (h : m fs = ⟨.ok a, g, l⟩) :
    (m >>= f) fs = ⟨(f a g).result, (f a g).disk, l ++ (f a g).seen⟩ := by
  rw [bind_ok (m := m) (fs := fs) (a := a) (by rw [h]), h]

theorem lift_bind (v : Except PyErr α) (f : α → Op β) (fs : FS Data) : (lift v >>= f) fs =
    match v with
    | .ok a => f a fs
    | .error e => ⟨.error e, fs, []⟩ := by
  cases v with
  | ok a => exact bind_still rfl
  | error e => exact bind_stop rfl

/-- A disk with one more entry. -/
def set (fs : FS Data) (p : FPath) (v : Node Data) : FS Data := fun q => if q = p then some v else fs q

theorem set_self (fs : FS Data) (p : FPath) (v : Node Data) : set fs p v p = some v := if_pos rfl
theorem set_ne {fs : FS Data} {p q : FPath} {v : Node Data} (h : q ≠ p) : set fs p v q = fs q := if_neg h

theorem set_at_ne {fs : FS Data} {p q : FPath} {v : Node Data} (h : q ≠ p) :
    set fs (root ++ p) v (root ++ q) = fs (root ++ q) := set_ne fun e => h (List.append_cancel_left e)

theorem makeDir_at {fs : FS Data} {rest : FPath} {n : Name} (h : fs (root ++ (rest ++ [n])) = none)
    (hd : fs (root ++ rest) = some .dir) : makeDir (root ++ (rest ++ [n])) fs =
      ⟨.ok (), set fs (root ++ (rest ++ [n])) .dir, [set fs (root ++ (rest ++ [n])) .dir]⟩ := by
  unfold makeDir mkdir
  rw [h, dropLast_root, hd]
  rfl

theorem freshDir_at {fs : FS Data} {rest : FPath} {n : Name} (h : fs (root ++ (rest ++ [n])) = none)
    (hd : fs (root ++ rest) = some .dir) : freshDir E (root ++ (rest ++ [n])) fs =
      ⟨.ok (), set fs (root ++ (rest ++ [n])) .dir, [set fs (root ++ (rest ++ [n])) .dir]⟩ := by
  rw [← makeDir_at h hd]
  unfold freshDir
  rw [h]

theorem write_at {fs : FS Data} {rest : FPath} {n : Name} (v : Data) (h : fs (root ++ (rest ++ [n])) ≠ some .dir)
    (hd : fs (root ++ rest) = some .dir) : write (root ++ (rest ++ [n])) v fs =
      ⟨.ok (), set fs (root ++ (rest ++ [n])) (.file v),
        [set fs (root ++ (rest ++ [n])) (.file .torn), set fs (root ++ (rest ++ [n])) (.file v)]⟩ := by
  rcases write_cases (root ++ (rest ++ [n])) v fs with ⟨e, he⟩ | ⟨-, -, he⟩
  · exfalso
    unfold write at he
    rw [dropLast_root, hd] at he
    cases hp : fs (root ++ (rest ++ [n])) with
    | none => rw [hp] at he; exact Except.noConfusion rfl rfl (heq_of_eq (congrArg Done.result he))
    | some w => cases w with
      | dir => exact h hp
      | file c => rw [hp] at he; exact Except.noConfusion rfl rfl (heq_of_eq (congrArg Done.result he))
  · exact he

theorem read_some {fs : FS Data} {p : FPath} {v : Data} (h : fs p = some (.file v)) : read p fs = ⟨.ok v, fs, []⟩ := by
  unfold read
  rw [h]

theorem read_none {fs : FS Data} {p : FPath} (h : fs p = none) : read p fs = ⟨.error .fileNotFoundError, fs, []⟩ := by
  unfold read
  rw [h]

theorem readContainer_some {fs : FS Data} {p : FPath} {c : Container} (h : fs p = some (.file (.inputs c))) :
    readContainer p fs = ⟨.ok c, fs, []⟩ := bind_still (read_some h)
theorem readContainer_none {fs : FS Data} {p : FPath} (h : fs p = none) :
    readContainer p fs = ⟨.error .fileNotFoundError, fs, []⟩ := bind_stop (read_none h)
theorem readOutcome_some {fs : FS Data} {p : FPath} {o : Programme.Outcome} (h : fs p = some (.file (.results o))) :
    readOutcome p fs = ⟨.ok o, fs, []⟩ := bind_still (read_some h)
theorem readWorkbook_some {fs : FS Data} {p : FPath} {wb : Pandas.Workbook} (h : fs p = some (.file (.workbook wb))) :
    readWorkbook p fs = ⟨.ok wb, fs, []⟩ := bind_still (read_some h)

/-! ## Several files in one folder -/

/-- Writing files with different names in a folder. -/
theorem each_write {rest : FPath} {nm : β → Name} {v : β → Data} {bs : List β} (hn : (bs.map nm).Nodup) {fs : FS Data}
    (hd : fs (root ++ rest) = some .dir) (hf : ∀ b ∈ bs, fs (root ++ (rest ++ [nm b])) ≠ some .dir) :
    (each (fun b => write (root ++ (rest ++ [nm b])) (v b)) bs fs).result = .ok () ∧
    (∀ b ∈ bs, (each (fun b => write (root ++ (rest ++ [nm b])) (v b)) bs fs).disk (root ++ (rest ++ [nm b]))
      = some (.file (v b))) := by
  induction bs generalizing fs with
  | nil => exact ⟨rfl, fun _ h => nomatch h⟩
  | cons b bs ih =>
    obtain ⟨hb, hn⟩ := List.nodup_cons.mp hn
    have hne : ∀ b' ∈ bs, rest ++ [nm b'] ≠ rest ++ [nm b] := fun b' hb' e =>
      hb (by have := List.append_cancel_left e; rw [← List.singleton_inj.mp this]; exact List.mem_map_of_mem hb')
    have h1 := write_at (v b) (hf b (List.mem_cons_self ..)) hd
    obtain ⟨i1, i2⟩ := ih (fs := set fs (root ++ (rest ++ [nm b])) (.file (v b))) hn
      (by rw [set_at_ne (by simp)]; exact hd)
      (fun b' hb' => by rw [set_at_ne (hne b' hb')]; exact hf b' (List.mem_cons_of_mem _ hb'))
    have e : each (fun b => write (root ++ (rest ++ [nm b])) (v b)) (b :: bs) fs = _ := bind_run h1
    rw [e]
    refine ⟨i1, fun b' hb' => ?_⟩
    rcases List.mem_cons.mp hb' with rfl | hb'
    · -- the later files have other names
      have ht : Steps (Except' fun q => ∃ b ∈ bs, q = root ++ (rest ++ [nm b]))
          (each (fun b => write (root ++ (rest ++ [nm b])) (v b)) bs) :=
        Steps.each (along_except _) fun b hb => touches_write _ ⟨b, hb, rfl⟩
      show (each _ bs _).disk _ = _
      rw [ht _ _ (List.mem_cons_self ..) _ (by
        rintro ⟨b, hbm, he⟩
        exact hne b hbm (List.append_cancel_left he).symm), set_self]
    · exact i2 b' hb'

/-! ## The input files -/

/-- The folders of the study, and the input files. -/
structure Inputs (root : FPath) (fs : FS Data) (dir : Dir Container) : Prop where
  top : fs root = some .dir
  ind : fs (root ++ [inDir]) = some .dir
  outd : fs (root ++ [outDir]) = some .dir
  files : ∀ n, fs (root ++ [inDir, n]) = (dir n).map fun c => .file (.inputs c)

theorem in_ne_out : inDir ≠ outDir := by decide

theorem Inputs.congr {fs g : FS Data} {dir : Dir Container} (h : Inputs root fs dir) {T : FPath → Prop}
    (hg : Except' T fs g) (hT : ∀ q, T q → ∃ n rest, q = root ++ outDir :: n :: rest) : Inputs root g dir := by
  have key : ∀ r : FPath, (∀ n rest, r ≠ outDir :: n :: rest) → g (root ++ r) = fs (root ++ r) := fun r hr =>
    hg _ fun ht => by
      obtain ⟨n, rest, e⟩ := hT _ ht
      exact hr n rest (List.append_cancel_left e)
  have k0 := key [] (by simp)
  rw [List.append_nil] at k0
  exact ⟨k0.trans h.top, (key _ (by simp)).trans h.ind, (key _ (by simp)).trans h.outd,
    fun n => (key _ (by simp [in_ne_out])).trans (h.files n)⟩

theorem makePickles_run {base : Container} : ∀ {ss : List (ℤ × ℤ)} {fs : FS Data} {dir : Dir Container},
    Inputs root fs dir → dir baseFile = some base →
    match createPickles base ss dir with
    | .error e => (makePickles root ss fs).result = .error e
    | .ok dir' => (makePickles root ss fs).result = .ok () ∧ Inputs root (makePickles root ss fs).disk dir'
  | [], fs, dir, h, _ => ⟨rfl, h⟩
  | s :: ss, fs, dir, h, hb => by
    have hbase : fs (root ++ [inDir, baseFile]) = some (.file (.inputs base)) := by rw [h.files, hb]; rfl
    have e : makePickles root (s :: ss) fs = (do
        let c ← lift (resizeContainer s base)
        write (root ++ [inDir, pickleName s]) (.inputs c) : Op Unit).bind (fun _ => makePickles root ss) fs := by
      show Op.bind (Op.bind (readContainer _) _) _ fs = _
      unfold Op.bind
      rw [readContainer_some hbase]
      rfl
    unfold Programme.createPickles
    cases hr : resizeContainer s base with
    | error er =>
      show (makePickles root (s :: ss) fs).result = .error er
      rw [e, hr]
      rfl
    | ok c =>
      show match createPickles base ss (dir.put (pickleName s) c) with
        | .error e => _ | .ok dir' => _
      have hw := write_at (root := root) (rest := [inDir]) (n := pickleName s) (.inputs c)
        (by show fs (root ++ [inDir, pickleName s]) ≠ _; rw [h.files]; cases dir (pickleName s) <;> simp) h.ind
      rw [hr] at e
      have e2 := e.trans (bind_run (m := do
          let c ← lift (.ok c)
          write (root ++ [inDir, pickleName s]) (.inputs c)) (f := fun _ => makePickles root ss) hw)
      rw [e2]
      dsimp only
      have hin : Inputs root (set fs (root ++ [inDir, pickleName s]) (.file (.inputs c))) (dir.put (pickleName s) c) := by
        have k : ∀ {q : FPath}, q ≠ [inDir, pickleName s] →
            set fs (root ++ [inDir, pickleName s]) (.file (.inputs c)) (root ++ q) = fs (root ++ q) := set_at_ne
        have k0 := k (q := []) (by simp)
        rw [List.append_nil] at k0
        refine ⟨k0.trans h.top, (k (by simp)).trans h.ind, (k (by simp)).trans h.outd, fun n => ?_⟩
        unfold Dir.put
        by_cases hn : n = pickleName s
        · subst hn; rw [if_pos rfl]; exact set_self ..
        · rw [if_neg hn]; exact (k (by simp [hn])).trans (h.files n)
      exact makePickles_run hin (by
        unfold Dir.put; rw [if_neg (pickleName_ne_base s).symm]; exact hb)

theorem makePickles_touches (ss : List (ℤ × ℤ)) :
    Steps (Except' fun q => ∃ n, q = root ++ [inDir, n]) (makePickles root ss) :=
  Steps.each (along_except _) fun s _ => Steps.bind (along_except _) (Steps.readContainer (along_except _) _) fun _ =>
    Steps.bind (along_except _) (Steps.lift (along_except _) _) fun _ => touches_write _ ⟨pickleName s, rfl⟩

/-! ## The folders of the combinations -/

theorem folders_run : ∀ {ss : List (ℤ × ℤ)} {fs : FS Data}, ss.Nodup → fs (root ++ [outDir]) = some .dir →
    (∀ s ∈ ss, fs (root ++ [outDir, folderName s]) = none) →
    (each (fun s => freshDir E (root ++ [outDir, folderName s])) ss fs).result = .ok () ∧
    (∀ q, (∀ s ∈ ss, q ≠ root ++ [outDir, folderName s]) →
      ∀ g ∈ (each (fun s => freshDir E (root ++ [outDir, folderName s])) ss fs).states, g q = fs q) ∧
    ∀ s ∈ ss, (each (fun s => freshDir E (root ++ [outDir, folderName s])) ss fs).disk
      (root ++ [outDir, folderName s]) = some .dir
  | [], fs, _, _, _ => ⟨rfl, fun _ _ g hg => by
      have : g = fs := List.mem_singleton.mp hg
      rw [this], fun _ h => nomatch h⟩
  | s :: ss, fs, hn, hd, hf => by
    obtain ⟨hs, hn⟩ := List.nodup_cons.mp hn
    have hne : ∀ s' ∈ ss, [outDir, folderName s'] ≠ [outDir, folderName s] := fun s' h' e => by
      have : folderName s' = folderName s := by simpa using e
      exact hs (folderName_inj this ▸ h')
    have h1 := freshDir_at (root := root) (E := E) (rest := [outDir]) (n := folderName s) (hf s (List.mem_cons_self ..)) hd
    obtain ⟨i1, i2, i3⟩ := folders_run (fs := set fs (root ++ [outDir, folderName s]) .dir) (ss := ss) hn
      (by rw [set_at_ne (by simp)]; exact hd)
      (fun s' h' => by rw [set_at_ne (hne s' h')]; exact hf s' (List.mem_cons_of_mem _ h'))
    have e : each (fun s => freshDir E (root ++ [outDir, folderName s])) (s :: ss) fs = _ := bind_run h1
    rw [e]
    have hq : ∀ q, (∀ s' ∈ s :: ss, q ≠ root ++ [outDir, folderName s']) →
        set fs (root ++ [outDir, folderName s]) .dir q = fs q := fun q hq => set_ne (hq s (List.mem_cons_self ..))
    refine ⟨i1, fun q hqs g hg => ?_, fun s' h' => ?_⟩
    · have hi := i2 q (fun s' h' => hqs s' (List.mem_cons_of_mem _ h'))
      unfold Done.states at hg hi
      simp only [List.mem_cons, List.mem_append, List.not_mem_nil, or_false] at hg hi
      rcases hg with rfl | rfl | hg
      · exact (hi _ (.inl rfl)).trans (hq q hqs)
      · exact hq q hqs
      · exact (hi _ (.inr hg)).trans (hq q hqs)
    · rcases List.mem_cons.mp h' with rfl | h'
      · exact (i2 _ (fun s'' h'' he => hne s'' h'' (List.append_cancel_left he).symm) _ (List.mem_cons_self ..)).trans
          (set_self ..)
      · exact i3 s' h'

/-! ## The figures -/

theorem drawn_shape {rs : List (Results (List ℚ))} {n first : ℕ} {pb : Figures.Period × Bool} {D : Figures.Drawn}
    (h : Figures.drawPeriod rs n first pb = .ok D) : D.period = pb.1 ∧ D.bars.isSome = pb.2 := by
  unfold Figures.drawPeriod at h
  cases hd : Figures.draw ⟨rs, n, first, pb.1⟩ with
  | error e => rw [hd] at h; cases h
  | ok d =>
    rw [hd] at h
    obtain ⟨p, b⟩ := pb
    cases b with
    | false => cases Except.ok.inj h; exact ⟨rfl, rfl⟩
    | true =>
      cases hb : Figures.resBar ⟨rs, n, first, p⟩ with
      | error e =>
        have h' : (Except.error e : Except PyErr Figures.Drawn) = .ok D := by
          rw [← h]; simp only [hb]; rfl
        cases h'
      | ok b =>
        have h' : (Except.ok ⟨p, d.1, d.2, some b⟩ : Except PyErr Figures.Drawn) = .ok D := by
          rw [← h]; simp only [hb]; rfl
        cases Except.ok.inj h'; exact ⟨rfl, rfl⟩

theorem figureNames_nodup (b : Bool) : (figureNames b).Nodup := by cases b <;> decide

theorem periodName_ne_results (p : Figures.Period) : periodName p ≠ resultsName := by cases p <;> decide

/-- Where the figures of a combination go. -/
def Figs (root : FPath) (name : Name) (q : FPath) : Prop :=
  ∃ p rest, q = root ++ outDir :: name :: periodName p :: rest

theorem plotPeriod_touches (name : Name) (pb : Figures.Period × Bool) :
    Steps (Except' fun q => ∃ rest, q = root ++ outDir :: name :: periodName pb.1 :: rest)
      (plotPeriod E root name pb) := by
  have A := along_except fun q => ∃ rest, q = root ++ outDir :: name :: periodName pb.1 :: rest
  refine Steps.bind A (Steps.readOutcome A _) fun _ => Steps.bind A (Steps.readContainer A _) fun _ =>
    Steps.bind A (Steps.lift A _) fun _ => Steps.bind A (Steps.lift A _) fun _ =>
    Steps.bind A (touches_freshDir E ?_) fun _ => Steps.bind A (Steps.lift A _) fun _ =>
    Steps.each A fun f _ => touches_write _ ⟨[f], rfl⟩
  rintro q ⟨r, rfl⟩
  exact ⟨r, by simp⟩

theorem plot_touches (name : Name) : Steps (Except' (Figs root name)) (plot E root name) := by
  have A := along_except (Figs root name)
  refine Steps.bind A (Steps.readContainer A _) fun _ => Steps.bind A (Steps.lift A _) fun _ =>
    Steps.each A fun pb _ fs s hs q hq => ?_
  exact plotPeriod_touches name pb fs s hs q fun ⟨rest, h⟩ => hq ⟨pb.1, rest, h⟩

/-- What plotting reads. -/
structure Readable (root : FPath) (fs : FS Data) (name : Name) (o : Programme.Outcome) (c : Container) : Prop where
  folder : fs (root ++ [outDir, name]) = some .dir
  outcome : fs (root ++ [outDir, name, resultsName]) = some (.file (.results o))
  inputs : fs (root ++ [inDir, name ++ ".pkl".toList]) = some (.file (.inputs c))

theorem Readable.congr {fs g : FS Data} {name : Name} {o : Programme.Outcome} {c : Container}
    (h : Readable root fs name o c) (hg : Except' (Figs root name) fs g) : Readable root g name o c := by
  have k : ∀ r : FPath, (∀ p rest, r ≠ outDir :: name :: periodName p :: rest) → g (root ++ r) = fs (root ++ r) :=
    fun r hr => hg _ fun ⟨p, rest, e⟩ => hr p rest (List.append_cancel_left e)
  exact ⟨(k _ (by simp)).trans h.folder, (k _ fun p rest e => periodName_ne_results p (by
    simp only [List.cons.injEq, true_and] at e; exact e.1.symm)).trans h.outcome,
    (k _ (by simp [in_ne_out])).trans h.inputs⟩

theorem plotPeriod_run {fs : FS Data} {name : Name} {o : Programme.Outcome} {c : Container}
    (h : Readable root fs name o c) {n first : ℕ}
    (hn : (do natOf (← Pandas.Dict.get c.controller.info "total_timesteps")) = .ok n)
    (hf : (do natOf (← Pandas.Dict.get c.controller.info "first_hour")) = .ok first) {pb : Figures.Period × Bool}
    (hempty : ∀ rest, fs (root ++ outDir :: name :: periodName pb.1 :: rest) = none) :
    match Figures.drawPeriod (rows o) n first pb with
    | .error e => (plotPeriod E root name pb fs).result = .error e
    | .ok D => (plotPeriod E root name pb fs).result = .ok () ∧ ∀ f ∈ figureNames D.bars.isSome,
        (plotPeriod E root name pb fs).disk (root ++ [outDir, name, periodName D.period, f])
          = some (.file (.figure D)) := by
  have h1 := freshDir_at (root := root) (E := E) (rest := [outDir, name]) (n := periodName pb.1) (hempty []) h.folder
  let k : Op Unit := do
    let d ← lift (Figures.drawPeriod (rows o) n first pb)
    each (fun f => write (root ++ [outDir, name, periodName pb.1, f]) (.figure d)) (figureNames pb.2)
  let g := set fs (root ++ ([outDir, name] ++ [periodName pb.1])) .dir
  have e : plotPeriod E root name pb fs = ⟨(k g).result, (k g).disk, [g] ++ (k g).seen⟩ := by
    unfold plotPeriod
    rw [bind_still (readOutcome_some h.outcome), bind_still (readContainer_some h.inputs), lift_bind, hn]
    dsimp only
    rw [lift_bind, hf]
    exact bind_run h1
  cases hd : Figures.drawPeriod (rows o) n first pb with
  | error er =>
    show (plotPeriod E root name pb fs).result = .error er
    rw [e]
    show (k g).result = _
    simp only [k, lift_bind, hd]
  | ok D =>
    obtain ⟨hp, hb⟩ := drawn_shape hd
    have hw := each_write (root := root) (rest := [outDir, name, periodName pb.1]) (nm := fun f : Name => f)
      (v := fun _ => .figure D) (bs := figureNames pb.2) (by simpa using figureNames_nodup pb.2)
      (fs := set fs (root ++ ([outDir, name] ++ [periodName pb.1])) .dir) (set_self ..) (fun f _ => by
        rw [set_at_ne (by simp)]
        show fs (root ++ outDir :: name :: periodName pb.1 :: [f]) ≠ _
        rw [hempty]; simp)
    show (plotPeriod E root name pb fs).result = .ok () ∧ _
    rw [hp, hb, e]
    have ek : k g = each (fun f => write (root ++ [outDir, name, periodName pb.1, f]) (.figure D)) (figureNames pb.2) g := by
      simp only [k, lift_bind, hd]
    rw [ek]
    exact hw

theorem periods_run {name : Name} {o : Programme.Outcome} {c : Container} {n first : ℕ}
    (hn : (do natOf (← Pandas.Dict.get c.controller.info "total_timesteps")) = .ok n)
    (hf : (do natOf (← Pandas.Dict.get c.controller.info "first_hour")) = .ok first) :
    ∀ {pbs : List (Figures.Period × Bool)} {fs : FS Data}, Readable root fs name o c →
    (pbs.map fun pb => periodName pb.1).Nodup →
    (∀ pb ∈ pbs, ∀ rest, fs (root ++ outDir :: name :: periodName pb.1 :: rest) = none) →
    match pbs.mapM (Figures.drawPeriod (rows o) n first) with
    | .error e => (each (plotPeriod E root name) pbs fs).result = .error e
    | .ok ds => (each (plotPeriod E root name) pbs fs).result = .ok () ∧ (∀ D ∈ ds, ∃ pb ∈ pbs, D.period = pb.1) ∧
        ∀ D ∈ ds, ∀ f ∈ figureNames D.bars.isSome,
        (each (plotPeriod E root name) pbs fs).disk (root ++ [outDir, name, periodName D.period, f])
          = some (.file (.figure D))
  | [], fs, _, _, _ => ⟨rfl, fun _ h => (nomatch h), fun _ h => nomatch h⟩
  | pb :: pbs, fs, h, hnd, hempty => by
    obtain ⟨hpb, hnd⟩ := List.nodup_cons.mp hnd
    have h1 := plotPeriod_run (E := E) h hn hf (hempty pb (List.mem_cons_self ..))
    have ht := plotPeriod_touches (E := E) (root := root) name pb fs _ (List.mem_cons_self ..)
    rw [List.mapM_cons]
    cases hd : Figures.drawPeriod (rows o) n first pb with
    | error e =>
      rw [hd] at h1
      show (each (plotPeriod E root name) (pb :: pbs) fs).result = .error e
      have e2 : each (plotPeriod E root name) (pb :: pbs) fs = _ := bind_error h1
      rw [e2]
    | ok D =>
      rw [hd] at h1
      obtain ⟨r1, r2⟩ := h1
      have e2 : each (plotPeriod E root name) (pb :: pbs) fs = _ := bind_ok r1
      have hg : Except' (Figs root name) fs (plotPeriod E root name pb fs).disk := fun q hq =>
        ht q fun ⟨rest, he⟩ => hq ⟨pb.1, rest, he⟩
      have hne : ∀ pb' ∈ pbs, periodName pb'.1 ≠ periodName pb.1 := fun pb' hm e =>
        hpb (List.mem_map.mpr ⟨pb', hm, e⟩)
      have ih := periods_run hn hf (pbs := pbs) (h.congr hg) hnd (fun pb' hm rest => by
        rw [ht _ (by
          rintro ⟨rest', he⟩
          have := List.append_cancel_left he
          simp only [List.cons.injEq, true_and] at this
          exact hne pb' hm this.1)]
        exact hempty pb' (List.mem_cons_of_mem _ hm) rest)
      rw [e2]
      show match (do let bs ← pbs.mapM (Figures.drawPeriod (rows o) n first); pure (D :: bs) : Except PyErr _) with
        | .error e => _ | .ok ds => _
      cases hm : pbs.mapM (Figures.drawPeriod (rows o) n first) with
      | error er => rw [hm] at ih; exact ih
      | ok ds =>
        rw [hm] at ih
        obtain ⟨i1, i2, i3⟩ := ih
        have hp := (drawn_shape hd).1
        refine ⟨i1, fun D' hD => ?_, fun D' hD f hf' => ?_⟩
        · rcases List.mem_cons.mp hD with rfl | hD
          · exact ⟨pb, List.mem_cons_self .., hp⟩
          · obtain ⟨pb', hm', e'⟩ := i2 D' hD
            exact ⟨pb', List.mem_cons_of_mem _ hm', e'⟩
        · rcases List.mem_cons.mp hD with rfl | hD
          · have hs : Steps (Except' fun q => ∃ pb' ∈ pbs, ∃ rest, q = root ++ outDir :: name :: periodName pb'.1 :: rest)
                (each (plotPeriod E root name) pbs) :=
              Steps.each (along_except _) fun pb' hm' fs s hs q hq =>
                plotPeriod_touches name pb' fs s hs q fun ⟨rest, he⟩ => hq ⟨pb', hm', rest, he⟩
            show (each (plotPeriod E root name) pbs _).disk _ = _
            rw [hs _ _ (List.mem_cons_self ..) _ (by
              rintro ⟨pb', hm', rest, he⟩
              have := List.append_cancel_left he
              simp only [List.cons.injEq, true_and] at this
              rw [hp] at this
              exact hne pb' hm' this.1.symm)]
            exact r2 f hf'
          · exact i3 D' hD f hf'

theorem periods_nodup (n : ℕ) : ((Figures.periods n).map fun pb => periodName pb.1).Nodup := by
  unfold Figures.periods
  split_ifs <;> decide

/-- `run_plots` on the disk raises what `Report.plots` raises, and leaves the figures it draws. -/
theorem plot_run {fs : FS Data} {dir : Dir Container} {name : Name} {o : Programme.Outcome}
    (hin : Inputs root fs dir) (hfold : fs (root ++ [outDir, name]) = some .dir)
    (ho : fs (root ++ [outDir, name, resultsName]) = some (.file (.results o)))
    (hempty : ∀ p rest, fs (root ++ outDir :: name :: periodName p :: rest) = none) :
    (plot E root name fs).result = (match (plots dir name o).2 with | none => .ok () | some e => .error e) ∧
    ∀ D ∈ (plots dir name o).1, ∀ f ∈ figureNames D.bars.isSome,
      (plot E root name fs).disk (root ++ [outDir, name, periodName D.period, f]) = some (.file (.figure D)) := by
  have hfile := hin.files (name ++ ".pkl".toList)
  unfold plots
  cases hc : dir (name ++ ".pkl".toList) with
  | none =>
    rw [hc] at hfile
    have e : plot E root name fs = _ := bind_stop (readContainer_none hfile)
    rw [e]
    exact ⟨rfl, fun _ h => nomatch h⟩
  | some c =>
    rw [hc] at hfile
    have e : plot E root name fs = _ := bind_still (readContainer_some hfile)
    rw [e, lift_bind]
    dsimp only
    have ed : (do
        let n ← natOf (← Pandas.Dict.get c.controller.info "total_timesteps")
        let first ← natOf (← Pandas.Dict.get c.controller.info "first_hour")
        Figures.runPlots (rows o) n first) = (do
        let n ← (do natOf (← Pandas.Dict.get c.controller.info "total_timesteps"))
        let first ← (do natOf (← Pandas.Dict.get c.controller.info "first_hour"))
        Figures.runPlots (rows o) n first : Except PyErr _) := by simp only [bind_assoc]
    rw [ed]
    cases hn : (do natOf (← Pandas.Dict.get c.controller.info "total_timesteps")) with
    | error er => exact ⟨rfl, fun _ h => nomatch h⟩
    | ok n =>
      cases hf : (do natOf (← Pandas.Dict.get c.controller.info "first_hour")) with
      | error er =>
        obtain ⟨pb, pbs, hp⟩ : ∃ pb pbs, Figures.periods n = pb :: pbs := by
          unfold Figures.periods; split_ifs <;> exact ⟨_, _, rfl⟩
        have e1 : (plotPeriod E root name pb fs).result = .error er := by
          unfold plotPeriod
          rw [bind_still (readOutcome_some ho), bind_still (readContainer_some hfile), lift_bind, hn]
          dsimp only
          rw [lift_bind, hf]
        have e2 : (each (plotPeriod E root name) (Figures.periods n) fs).result = .error er := by
          rw [hp]
          exact congrArg Done.result (bind_error (f := fun _ => each (plotPeriod E root name) pbs) e1)
        exact ⟨e2, fun _ h => nomatch h⟩
      | ok first =>
        have hr : Readable root fs name o c := ⟨hfold, ho, hfile⟩
        have := periods_run (E := E) hn hf hr (periods_nodup n) fun pb _ rest => hempty pb.1 rest
        show (each (plotPeriod E root name) (Figures.periods n) fs).result =
            (match (match Figures.runPlots (rows o) n first with
              | .ok ds => (ds, none) | .error e => ([], some e) : List Figures.Drawn × Option PyErr).2 with
              | none => .ok () | some e => .error e) ∧
          ∀ D ∈ (match Figures.runPlots (rows o) n first with
              | .ok ds => (ds, none) | .error e => ([], some e) : List Figures.Drawn × Option PyErr).1, _
        unfold Figures.runPlots
        cases hm : (Figures.periods n).mapM (Figures.drawPeriod (rows o) n first) with
        | error er => rw [hm] at this; exact ⟨this, fun _ h => nomatch h⟩
        | ok ds => rw [hm] at this; exact ⟨this.1, this.2.2⟩

end Disk
end Verif
