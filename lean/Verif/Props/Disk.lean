import Verif.Lemmas.Disk

/-!
# What a run of `main` leaves on the disk (C120)
-/

set_option autoImplicit false

namespace Verif
open Files Para Disk Programme Simulation

/-! ## Vocabulary -/

/-- Directories are removed after what is in them. -/
def Spec.ChildrenFirst (E : FPath → Removal) : Prop :=
  ∀ p, ∀ gone ∈ (E p).stages, ∀ q n, gone q = true → gone (q ++ [n]) = true

/-- There is no file where the folder of the study goes. -/
def Spec.NoFileAt (fs : FS Data) (p : FPath) : Prop := ∀ c, fs p ≠ some (.file c)

/-- What may have happened to the disk `a` in the output directory `d`: any number of runs, with any workbooks of
this name, with or without the flag, each ended or cut off anywhere. -/
inductive Spec.History (d : FPath) (base : Name) (a : FS Data) : FS Data → Prop
  | nothing : Spec.History d base a a
  | run {L : Libs} {gekko : Gekko} {E : FPath → Removal} {x : FPath} {overwrite : Bool} {b c : FS Data} :
      Spec.History d base a b → Spec.Workbook x base → Spec.ChildrenFirst E →
      c ∈ (Disk.main L gekko E (.path x) (.path d) overwrite b).states → Spec.History d base a c

open Spec

variable {L : Libs} {gekko : Gekko} {E : FPath → Removal} {x d : FPath} {base : Name} {overwrite : Bool}

/-- A disk with a workbook, an output directory and the results of an earlier run. -/
def Spec.studyDisk (wb : Pandas.Workbook) : FS Data := fun p =>
  if p = [] ∨ p = [['d']] ∨ p = [['d'], ['w']] then some .dir
  else if p = ["w.xlsx".toList] then some (.file (.workbook wb))
  else if p = [['d'], ['w'], ['r']] then some (.file (.other [1]))
  else none

/-- `rmtree` removes the file of the earlier run first. -/
def Spec.sampleRemoval : FPath → Removal := fun _ => ⟨[fun p => [['d'], ['w'], ['r']].isPrefixOf p], none⟩

theorem studyDisk_tree (wb : Pandas.Workbook) : Tree (studyDisk wb) := by
  intro p n h
  have key : ∀ m : FPath, ∀ a : Name, p ++ [n] = m ++ [a] → p = m := fun m a h => (List.append_inj' h rfl).1
  unfold studyDisk at h
  split_ifs at h with h1 h2 h3
  · rcases h1 with h1 | h1 | h1
    · simp at h1
    · rw [key [] _ h1]; exact if_pos (by decide)
    · rw [key [['d']] _ h1]; exact if_pos (by decide)
  · rw [key [] _ h2]; exact if_pos (by decide)
  · rw [key [['d'], ['w']] _ h3]; exact if_pos (by decide)
  · exact absurd rfl h

theorem studyDisk_book (wb : Pandas.Workbook) : studyDisk wb ["w.xlsx".toList] = some (.file (.workbook wb)) := by
  unfold studyDisk
  rw [if_neg (by decide), if_pos (by decide)]

theorem studyDisk_dir (wb : Pandas.Workbook) : studyDisk wb [['d']] = some .dir := if_pos (by decide)

theorem studyDisk_folder (wb : Pandas.Workbook) : studyDisk wb ([['d']] ++ [['w']]) = some .dir := if_pos (by decide)

theorem sample_workbook : Spec.Workbook ["w.xlsx".toList] ['w'] ∧ Ordinary ['w'] ∧
    ¬ Below ([['d']] ++ [['w']]) ["w.xlsx".toList] :=
  ⟨⟨[], "xlsx".toList, by decide, by decide, by decide⟩, by unfold Ordinary; decide, by unfold Below; decide⟩

theorem sampleRemoval_order : ChildrenFirst sampleRemoval := by
  intro p g hg q n hq
  rw [List.mem_singleton.mp hg] at hq ⊢
  exact List.isPrefixOf_iff_prefix.mpr ((List.isPrefixOf_iff_prefix.mp hq).trans (List.prefix_append ..))

/-! ## Steps of the preparation -/

theorem makeRoot_steps {R : FS Data → FS Data → Prop} (hR : Along R) {root : FPath}
    (hm : Steps R (makeDir root)) (hr : Steps R (removeTree E root)) : Steps R (makeRoot E overwrite root) := by
  have h2 := Steps.bind hR hr fun _ => hm
  intro fs
  unfold makeRoot
  split
  · exact hm fs
  · split_ifs
    · exact h2 fs
    · exact Steps.fail hR _ fs
  · split_ifs <;> exact Steps.fail hR _ fs

/-- A relation kept by the operations in the folder of the study is kept by `main`. -/
theorem main_steps {R : FS Data → FS Data → Prop} (hR : Along R) (hw : Workbook x base) (hb : Ordinary base)
    (hm : Steps R (makeDir (d ++ [base]))) (hr : Steps R (removeTree E (d ++ [base])))
    (hf : ∀ rest n, Steps R (freshDir E (d ++ [base] ++ (rest ++ [n]))))
    (hwr : ∀ rest n v, Steps R (write (d ++ [base] ++ (rest ++ [n])) v)) :
    Steps R (Disk.main L gekko E (.path x) (.path d) overwrite) := by
  intro fs s hs
  unfold Disk.main at hs
  rcases mem_states_bind hs with h | ⟨x', hx', h⟩
  · exact Steps.valid hR _ fs s h
  rcases mem_states_bind h with h | ⟨d', hd', h⟩
  · exact Steps.valid hR _ fs s h
  have ex : x' = x := by
    unfold Disk.valid validPath at hx'
    cases hfx : fs x with
    | none => simp [hfx] at hx'
    | some v => simpa [hfx] using hx'.symm
  have ed : d' = d := by
    unfold Disk.valid validPath at hd'
    dsimp only at hd'
    cases hfx : fs d with
    | none => simp [hfx] at hd'
    | some v => simpa [hfx] using hd'.symm
  subst ex ed
  rw [target_eq hw hb] at h
  have hc := closed_steps hR hf hwr
  exact Steps.bind hR (makeRoot_steps hR hm hr) (fun _ => hc.body
    (Steps.bind hR (Steps.valid hR _) fun _ => Steps.pure hR ()) (Steps.readWorkbook hR _) L gekko _) fs s h

/-! ## Nothing else is touched -/

/-- **Nothing outside the folder of the study is touched.** Wherever a run ends or is cut off, whatever is not at
or below the folder of the study is as it was. -/
theorem C120_outside_untouched (hw : Workbook x base) (hb : Ordinary base) (fs : FS Data) :
    ∀ s ∈ (Disk.main L gekko E (.path x) (.path d) overwrite fs).states, ∀ q, ¬ Below (d ++ [base]) q → s q = fs q := by
  have hR := along_except (Below (d ++ [base]))
  exact main_steps hR hw hb (touches_makeDir List.prefix_rfl) (touches_removeTree E fun _ h => h)
    (fun rest n => touches_freshDir E fun q h => (List.prefix_append ..).trans h)
    (fun rest n v => touches_write v (List.prefix_append ..)) fs

/-- The workbook is still there at any time. -/
example (wb : Pandas.Workbook) : ∀ s ∈ (Disk.main L gekko sampleRemoval (.path ["w.xlsx".toList]) (.path [['d']]) true
    (studyDisk wb)).states, s ["w.xlsx".toList] = some (.file (.workbook wb)) := fun s hs =>
  (C120_outside_untouched sample_workbook.1 sample_workbook.2.1 _ s hs _ sample_workbook.2.2).trans (studyDisk_book wb)

/-! ## The disk stays a tree -/

/-- The disk is a tree with no file where the folder of the study goes. -/
def Spec.Sound (root : FPath) (fs : FS Data) : Prop := Tree fs ∧ NoFileAt fs root

theorem along_sound (root : FPath) : Along (fun a b => Sound root a → Sound root b) :=
  ⟨fun _ h => h, fun _ _ _ h1 h2 h => h2 (h1 h)⟩

theorem tree_set {fs : FS Data} (h : Tree fs) {p : FPath} {v : Node Data} (hd : fs p.dropLast = some .dir)
    (hp : fs p = some .dir → v = .dir) : Tree (fun q => if q = p then some v else fs q) := by
  intro q n hq
  dsimp only at hq ⊢
  have h1 : fs q = some .dir := by
    by_cases e : q ++ [n] = p
    · rw [← e, List.dropLast_concat] at hd; exact hd
    · rw [if_neg e] at hq; exact h q n hq
  by_cases e : q = p
  · rw [if_pos e, hp (e ▸ h1)]
  · rw [if_neg e]; exact h1

theorem sound_set {root : FPath} {fs : FS Data} (h : Sound root fs) {p : FPath} {v : Node Data}
    (hd : fs p.dropLast = some .dir) (hp : fs p = some .dir → v = .dir) (hr : p = root → v = .dir) :
    Sound root (fun q => if q = p then some v else fs q) := by
  refine ⟨tree_set h.1 hd hp, fun c hc => ?_⟩
  dsimp only at hc
  split_ifs at hc with e
  · rw [hr e.symm] at hc; cases hc
  · exact h.2 c hc

theorem sound_without {root : FPath} {fs : FS Data} (h : Sound root fs) {p : FPath} {g : FPath → Bool}
    (hg : ∀ q n, g q = true → g (q ++ [n]) = true) : Sound root (without fs p g) := by
  refine ⟨fun q n hq => ?_, fun c hc => ?_⟩
  · unfold without at hq ⊢
    split_ifs at hq with e
    · exact absurd rfl hq
    · rw [if_neg fun e' => e ⟨e'.1.trans (List.prefix_append ..), hg q n e'.2⟩]
      exact h.1 q n hq
  · unfold without at hc
    split_ifs at hc
    exact h.2 c hc

theorem sound_makeDir {root : FPath} (p : FPath) : Steps (fun a b => Sound root a → Sound root b) (makeDir p) := by
  intro fs s hs h
  rcases makeDir_cases p fs with ⟨e, he⟩ | ⟨h1, h2, he⟩ <;> rw [he] at hs <;>
    simp only [Done.states, List.mem_cons, List.not_mem_nil, or_false, or_self] at hs <;> subst hs
  · exact h
  · exact sound_set h h2 (fun _ => rfl) fun _ => rfl

theorem sound_write {root : FPath} (rest : FPath) (n : Name) (v : Data) :
    Steps (fun a b => Sound root a → Sound root b) (write (root ++ (rest ++ [n])) v) := by
  intro fs s hs h
  have hne : root ++ (rest ++ [n]) ≠ root := by simp
  rcases write_cases (root ++ (rest ++ [n])) v fs with ⟨e, he⟩ | ⟨h1, h2, he⟩ <;> rw [he] at hs <;>
    simp only [Done.states, List.mem_cons, List.not_mem_nil, or_false] at hs
  · subst hs; exact h
  · rcases hs with rfl | rfl | rfl <;> exact sound_set h h2 (fun e => absurd e h1) fun e => absurd e hne

theorem sound_removeTree (hE : ChildrenFirst E) {root : FPath} (p : FPath) :
    Steps (fun a b => Sound root a → Sound root b) (removeTree E p) := by
  intro fs s hs h
  rcases removeTree_states hs with rfl | rfl | ⟨g, hg, rfl⟩
  · exact h
  · exact sound_without h fun _ _ _ => rfl
  · exact sound_without h (hE p g hg)

theorem sound_freshDir (hE : ChildrenFirst E) {root : FPath} (p : FPath) :
    Steps (fun a b => Sound root a → Sound root b) (freshDir E p) := by
  have h1 := Steps.bind (along_sound root) (sound_removeTree (root := root) hE p) fun _ => sound_makeDir p
  intro fs
  unfold freshDir
  split
  · exact h1 fs
  · exact sound_makeDir p fs

theorem main_sound (hE : ChildrenFirst E) (hw : Workbook x base) (hb : Ordinary base) :
    Steps (fun a b => Sound (d ++ [base]) a → Sound (d ++ [base]) b)
      (Disk.main L gekko E (.path x) (.path d) overwrite) :=
  main_steps (along_sound _) hw hb (sound_makeDir _) (sound_removeTree hE _) (fun _ _ => sound_freshDir hE _)
    fun rest n v => sound_write rest n v

/-! ## A run from a folder that can be emptied -/

/-- The disk with an empty folder of the study. -/
def Disk.emptied (fs : FS Data) (root : FPath) : FS Data :=
  fun q => if root <+: q then (if q = root then some .dir else none) else fs q

theorem below_none {fs : FS Data} (h : Tree fs) {p : FPath} (hp : fs p ≠ some .dir) :
    ∀ (rest : FPath) (n : Name), fs (p ++ (rest ++ [n])) = none := by
  intro rest n
  by_contra hne
  rw [← List.append_assoc] at hne
  have h1 := h _ _ hne
  clear hne
  induction rest using List.reverseRecOn with
  | nil => exact hp (by simpa using h1)
  | append_singleton rest m ih =>
    rw [← List.append_assoc] at h1
    exact ih (h _ _ (by rw [h1]; simp))

theorem not_below_parent (d : FPath) (base : Name) : ¬ Below (d ++ [base]) d := fun h => by
  have := h.length_le
  simp at this

theorem makeRoot_run {fs : FS Data} (hs : Sound (d ++ [base]) fs) (hd : fs d = some .dir)
    (hrm : (E (d ++ [base])).err = none) :
    (makeRoot E true (d ++ [base]) fs).result = .ok () ∧
    (makeRoot E true (d ++ [base]) fs).disk = emptied fs (d ++ [base]) := by
  have key : ∀ g : FS Data, g (d ++ [base]) = none → g d = some .dir →
      makeDir (d ++ [base]) g = ⟨.ok (), fun q => if q = d ++ [base] then some .dir else g q,
        [fun q => if q = d ++ [base] then some .dir else g q]⟩ := by
    intro g h1 h2
    unfold makeDir mkdir
    rw [h1, List.dropLast_concat, h2]
  cases h : fs (d ++ [base]) with
  | none =>
    have e : makeRoot E true (d ++ [base]) fs = makeDir (d ++ [base]) fs := by unfold makeRoot; rw [h]
    rw [e, key fs h hd]
    refine ⟨rfl, ?_⟩
    funext q
    unfold emptied
    by_cases hq : q = d ++ [base]
    · simp [hq]
    · by_cases hp : d ++ [base] <+: q
      · rw [if_pos hp]
        dsimp only
        rw [if_neg hq, if_neg hq]
        obtain ⟨r, rfl⟩ := hp
        rcases List.eq_nil_or_concat r with rfl | ⟨rest, n, rfl⟩
        · exact absurd (List.append_nil _) hq
        · rw [List.concat_eq_append]
          exact below_none hs.1 (by rw [h]; simp) rest n
      · rw [if_neg hp]; exact if_neg hq
  | some v => cases v with
    | file c => exact absurd h (hs.2 c)
    | dir =>
      have e : makeRoot E true (d ++ [base]) fs
          = (do removeTree E (d ++ [base]); makeDir (d ++ [base]) : Op Unit) fs := by
        unfold makeRoot; rw [h]; rfl
      have hrt : (removeTree E (d ++ [base]) fs).result = .ok () ∧
          (removeTree E (d ++ [base]) fs).disk = without fs (d ++ [base]) fun _ => true := by
        unfold removeTree; rw [hrm]; exact ⟨rfl, rfl⟩
      rw [e, bind_ok hrt.1, hrt.2, key _ (by unfold without; simp) (by rw [without_out (not_below_parent d base), hd])]
      refine ⟨rfl, ?_⟩
      funext q
      unfold emptied without
      by_cases hq : q = d ++ [base]
      · simp [hq]
      · by_cases hp : d ++ [base] <+: q <;> simp [hq, hp]

theorem main_run (hw : Workbook x base) (hb : Ordinary base) {fs : FS Data} (hs : Sound (d ++ [base]) fs)
    (hx : fs x ≠ none) (hd : fs d = some .dir) (hrm : (E (d ++ [base])).err = none) :
    (Disk.main L gekko E (.path x) (.path d) true fs).result =
      (Disk.body L gekko (do let _ ← valid (.path x)) (readWorkbook x) E base (d ++ [base])
        (emptied fs (d ++ [base]))).result ∧
    (Disk.main L gekko E (.path x) (.path d) true fs).disk =
      (Disk.body L gekko (do let _ ← valid (.path x)) (readWorkbook x) E base (d ++ [base])
        (emptied fs (d ++ [base]))).disk := by
  have h1 : (Disk.valid (.path x) fs).result = .ok x := valid_ok hx
  have h2 : (Disk.valid (.path d) fs).result = .ok d := valid_ok (by rw [hd]; simp)
  obtain ⟨h3, h4⟩ := makeRoot_run hs hd hrm
  have hn : lastName (d ++ [base]) = base := by simp [lastName]
  unfold Disk.main
  rw [bind_ok h1, show (Disk.valid (.path x) fs).disk = fs from rfl, bind_ok h2,
    show (Disk.valid (.path d) fs).disk = fs from rfl, target_eq hw hb, bind_ok h3, h4, hn]
  exact ⟨rfl, rfl⟩

/-! ## Runs repeat -/

/-- **What was in the folder does not matter.** From two disks that differ at most at or below the folder of the
study, a run with the flag gives the same answer and leaves the same disk. -/
theorem C120_fresh_start (hw : Workbook x base) (hb : Ordinary base) {a b : FS Data}
    (ha : Tree a) (hb' : Tree b) (na : NoFileAt a (d ++ [base])) (nb : NoFileAt b (d ++ [base]))
    (hab : ∀ q, ¬ Below (d ++ [base]) q → a q = b q) (hout : ¬ Below (d ++ [base]) x) (hx : a x ≠ none)
    (hd : a d = some .dir) (hrm : (E (d ++ [base])).err = none) :
    (Disk.main L gekko E (.path x) (.path d) true a).result = (Disk.main L gekko E (.path x) (.path d) true b).result ∧
    (Disk.main L gekko E (.path x) (.path d) true a).disk = (Disk.main L gekko E (.path x) (.path d) true b).disk := by
  have hdb : ¬ Below (d ++ [base]) d := not_below_parent d base
  have ag : Agree (d ++ [base]) x (emptied a (d ++ [base])) (emptied b (d ++ [base])) := by
    refine ⟨fun q hq => ?_, ?_⟩ <;> unfold emptied
    · rw [if_pos hq, if_pos hq]
    · have : ¬ d ++ [base] <+: x := hout
      rw [if_neg this, if_neg this, hab x hout]
  have h1 := main_run (L := L) (gekko := gekko) hw hb ⟨ha, na⟩ hx hd hrm
  have h2 := main_run (L := L) (gekko := gekko) hw hb ⟨hb', nb⟩ (hab x hout ▸ hx) (hab d hdb ▸ hd) hrm
  obtain ⟨h3, h4⟩ := (closed_local E (d ++ [base]) x).body Local.validBook Local.readWorkbook L gekko base _ _ ag
  refine ⟨by rw [h1.1, h2.1, h3], ?_⟩
  funext q
  by_cases hq : Below (d ++ [base]) q
  · rw [h1.2, h2.2]; exact h4.1 q hq
  · rw [C120_outside_untouched hw hb a _ (List.mem_cons_self ..) q hq,
      C120_outside_untouched hw hb b _ (List.mem_cons_self ..) q hq, hab q hq]

theorem emptied_tree {fs : FS Data} (h : Tree fs) (hd : fs d = some .dir) : Tree (emptied fs (d ++ [base])) := by
  intro q n hq
  unfold emptied at hq ⊢
  by_cases e : d ++ [base] <+: q
  · rw [if_pos (e.trans (List.prefix_append ..)), if_neg] at hq
    · exact absurd rfl hq
    · intro he
      have := e.length_le
      rw [← he] at this
      simp at this
  · rw [if_neg e]
    split_ifs at hq with e1 e2
    · rw [(List.append_inj' e2 rfl).1]; exact hd
    · exact absurd rfl hq
    · exact h q n hq

theorem studyDisk_noFile (wb : Pandas.Workbook) : NoFileAt (studyDisk wb) ([['d']] ++ [['w']]) := fun c h => by
  rw [studyDisk_folder] at h; cases h

/-- The results of the earlier run make no difference. -/
example (wb : Pandas.Workbook) :
    (Disk.main L gekko sampleRemoval (.path ["w.xlsx".toList]) (.path [['d']]) true (studyDisk wb)).disk =
    (Disk.main L gekko sampleRemoval (.path ["w.xlsx".toList]) (.path [['d']]) true
      (emptied (studyDisk wb) ([['d']] ++ [['w']]))).disk :=
  (C120_fresh_start sample_workbook.1 sample_workbook.2.1 (studyDisk_tree wb)
    (emptied_tree (studyDisk_tree wb) (studyDisk_dir wb)) (studyDisk_noFile wb)
    (fun c h => by unfold emptied at h; simp at h) (fun q hq => (if_neg hq).symm) sample_workbook.2.2
    (by rw [studyDisk_book]; simp) (studyDisk_dir wb) rfl).2

theorem history_keeps (hb : Ordinary base) {a c : FS Data} (h : History d base a c)
    (ha : Sound (d ++ [base]) a) :
    Sound (d ++ [base]) c ∧ ∀ q, ¬ Below (d ++ [base]) q → a q = c q := by
  induction h with
  | nothing => exact ⟨ha, fun _ _ => rfl⟩
  | run _ hw hE hc ih =>
    exact ⟨main_sound hE hw hb _ _ hc ih.1, fun q hq =>
      (ih.2 q hq).trans (C120_outside_untouched hw hb _ _ hc q hq).symm⟩

/-- **A rerun repairs any history.** After any runs in the same output directory with workbooks of this name, each
ended or cut off anywhere, a run with the flag gives the answer and leaves the disk that it would have given and
left without them. -/
theorem C120_rerun (hw : Workbook x base) (hb : Ordinary base) {a c : FS Data} (ht : Tree a)
    (hn : NoFileAt a (d ++ [base])) (h : History d base a c) (hout : ¬ Below (d ++ [base]) x) (hx : a x ≠ none)
    (hd : a d = some .dir) (hrm : (E (d ++ [base])).err = none) :
    (Disk.main L gekko E (.path x) (.path d) true c).result = (Disk.main L gekko E (.path x) (.path d) true a).result ∧
    (Disk.main L gekko E (.path x) (.path d) true c).disk = (Disk.main L gekko E (.path x) (.path d) true a).disk := by
  obtain ⟨hc, hac⟩ := history_keeps hb h ⟨ht, hn⟩
  obtain ⟨h1, h2⟩ := C120_fresh_start (L := L) (gekko := gekko) hw hb ht hc.1 hn hc.2 hac hout hx hd hrm
  exact ⟨h1.symm, h2.symm⟩

/-- After a run with the flag that was cut off anywhere and one without it that was refused. -/
example (wb : Pandas.Workbook) (b c : FS Data)
    (hb : b ∈ (Disk.main L gekko sampleRemoval (.path ["w.xlsx".toList]) (.path [['d']]) true (studyDisk wb)).states)
    (hc : c ∈ (Disk.main L gekko sampleRemoval (.path ["w.xlsx".toList]) (.path [['d']]) false b).states) :
    (Disk.main L gekko sampleRemoval (.path ["w.xlsx".toList]) (.path [['d']]) true c).disk =
    (Disk.main L gekko sampleRemoval (.path ["w.xlsx".toList]) (.path [['d']]) true (studyDisk wb)).disk :=
  (C120_rerun sample_workbook.1 sample_workbook.2.1 (studyDisk_tree wb) (studyDisk_noFile wb)
    (.run (.run .nothing sample_workbook.1 sampleRemoval_order hb) sample_workbook.1 sampleRemoval_order hc)
    sample_workbook.2.2 (by rw [studyDisk_book]; simp) (studyDisk_dir wb) rfl).2

/-- **Without the flag a run never touches an earlier one.** If anything is where the folder of the study goes, a
run without the flag raises `FileExistsError` and changes nothing at any time. -/
theorem C120_refuses (hw : Workbook x base) (hb : Ordinary base) {fs : FS Data} (hx : fs x ≠ none)
    (hd : fs d ≠ none) (hr : fs (d ++ [base]) ≠ none) :
    (Disk.main L gekko E (.path x) (.path d) false fs).result = .error .fileExistsError ∧
    ∀ s ∈ (Disk.main L gekko E (.path x) (.path d) false fs).states, s = fs := by
  have h1 : (Disk.valid (.path x) fs).result = .ok x := valid_ok hx
  have h2 : (Disk.valid (.path d) fs).result = .ok d := valid_ok hd
  have h3 : makeRoot E false (d ++ [base]) fs = ⟨.error .fileExistsError, fs, []⟩ := by
    unfold makeRoot
    cases h : fs (d ++ [base]) with
    | none => exact absurd h hr
    | some v => cases v <;> rfl
  have h4 : Disk.main L gekko E (.path x) (.path d) false fs = ⟨.error .fileExistsError, fs, []⟩ := by
    unfold Disk.main
    rw [bind_ok h1, show (Disk.valid (.path x) fs).disk = fs from rfl, bind_ok h2,
      show (Disk.valid (.path d) fs).disk = fs from rfl, target_eq hw hb,
      bind_error (by rw [h3]), h3]
    rfl
  rw [h4]
  exact ⟨rfl, fun s hs => by simpa [Done.states] using hs⟩

/-- The earlier run is safe. -/
example (wb : Pandas.Workbook) :
    (Disk.main L gekko sampleRemoval (.path ["w.xlsx".toList]) (.path [['d']]) false (studyDisk wb)).disk
      = studyDisk wb :=
  (C120_refuses sample_workbook.1 sample_workbook.2.1 (by rw [studyDisk_book]; simp) (by rw [studyDisk_dir]; simp)
    (by rw [studyDisk_folder]; simp)).2 _ (List.mem_cons_self ..)

end Verif
