import Verif.Model.Files

/-!
# Properties of `main` on disk (C53, C74)
-/

set_option autoImplicit false

namespace Verif
open Files Para
variable {C : Type}

/-! ## Vocabulary -/

/-- The workbook at `x` is called `base.ext`. -/
def Spec.Workbook (x : FPath) (base : Name) : Prop :=
  ∃ (folder : FPath) (ext : Name), x = folder ++ [base ++ '.' :: ext] ∧ ext ≠ [] ∧ '.' ∉ ext

/-- A base name that can be the name of a directory. -/
def Spec.Ordinary (base : Name) : Prop := base ≠ [] ∧ base ≠ ['.'] ∧ base ≠ ['.', '.']

/-- At or below. -/
def Spec.Below (p q : FPath) : Prop := p <+: q

/-- Whatever exists lies in directories that exist. -/
def Spec.Tree (fs : FS C) : Prop := ∀ p n, fs (p ++ [n]) ≠ none → fs p = some .dir

open Spec

theorem stem_eq {base ext : Name} (hb : base ≠ []) (he : ext ≠ []) (hd : '.' ∉ ext) :
    stem (base ++ '.' :: ext) = base := by
  have h1 : afterDot (base ++ '.' :: ext) = ext.length := by
    unfold afterDot
    rw [List.reverse_append, List.reverse_cons, List.append_assoc, List.takeWhile_append_of_pos]
    · simp
    · intro c hc
      have : c ∈ ext := by simpa using hc
      simp only [decide_not, Bool.not_eq_eq_eq_not, Bool.not_true, decide_eq_false_iff_not]
      rintro rfl
      exact hd this
  have h2 : (base ++ '.' :: ext).length - ext.length - 1 = base.length := by simp; omega
  unfold stem
  rw [h1, h2, if_pos]
  · simp
  · exact ⟨by simp, List.length_pos_iff.mpr hb, List.length_pos_iff.mpr he⟩

theorem join_ordinary {d : FPath} {n : Name} (h : Ordinary n) : join d n = d ++ [n] := by
  unfold join
  rw [if_neg (by rintro (h1 | h1); exacts [h.1 h1, h.2.1 h1]), if_neg h.2.2]

theorem target_eq {x d : FPath} {base : Name} (hw : Workbook x base) (hb : Ordinary base) :
    join d (stem (lastName x)) = d ++ [base] := by
  obtain ⟨folder, ext, rfl, he, hd⟩ := hw
  rw [show lastName (folder ++ [base ++ '.' :: ext]) = base ++ '.' :: ext by simp [lastName],
    stem_eq hb.1 he hd, join_ordinary hb]

theorem mkdir_ok {fs fs' : FS C} {p : FPath} (h : mkdir fs p = .ok fs') :
    fs p = none ∧ fs' p = some .dir ∧ ∀ q, q ≠ p → fs' q = fs q := by
  unfold mkdir at h
  split at h
  · cases h
  · rename_i hp
    split at h <;> cases h
    exact ⟨hp, by simp, fun q hq => by simp [hq]⟩

theorem valid_ok {fs : FS C} {p : FPath} (h : fs p ≠ none) : validPath fs (.path p) = .ok p := by
  unfold validPath
  cases hp : fs p with
  | none => exact absurd hp h
  | some _ => simp [hp]

theorem without_out {fs : FS C} {p q : FPath} {gone : FPath → Bool} (h : ¬ Below p q) :
    without fs p gone q = fs q := if_neg fun h' => h h'.1

/-! ## C53 existing results are never overwritten unless asked -/

/-- **Refusal.** If the output directory has an entry with the name of the workbook, then without the
flag `main` raises `FileExistsError` and the disk is as it was. -/
theorem C53_refuses {fs : FS C} {x d : FPath} {base : Name} {broken : Option (FPath → Bool)}
    (hw : Workbook x base) (hb : Ordinary base) (hx : fs x ≠ none) (hd : fs d ≠ none)
    (ht : fs (d ++ [base]) ≠ none) :
    prepare fs (.path x) (.path d) false broken = (.error .fileExistsError, fs) := by
  unfold prepare
  simp only [valid_ok hx, valid_ok hd, target_eq hw hb]
  cases ht' : fs (d ++ [base]) with
  | none => exact absurd ht' ht
  | some n => cases n <;> simp

/-- A disk with a workbook, an output directory and earlier results. -/
def Spec.sampleDisk : FS ℕ := fun p =>
  if p = [] ∨ p = [['d']] ∨ p = [['d'], ['w']] then some .dir
  else if p = ["w.xlsx".toList] then some (.file 1)
  else if p = [['d'], ['w'], ['r']] then some (.file 2)
  else if p = [['d'], ['o']] then some (.file 3)
  else none

example : Workbook ["w.xlsx".toList] ['w'] ∧ Ordinary ['w'] ∧ sampleDisk ["w.xlsx".toList] ≠ none ∧
    sampleDisk [['d']] ≠ none ∧ sampleDisk ([['d']] ++ [['w']]) ≠ none :=
  ⟨⟨[], "xlsx".toList, by decide, by decide, by decide⟩, by unfold Ordinary; decide, by decide,
    by decide, by decide⟩

theorem sampleDisk_tree : Tree sampleDisk := by
  intro p n h
  have key : ∀ q m : FPath, ∀ a : Name, q ++ [n] = m ++ [a] → q = m := fun q m a h =>
    (List.append_inj' h rfl).1
  unfold sampleDisk at h
  have h0 : p ++ [n] ≠ [] := by simp
  split_ifs at h with h1 h2 h3 h4
  · rcases h1 with h1 | h1 | h1
    · exact absurd h1 h0
    · rw [key p [] _ h1]; decide
    · rw [key p [['d']] _ h1]; decide
  · rw [key p [] _ h2]; decide
  · rw [key p [['d'], ['w']] _ h3]; decide
  · rw [key p [['d']] _ h4]; decide
  · exact absurd rfl h

/-- Without the flag nothing that exists is changed, whatever the arguments and whatever the name of
the workbook. -/
theorem C53_no_flag_nothing_lost (fs : FS C) (x d : Arg) (broken : Option (FPath → Bool)) (q : FPath)
    (hq : fs q ≠ none) : (prepare fs x d false broken).2 q = fs q := by
  unfold prepare
  split
  · rfl
  · split
    · rfl
    · dsimp only
      split
      · split
        · rfl
        · rename_i hm
          obtain ⟨h1, -, h2⟩ := mkdir_ok hm
          exact h2 q (fun h => hq (h ▸ h1))
      · rfl
      · rfl

example : sampleDisk [['d'], ['o']] ≠ none := by decide

/-- **With or without the flag, only that directory is touched**, also when deleting it fails half way. -/
theorem C53_only_that_directory_partial {fs : FS C} {x d : FPath} {base : Name} {overwrite : Bool}
    {broken : Option (FPath → Bool)} (hw : Workbook x base) (hb : Ordinary base) {q : FPath}
    (hq : ¬ Below (d ++ [base]) q) :
    (prepare fs (.path x) (.path d) overwrite broken).2 q = fs q := by
  have hne : q ≠ d ++ [base] := fun h => hq (h ▸ List.prefix_rfl)
  unfold prepare
  split
  · rfl
  · rename_i x' hx'
    have hxx : x' = x := by
      unfold validPath at hx'; dsimp only at hx'; split at hx' <;> cases hx'; rfl
    split
    · rfl
    · rename_i d' hd'
      have hdd : d' = d := by
        unfold validPath at hd'; dsimp only at hd'; split at hd' <;> cases hd'; rfl
      subst hxx hdd
      dsimp only
      rw [target_eq hw hb]
      split
      · split
        · rfl
        · rename_i hm
          exact (mkdir_ok hm).2.2 q hne
      · split <;> rfl
      · split
        · split
          · exact without_out hq
          · split
            · exact without_out (gone := fun _ => true) hq
            · rename_i fs' hm
              show fs' q = _
              rw [(mkdir_ok hm).2.2 q hne]
              exact without_out hq
        · rfl

example : ¬ Below ([['d']] ++ [['w']]) [['d'], ['o']] := by unfold Below; decide

/-- If `main` goes on, it does so with an empty directory named after the workbook. -/
theorem C53_starts_empty {fs : FS C} (htree : Tree fs) {x d r : FPath} {base : Name} {overwrite : Bool}
    {broken : Option (FPath → Bool)} (hw : Workbook x base) (hb : Ordinary base)
    (h : (prepare fs (.path x) (.path d) overwrite broken).1 = .ok r) :
    r = d ++ [base] ∧ (prepare fs (.path x) (.path d) overwrite broken).2 r = some .dir ∧
    ∀ q, Below r q → q ≠ r → (prepare fs (.path x) (.path d) overwrite broken).2 q = none := by
  have below : ∀ k : List Name, ∀ p, fs p = none → fs (p ++ k) = none := by
    intro k
    induction k with
    | nil => intro p hp; simpa using hp
    | cons n k ih =>
      intro p hp
      have h1 : fs (p ++ [n]) = none := by
        by_contra hn
        rw [htree p n hn] at hp
        cases hp
      have := ih _ h1
      simpa using this
  unfold prepare at h ⊢
  split at h
  · cases h
  · rename_i x' hx'
    have hxx : x' = x := by
      unfold validPath at hx'; dsimp only at hx'; split at hx' <;> cases hx'; rfl
    split at h
    · cases h
    · rename_i d' hd'
      have hdd : d' = d := by
        unfold validPath at hd'; dsimp only at hd'; split at hd' <;> cases hd'; rfl
      subst hxx hdd
      simp only [target_eq hw hb] at h ⊢
      cases hr : fs (d' ++ [base]) with
      | none =>
        rw [hr] at h
        simp only at h ⊢
        cases hm : mkdir fs (d' ++ [base]) with
        | error e => rw [hm] at h; cases h
        | ok fs' =>
          rw [hm] at h
          cases h
          obtain ⟨-, h1, h2⟩ := mkdir_ok hm
          refine ⟨rfl, h1, fun q hq hne => ?_⟩
          show fs' q = none
          rw [h2 q hne]
          obtain ⟨k, rfl⟩ := hq
          exact below k _ hr
      | some n =>
        rw [hr] at h
        cases n with
        | file c => cases overwrite <;> cases h
        | dir =>
          cases overwrite
          · cases h
          · cases broken with
            | some gone => cases h
            | none =>
              simp only [if_true] at h ⊢
              cases hm : mkdir (without fs (d' ++ [base]) fun _ => true) (d' ++ [base]) with
              | error e => rw [hm] at h; cases h
              | ok fs' =>
                rw [hm] at h
                cases h
                obtain ⟨-, h1, h2⟩ := mkdir_ok hm
                refine ⟨rfl, h1, fun q hq hne => ?_⟩
                show fs' q = none
                rw [h2 q hne]
                exact if_pos ⟨hq, rfl⟩

/-- The earlier results are replaced. -/
example : (prepare sampleDisk (.path ["w.xlsx".toList]) (.path [['d']]) true none).1 =
    .ok [['d'], ['w']] := by decide

theorem dirPaths_within {root : FPath} {cs : List (ℤ × ℤ)} {p : FPath} (h : p ∈ dirPaths root cs) :
    ∃ n k, p = root ++ n :: k := by
  simp only [dirPaths, List.mem_append, List.mem_cons, List.not_mem_nil, or_false,
    List.mem_flatMap, List.mem_map] at h
  rcases h with (rfl | rfl | rfl) | ⟨c, -, rfl | ⟨k, -, rfl⟩⟩ <;> exact ⟨_, _, rfl⟩

theorem filePaths_within {root : FPath} {cs : List (ℤ × ℤ)} {p : FPath} (h : p ∈ filePaths root cs) :
    ∃ n k, p = root ++ n :: k := by
  simp only [filePaths, List.mem_append, List.mem_cons, List.not_mem_nil, or_false,
    List.mem_flatMap, List.mem_map] at h
  rcases h with ((rfl | rfl) | ⟨c, -, (rfl | rfl) | ⟨k, -, f, -, rfl⟩⟩) | ⟨f, -, rfl⟩ <;>
    exact ⟨_, _, rfl⟩

theorem exec_outside {fs : FS C} {root : FPath} {cs : List (ℤ × ℤ)} {a : Action C}
    (ha : a.allowed root cs) (b : Option (FPath → Bool)) {q : FPath}
    (hq : ¬ Below root q ∨ q = root) : (a.exec b fs).2 q = fs q := by
  have key : ∀ p n k, p = root ++ n :: k → ¬ Below p q := by
    rintro p n k rfl ⟨m, hm⟩
    rcases hq with hq | rfl
    · exact hq ⟨n :: k ++ m, by rw [← hm]; simp⟩
    · have := congrArg List.length hm
      simp at this
  cases a with
  | freshDir p =>
    obtain ⟨n, k, hp⟩ := dirPaths_within ha
    have hw := key p n k hp
    have hne : q ≠ p := fun h => hw (h ▸ List.prefix_rfl)
    unfold Action.exec
    dsimp only
    split
    · split
      · exact without_out hw
      · split
        · exact without_out (gone := fun _ => true) hw
        · rename_i fs' hm
          show fs' q = _
          rw [(mkdir_ok hm).2.2 q hne]
          exact without_out hw
    · split
      · rfl
      · rename_i hm
        exact (mkdir_ok hm).2.2 q hne
  | write p c =>
    obtain ⟨n, k, hp⟩ := filePaths_within ha
    have hw := key p n k hp
    have hne : q ≠ p := fun h => hw (h ▸ List.prefix_rfl)
    unfold Action.exec
    dsimp only
    split
    · split
      · rfl
      · simp [hne]
    · rfl
    · rfl

/-- **The rest of the run stays inside.** Whatever combinations are run, in whatever order the two
processes make directories and write files, wherever one of them is stopped: nothing outside the
output directory changes. -/
theorem C53_run_stays_inside {root : FPath} {cs : List (ℤ × ℤ)} :
    ∀ {as : List (Action C × Option (FPath → Bool))} {fs : FS C},
      (∀ a ∈ as, a.1.allowed root cs) → ∀ {q : FPath}, ¬ Below root q ∨ q = root →
      runActions fs as q = fs q
  | [], _, _, _, _ => rfl
  | (a, b) :: as, fs, h, q, hq => by
    simp only [runActions]
    rw [C53_run_stays_inside (fun x hx => h x (by simp [hx])) hq, exec_outside (h (a, b) (by simp)) b hq]

/-- The solver's results of one combination, and then the figure folder half removed. -/
example : ∀ a ∈ ([(.write ([['r']] ++ [outDir, folderName (5, 100), "outputs.pkl".toList]) 1, none),
      (.freshDir ([['r']] ++ [outDir, folderName (5, 100), "User".toList]), some fun _ => false)] :
        List (Action ℕ × Option (FPath → Bool))), a.1.allowed [['r']] [(5, 100)] := by
  intro a ha
  simp only [List.mem_cons, List.not_mem_nil, or_false] at ha
  rcases ha with rfl | rfl
  · show _ ∈ filePaths [['r']] [(5, 100)]
    decide
  · show _ ∈ dirPaths [['r']] [(5, 100)]
    decide

/-- From start to end: nothing outside the directory named after the workbook changes. -/
theorem C53_whole_run_partial {fs : FS C} {x d : FPath} {base : Name} {overwrite : Bool}
    {broken : Option (FPath → Bool)} (hw : Workbook x base) (hb : Ordinary base)
    {cs : List (ℤ × ℤ)} {as : List (Action C × Option (FPath → Bool))}
    (ha : ∀ a ∈ as, a.1.allowed (d ++ [base]) cs) {q : FPath} (hq : ¬ Below (d ++ [base]) q) :
    runActions (prepare fs (.path x) (.path d) overwrite broken).2 as q = fs q := by
  rw [C53_run_stays_inside ha (.inl hq), C53_only_that_directory_partial hw hb hq]

/-- **Against C53**: a workbook called `..xlsx` has the stem `.`, so the flag deletes everything in the
output directory. -/
theorem C53_dot_workbook : ∃ fs : FS ℕ, ∃ other : FPath,
    fs other = some (.file 3) ∧
    (prepare fs (.path ["..xlsx".toList]) (.path [['d']]) true none).1 = .ok [['d']] ∧
    (prepare fs (.path ["..xlsx".toList]) (.path [['d']]) true none).2 other = none := by
  refine ⟨fun p => if p = [] ∨ p = [['d']] then some .dir
    else if p = ["..xlsx".toList] then some (.file 1)
    else if p = [['d'], ['o']] then some (.file 3) else none, [['d'], ['o']], ?_, ?_, ?_⟩ <;> decide

/-- **Against C53**: a workbook called `...xlsx` has the stem `..`, so the flag deletes what lies beside
the output directory too. (`rmtree` fails at the end, when it comes to the directory itself.) -/
theorem C53_dots_workbook : ∃ fs : FS ℕ, ∃ beside : FPath,
    fs beside = some (.file 3) ∧ ¬ Below [['u'], ['d']] beside ∧
    (prepare fs (.path ["...xlsx".toList]) (.path [['u'], ['d']]) true
      (some fun q => q ≠ [['u']])).2 beside = none := by
  refine ⟨fun p => if p = [] ∨ p = [['u']] ∨ p = [['u'], ['d']] then some .dir
    else if p = ["...xlsx".toList] then some (.file 1)
    else if p = [['u'], ['o']] then some (.file 3) else none, [['u'], ['o']], ?_, ?_, ?_⟩
  · decide
  · unfold Below; decide
  · decide

/-! ## C74 the workbook is not lost -/

/-- Without the flag the workbook is intact after any run, however it ends. -/
theorem C74_no_flag_safe {fs : FS C} (htree : Tree fs) {x d : FPath} {base : Name}
    {broken : Option (FPath → Bool)} (hw : Workbook x base) (hb : Ordinary base) (hx : fs x ≠ none)
    (hnew : fs (d ++ [base]) = none) {cs : List (ℤ × ℤ)}
    {as : List (Action C × Option (FPath → Bool))} (ha : ∀ a ∈ as, a.1.allowed (d ++ [base]) cs) :
    runActions (prepare fs (.path x) (.path d) false broken).2 as x = fs x := by
  refine C53_whole_run_partial hw hb ha ?_
  rintro ⟨k, rfl⟩
  have below : ∀ k : List Name, ∀ p, fs p = none → fs (p ++ k) = none := by
    intro k
    induction k with
    | nil => intro p hp; simpa using hp
    | cons n k ih =>
      intro p hp
      have h1 : fs (p ++ [n]) = none := by
        by_contra hn
        rw [htree p n hn] at hp
        cases hp
      have := ih _ h1
      simpa using this
  exact hx (below k _ hnew)

example : sampleDisk ["w.xlsx".toList] ≠ none ∧ sampleDisk ([['d'], ['w']] ++ [['w']]) = none := by decide

/-- With the flag it is intact if it does not lie in the directory that is replaced. -/
theorem C74_outside_safe_partial {fs : FS C} {x d : FPath} {base : Name} {overwrite : Bool}
    {broken : Option (FPath → Bool)} (hw : Workbook x base) (hb : Ordinary base)
    (hout : ¬ Below (d ++ [base]) x) {cs : List (ℤ × ℤ)}
    {as : List (Action C × Option (FPath → Bool))} (ha : ∀ a ∈ as, a.1.allowed (d ++ [base]) cs) :
    runActions (prepare fs (.path x) (.path d) overwrite broken).2 as x = fs x :=
  C53_whole_run_partial hw hb ha hout

example : ¬ Below ([['d']] ++ [['w']]) ["w.xlsx".toList] := by unfold Below; decide

/-- **Against C74**: a workbook kept in the directory of its own results is deleted by the flag, before it
has been read, whenever deleting works. -/
theorem C74_workbook_deleted {fs : FS C} {d : FPath} {base ext : Name} (hb : Ordinary base)
    (he : ext ≠ []) (hd : '.' ∉ ext) {k : FPath}
    (hx : fs (d ++ [base] ++ k ++ [base ++ '.' :: ext]) ≠ none) (hdir : fs d = some .dir)
    (hr : fs (d ++ [base]) = some .dir) :
    (prepare fs (.path (d ++ [base] ++ k ++ [base ++ '.' :: ext])) (.path d) true none).1 =
      .ok (d ++ [base]) ∧
    (prepare fs (.path (d ++ [base] ++ k ++ [base ++ '.' :: ext])) (.path d) true none).2
      (d ++ [base] ++ k ++ [base ++ '.' :: ext]) = none := by
  have hw : Workbook (d ++ [base] ++ k ++ [base ++ '.' :: ext]) base := ⟨_, ext, rfl, he, hd⟩
  have hm : mkdir (without fs (d ++ [base]) fun _ => true) (d ++ [base]) =
      .ok fun q => if q = d ++ [base] then some .dir else without fs (d ++ [base]) (fun _ => true) q := by
    unfold mkdir
    rw [show without fs (d ++ [base]) (fun _ => true) (d ++ [base]) = none from
      if_pos ⟨List.prefix_rfl, rfl⟩]
    simp only
    rw [show (d ++ [base]).dropLast = d by simp,
      show without fs (d ++ [base]) (fun _ => true) d = fs d from if_neg fun h => by
        have := h.1.length_le; simp at this, hdir]
  unfold prepare
  simp only [valid_ok hx, valid_ok (show fs d ≠ none by rw [hdir]; simp), target_eq hw hb, hr, if_true,
    hm, true_and]
  rw [if_neg]
  · exact if_pos ⟨⟨k ++ [base ++ '.' :: ext], by simp⟩, rfl⟩
  · intro h
    have := congrArg List.length h
    simp at this

/-- Such a disk. -/
example : ∃ fs : FS ℕ, fs ([['d']] ++ [['w']] ++ [] ++ [['w'] ++ '.' :: "xlsx".toList]) ≠ none ∧
    fs [['d']] = some .dir ∧ fs ([['d']] ++ [['w']]) = some .dir :=
  ⟨fun p => if p = [] ∨ p = [['d']] ∨ p = [['d'], ['w']] then some .dir
    else if p = [['d'], ['w'], "w.xlsx".toList] then some (.file 1) else none,
    by decide, by decide, by decide⟩

end Verif
