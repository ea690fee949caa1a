import Verif.Lemmas.TogetherEnds
import Verif.Props.DiskTwo

/-!
# Studies that run at the same time do not disturb each other (C122)
-/

set_option autoImplicit false

namespace Verif
open Files Para Disk Programme Simulation Report

/-! ## Vocabulary -/

/-- The folder of a study: in the output directory, named like the workbook. -/
def Spec.home (c : Call) (base : Name) : FPath := c.outdir ++ [base]

/-- Calls for different studies: the workbooks have names that can be names of directories, no folder of a study is the
folder of another or inside it, and no workbook is inside the folder of another study. -/
structure Spec.Different {ι : Type} (calls : ι → Call) (base : ι → Name) : Prop where
  book : ∀ i, Spec.Workbook (calls i).xlsx (base i)
  name : ∀ i, Spec.Ordinary (base i)
  apart : ∀ i j, i ≠ j → ¬ Spec.Below (Spec.home (calls i) (base i)) (Spec.home (calls j) (base j))
  books : ∀ i j, i ≠ j → ¬ Spec.Below (Spec.home (calls i) (base i)) (calls j).xlsx

/-- The steps of a call are quiet: the operating system does not end its process that plots, and the parent does not lose
patience with that process. -/
def Spec.QuietSteps (xs : List Act) : Prop := ∀ m, .move m ∈ xs → m ≠ .timeout ∧ ∀ c, m ≠ .kill c

open Spec

variable {ι : Type} [DecidableEq ι] {calls : ι → Call} {base : ι → Name}

omit [DecidableEq ι] in
theorem home_root (h : Different calls base) (i : ι) : (calls i).root = home (calls i) (base i) :=
  target_eq (h.book i) (h.name i)

omit [DecidableEq ι] in
theorem different_apart (h : Different calls base) (i j : ι) (hij : i ≠ j) (q : FPath) (hw : (calls i).Writes q) :
    ¬ (calls j).Looks q := by
  unfold Call.Writes at hw
  rw [home_root h i] at hw
  have e : ∀ a b : FPath, a <+: q → b <+: q → a <+: b ∨ b <+: a := fun a b h1 h2 => List.prefix_or_prefix_of_prefix h1 h2
  have hout : ¬ home (calls i) (base i) <+: (calls j).outdir := fun h' =>
    h.apart i j hij (h'.trans (List.prefix_append ..))
  rintro (rfl | rfl | hq | hq)
  · exact h.books i j hij hw
  · exact hout hw
  · rw [home_root h j] at hq
    unfold home at hq
    rw [List.dropLast_concat] at hq
    exact hout (hq ▸ hw)
  · rw [home_root h j] at hq
    rcases e _ _ hw hq with h1 | h1
    · exact h.apart i j hij h1
    · exact h.apart j i (Ne.symm hij) h1

/-! ## Where the calls are -/

/-- **Each as if alone.** Whatever the order in which any number of calls for different studies, each on one core or on
two, look at the disk and change it: each is where it would be if it had been alone on the disk and had taken its own
steps, and its folder is as it would be then, with everything in it. -/
theorem C122_alone (hD : Different calls base) {fs : FS Data} {ss : List (ι × Act)} {P : Pool ι}
    (h : (Pool.start fs).acts calls ss = some P) (i : ι) :
    ∃ s, Running.started.acts (calls i) fs (own i ss) = some (P.runs i, s) ∧
      ∀ q, Below (home (calls i) (base i)) q → P.disk q = s q := by
  obtain ⟨s, h1, h2, -⟩ := pool_alone (s := fun _ => fs) (different_apart hD) (fun i => start_fits i fs)
    (fun _ _ _ => rfl) h i
  refine ⟨s, h1, fun q hq => h2 q (.inr (.inr (.inr ?_)))⟩
  rw [home_root hD i]
  exact hq

/-- **Nothing else.** Outside the folders of the studies the calls change nothing, at any time. -/
theorem C122_elsewhere (hD : Different calls base) {fs : FS Data} {ss : List (ι × Act)} {P : Pool ι}
    (h : (Pool.start fs).acts calls ss = some P) {q : FPath} (hq : ∀ i, ¬ Below (home (calls i) (base i)) q) :
    P.disk q = fs q :=
  pool_elsewhere (fun i => start_fits i fs) h fun i hw => hq i (by rw [← home_root hD i]; exact hw)

theorem pool_is {Q : Move → Prop} (hD : Different calls base) {fs : FS Data} {ss : List (ι × Act)} {P : Pool ι}
    (h : (Pool.start fs).acts calls ss = some P) (i : ι) (hq : ∀ m, .move m ∈ own i ss → Q m) :
    ∃ s, (P.runs i).Alone (calls i) Q fs s ∧ On (calls i).Looks P.disk s ∧ (P.runs i).Fits (calls i) ∧
      ∀ q, Below (home (calls i) (base i)) q → P.disk q = s q := by
  obtain ⟨s, h1, h2, h3⟩ := pool_alone (s := fun _ => fs) (different_apart hD) (fun i => start_fits i fs)
    (fun _ _ _ => rfl) h i
  refine ⟨s, alone_acts (alone_start _ Q fs) hq h1, h2, h3, fun q hq => h2 q (.inr (.inr (.inr ?_)))⟩
  rw [home_root hD i]
  exact hq

/-! ## How they end -/

/-- **One core.** When a call on one core has ended, it has returned or raised what it would have alone, and has left its
folder as it would have alone. -/
theorem C122_one_core (hD : Different calls base) {fs : FS Data} {ss : List (ι × Act)} {P : Pool ι}
    (h : (Pool.start fs).acts calls ss = some P) {i : ι} (hc : (calls i).singlecore = true) {a : Except PyErr Unit}
    (ha : (P.runs i).answer = some a) :
    a = (Disk.main (calls i).libs (calls i).gekko (calls i).removal (.path (calls i).xlsx) (.path (calls i).outdir)
      (calls i).overwrite fs).result ∧
    ∀ q, Below (home (calls i) (base i)) q → P.disk q =
      (Disk.main (calls i).libs (calls i).gekko (calls i).removal (.path (calls i).xlsx) (.path (calls i).outdir)
        (calls i).overwrite fs).disk q := by
  obtain ⟨s, h1, -, -, h2⟩ := pool_is (Q := fun _ => True) hD h i fun _ _ => trivial
  have h3 := alone_answer h1 ha
  unfold Call.Finished at h3
  rw [if_pos hc] at h3
  exact ⟨h3.1, fun q hq => by rw [h2 q hq, h3.2]; rfl⟩

/-- **Two cores.** When a call on two cores has returned or raised, the two processes could have done the same alone, and
have left its folder so. -/
theorem C122_two_cores (hD : Different calls base) {fs : FS Data} {ss : List (ι × Act)} {P : Pool ι}
    (h : (Pool.start fs).acts calls ss = some P) {i : ι} (hc : (calls i).singlecore = false) {a : Except PyErr Unit}
    (ha : (P.runs i).answer = some a) :
    ∃ ms disk, TwoCores (calls i).libs (calls i).gekko (calls i).removal (.path (calls i).xlsx) (.path (calls i).outdir)
      (calls i).overwrite fs ms a disk ∧ ∀ q, Below (home (calls i) (base i)) q → P.disk q = disk q := by
  obtain ⟨s, h1, -, -, h2⟩ := pool_is (Q := fun _ => True) hD h i fun _ _ => trivial
  have h3 := alone_answer h1 ha
  unfold Call.Finished at h3
  rw [if_neg (by rw [hc]; decide)] at h3
  obtain ⟨ms, -, h3⟩ := h3
  exact ⟨ms, s, h3, h2⟩

/-- **Returned means done.** If a call has returned, on one core or on two, then the study alone on one core returns from
the same disk, and the folder of the study is as that leaves it. -/
theorem C122_returned (hD : Different calls base) {fs : FS Data} {ss : List (ι × Act)} {P : Pool ι}
    (h : (Pool.start fs).acts calls ss = some P) {i : ι} (ha : (P.runs i).answer = some (.ok ())) :
    (Disk.main (calls i).libs (calls i).gekko (calls i).removal (.path (calls i).xlsx) (.path (calls i).outdir)
      (calls i).overwrite fs).result = .ok () ∧
    ∀ q, Below (home (calls i) (base i)) q → P.disk q =
      (Disk.main (calls i).libs (calls i).gekko (calls i).removal (.path (calls i).xlsx) (.path (calls i).outdir)
        (calls i).overwrite fs).disk q := by
  cases hc : (calls i).singlecore with
  | true =>
    obtain ⟨h1, h2⟩ := C122_one_core hD h hc ha
    exact ⟨h1.symm, h2⟩
  | false =>
    obtain ⟨ms, disk, h1, h2⟩ := C122_two_cores hD h hc ha
    obtain ⟨h3, h4⟩ := C121_returned h1
    exact ⟨h3, fun q hq => by rw [h2 q hq, h4]⟩

/-- **Quietly every study that can return does.** If a study returns alone on one core, then its call among others, if its
steps are quiet and it has ended, has returned. -/
theorem C122_quiet_end (hD : Different calls base) {fs : FS Data} {ss : List (ι × Act)} {P : Pool ι}
    (h : (Pool.start fs).acts calls ss = some P) {i : ι}
    (h1 : (Disk.main (calls i).libs (calls i).gekko (calls i).removal (.path (calls i).xlsx) (.path (calls i).outdir)
      (calls i).overwrite fs).result = .ok ()) (hq : QuietSteps (own i ss)) {a : Except PyErr Unit}
    (ha : (P.runs i).answer = some a) : a = .ok () := by
  obtain ⟨s, h2, -, -, -⟩ := pool_is hD h i hq
  have h3 := alone_answer h2 ha
  unfold Call.Finished at h3
  split at h3
  · exact h3.1.trans h1
  · obtain ⟨ms, h4, h5⟩ := h3
    exact (C121_quiet_end h1 h4 h5).1

/-- A call that has been alone and quiet, for a study that returns on one core, can go on quietly to an end. -/
theorem alone_goes_on {c : Call} {fs s : FS Data} {r : Running}
    (h1 : (Disk.main c.libs c.gekko c.removal (.path c.xlsx) (.path c.outdir) c.overwrite fs).result = .ok ())
    (h2 : r.Alone c (fun m => m ≠ .timeout ∧ ∀ c, m ≠ .kill c) fs s) :
    ∃ more r' s', QuietSteps more ∧ r.acts c s more = some (r', s') ∧ ∃ a, r' = .ended a := by
  have quietGo : ∀ n, QuietSteps (List.replicate n .go) := fun n m hm => by
    have := List.eq_of_mem_replicate hm
    cases this
  have join : ∀ {xs ys : List Act}, QuietSteps xs → QuietSteps ys → QuietSteps (xs ++ ys) := fun h1 h2 m hm =>
    (List.mem_append.mp hm).elim (h1 m) (h2 m)
  -- from a state of the two processes
  have two : ∀ {r : Running} {s : FS Data}, r.Alone c (fun m => m ≠ .timeout ∧ ∀ c, m ≠ .kill c) fs s →
      r.straight = false → ∃ more r' s', QuietSteps more ∧ r.acts c s more = some (r', s') ∧ ∃ a, r' = .ended a := by
    intro r s hr hn
    cases r with
    | two o proc job parent =>
      obtain ⟨-, h2, ms, h3, h4⟩ := hr
      obtain ⟨more, e1, e2⟩ := C121_goes_on h1 h2 h3 h4
      unfold TwoCores at e2
      rw [show (opening c.removal (.path c.xlsx) (.path c.outdir) c.overwrite fs).result = _
        from h2] at e2
      obtain ⟨m, e2, e3⟩ := e2
      have e4 : o.moves c.libs c.gekko c.removal ⟨s, proc, job, parent⟩ more = some m := by
        unfold Opened.moves Call.opening at h4
        unfold Opened.moves at e2 ⊢
        rw [moves_append, h4] at e2
        exact e2
      have e5 := moves_acts e4
      split at e3
      · rename_i hp
        rw [hp] at e5
        obtain ⟨n, a, s', k1⟩ := late_ends (c := c)
          (Prog.kpis c.libs c.removal (lastName o.root) o.root) m.disk
        refine ⟨more.map .move ++ .go :: List.replicate n .go, _, s', join (fun m hm => ?_) (quietGo (n + 1)), ?_, a, rfl⟩
        · obtain ⟨m', hm', e⟩ := List.mem_map.mp hm
          cases e
          exact e1 m hm'
        · rw [run_append, e5]
          exact k1
      · cases e3.1
      · exact e3.elim
    | _ => cases hn
  obtain ⟨n, r', s', k1, k2⟩ := goes_straight (c := c) r s
  rcases k2 with k2 | ⟨a, rfl⟩
  · have hr := alone_acts h2 (fun m hm => quietGo n m hm) k1
    obtain ⟨more, r'', s'', e1, e2, e3⟩ := two hr k2
    refine ⟨List.replicate n .go ++ more, r'', s'', join (quietGo n) e1, ?_, e3⟩
    rw [run_append, k1]
    exact e2
  · exact ⟨_, _, s', quietGo n, k1, a, rfl⟩

/-- **It can always go on to the end.** If a study returns alone on one core, then its call among others, wherever the
others are and as long as its own steps have been quiet, can go on quietly by itself and return. -/
theorem C122_goes_on (hD : Different calls base) {fs : FS Data} {ss : List (ι × Act)} {P : Pool ι}
    (h : (Pool.start fs).acts calls ss = some P) {i : ι}
    (h1 : (Disk.main (calls i).libs (calls i).gekko (calls i).removal (.path (calls i).xlsx) (.path (calls i).outdir)
      (calls i).overwrite fs).result = .ok ()) (hq : QuietSteps (own i ss)) :
    ∃ more P', QuietSteps more ∧ P.acts calls (more.map fun x => (i, x)) = some P' ∧
      (P'.runs i).answer = some (.ok ()) ∧ ∀ j, j ≠ i → P'.runs j = P.runs j := by
  obtain ⟨s, h2, h3, h4, -⟩ := pool_is hD h i hq
  obtain ⟨more, r', s', e1, e2, a, rfl⟩ := alone_goes_on h1 h2
  obtain ⟨P', k1, k2, k3, -⟩ := pool_follow h4 h3 e2
  refine ⟨more, P', e1, k1, ?_, k3⟩
  have hall : (Pool.start fs).acts calls (ss ++ more.map fun x => (i, x)) = some P' := by
    rw [acts_append, h]
    exact k1
  have hown : own i (ss ++ more.map fun x => (i, x)) = own i ss ++ more := by
    unfold own
    rw [List.filter_append, List.map_append]
    congr 1
    rw [List.filter_eq_self.mpr (by intro y hy; obtain ⟨x, -, rfl⟩ := List.mem_map.mp hy; simp), List.map_map]
    exact List.map_id _
  have hans : (P'.runs i).answer = some a := by rw [k2]; rfl
  rw [hans, C122_quiet_end hD hall h1 (by
    rw [hown]
    intro m hm
    rcases List.mem_append.mp hm with hm | hm
    · exact hq m hm
    · exact e1 m hm) hans]

/-- **No schedule goes on for ever**, quiet or not, however many calls there are: after some number of steps the next one
is impossible. -/
theorem C122_ends [Finite ι] (P : Pool ι) (schedule : ℕ → ι × Act) :
    ∃ k, P.acts calls ((List.range k).map schedule) = none :=
  pool_ends P schedule

/-! ## Every moment -/

/-- **At every moment as at a moment alone.** Wherever all calls are cut off, the folder of each study is as it is at the
beginning, or as at a moment of the study alone: on one core one of the moments of that, on two cores one at which the two
processes can be cut off. -/
theorem C122_any_moment (hD : Different calls base) {fs : FS Data} {ss : List (ι × Act)} {P : Pool ι}
    (h : (Pool.start fs).acts calls ss = some P) (i : ι) :
    ∃ s, (s = fs ∨
      if (calls i).singlecore then
        s ∈ (Disk.main (calls i).libs (calls i).gekko (calls i).removal (.path (calls i).xlsx) (.path (calls i).outdir)
          (calls i).overwrite fs).states
      else TwoCoresAt (calls i).libs (calls i).gekko (calls i).removal (.path (calls i).xlsx) (.path (calls i).outdir)
        (calls i).overwrite fs s) ∧
      ∀ q, Below (home (calls i) (base i)) q → P.disk q = s q := by
  obtain ⟨s, h1, -, -, h2⟩ := pool_is (Q := fun _ => True) hD h i fun _ _ => trivial
  refine ⟨s, ?_, h2⟩
  cases hc : (calls i).singlecore with
  | true => exact alone_moment_one hc h1
  | false => exact alone_moment_two hc h1

/-- **No wrong results.** Wherever all calls are cut off, a file of results of each study holds what it held before, or is
one that was being written at that moment, or holds the results of its combination as the workbook of that study gives
them. -/
theorem C122_cut_off (hD : Different calls base) {fs : FS Data} (ht : Tree fs) {ss : List (ι × Act)} {P : Pool ι}
    (h : (Pool.start fs).acts calls ss = some P) {i : ι} (hn : NoFileAt fs (home (calls i) (base i)))
    (hd : fs (calls i).outdir = some .dir) (hout : ¬ Below (home (calls i) (base i)) (calls i).xlsx) {wb : Pandas.Workbook}
    (hx : fs (calls i).xlsx = some (.file (.workbook wb))) {z : ℤ × ℤ} {v : Node Data}
    (hv : P.disk (resultsAt (home (calls i) (base i)) z) = some v) :
    fs (resultsAt (home (calls i) (base i)) z) = some v ∨ v = .file .torn ∨
      ∃ o, v = .file (.results o) ∧ RunOf (calls i).libs (calls i).gekko wb z (rows o) := by
  obtain ⟨s, hs, h2⟩ := C122_any_moment hD h i
  rw [h2 (resultsAt _ z) ⟨_, rfl⟩] at hv
  rcases hs with rfl | hs
  · exact .inl hv
  · split at hs
    · exact C120_cut_off (hD.book i) (hD.name i) ht hn hd hout hx hs hv
    · exact C121_cut_off (hD.book i) (hD.name i) ht hn hd hout hx hs hv

/-! ## Which studies are different -/

omit [DecidableEq ι] in
/-- **Different names are enough.** Workbooks with different names, into one output directory, are different studies, if
the workbooks are not inside the folders of the studies. -/
theorem C122_names {d : FPath} (hd : ∀ i, (calls i).outdir = d) (hw : ∀ i, Workbook (calls i).xlsx (base i))
    (hb : ∀ i, Ordinary (base i)) (hne : ∀ i j, i ≠ j → base i ≠ base j)
    (hx : ∀ i j, i ≠ j → ¬ Below (d ++ [base i]) (calls j).xlsx) : Different calls base where
  book := hw
  name := hb
  apart := fun i j hij h => by
    unfold Below home at h
    rw [hd i, hd j] at h
    have := h.eq_of_length (by simp)
    exact hne i j hij (by simpa using this)
  books := fun i j hij h => hx i j hij (by unfold home at h; rwa [hd i] at h)

omit [DecidableEq ι] in
/-- **Different output directories are enough**, if neither is inside the other's study and the workbooks are elsewhere. -/
theorem C122_directories (hw : ∀ i, Workbook (calls i).xlsx (base i)) (hb : ∀ i, Ordinary (base i))
    (hne : ∀ i j, i ≠ j → (calls i).outdir ≠ (calls j).outdir)
    (hd : ∀ i j, i ≠ j → ¬ Below (home (calls i) (base i)) (calls j).outdir)
    (hx : ∀ i j, i ≠ j → ¬ Below (home (calls i) (base i)) (calls j).xlsx) : Different calls base where
  book := hw
  name := hb
  apart := fun i j hij h => by
    rcases List.prefix_concat_iff.mp (show home (calls i) (base i) <+: (calls j).outdir ++ [base j] from h) with e | h
    · exact hne i j hij (List.append_inj' e rfl).1
    · exact hd i j hij h
  books := hx

/-! ## Two studies -/

/-- A disk with two workbooks and an output directory, with an earlier run of the first. -/
def Spec.pairDisk (wb : Pandas.Workbook) : FS Data := fun p =>
  if p = ["v.xlsx".toList] then some (.file (.workbook wb)) else studyDisk wb p

/-- Two studies at once: the first on two cores over an earlier run, the second on one core. -/
def Spec.pairCalls (L : Libs) (gekko : Gekko) : Bool → Call
  | true => ⟨L, gekko, sampleRemoval, ["w.xlsx".toList], [['d']], true, false⟩
  | false => ⟨L, gekko, sampleRemoval, ["v.xlsx".toList], [['d']], false, true⟩

/-- Their names. -/
def Spec.pairNames : Bool → Name
  | true => ['w']
  | false => ['v']

theorem pair_different (L : Libs) (gekko : Gekko) : Different (pairCalls L gekko) pairNames := by
  refine C122_names (d := [['d']]) (fun i => by cases i <;> rfl) (fun i => ?_) (fun i => ?_) (fun i j h => ?_) fun i j _ => ?_
  · cases i
    · exact ⟨[], "xlsx".toList, rfl, by decide, by decide⟩
    · exact ⟨[], "xlsx".toList, rfl, by decide, by decide⟩
  · cases i <;> unfold Ordinary <;> decide
  · revert h; cases i <;> cases j <;> decide
  · unfold Below; cases i <;> cases j <;> simp only [pairNames, pairCalls] <;> decide

theorem pairDisk_tree (wb : Pandas.Workbook) : Tree (pairDisk wb) := by
  intro p n h
  have hp : ∀ q : FPath, q ≠ ["v.xlsx".toList] → pairDisk wb q = studyDisk wb q := fun q hq => if_neg hq
  by_cases e : p ++ [n] = ["v.xlsx".toList]
  · have : p = [] := (List.append_inj' (show p ++ [n] = [] ++ ["v.xlsx".toList] from e) rfl).1
    subst this
    rw [hp _ (by decide)]
    exact if_pos (by decide)
  · rw [hp _ e] at h
    have := studyDisk_tree wb p n h
    by_cases e' : p = ["v.xlsx".toList]
    · rw [e'] at this
      unfold studyDisk at this
      rw [if_neg (by decide), if_neg (by decide), if_neg (by decide)] at this
      cases this
    · rw [hp _ e']; exact this

attribute [local irreducible] Report.Ends Sample.stores Sample.wallLibs

/-- Each of the two returns alone. -/
theorem pair_returns (gekko : Gekko) (i : Bool) :
    (Disk.main (pairCalls Sample.wallLibs gekko i).libs (pairCalls Sample.wallLibs gekko i).gekko
      (pairCalls Sample.wallLibs gekko i).removal (.path (pairCalls Sample.wallLibs gekko i).xlsx)
      (.path (pairCalls Sample.wallLibs gekko i).outdir) (pairCalls Sample.wallLibs gekko i).overwrite
      (pairDisk Sample.stores)).result = .ok () := by
  have hp : ∀ q : FPath, q ≠ ["v.xlsx".toList] → pairDisk Sample.stores q = studyDisk Sample.stores q := fun q hq => if_neg hq
  have hd : pairDisk Sample.stores [['d']] = some .dir := (hp _ (by decide)).trans (studyDisk_dir _)
  cases i with
  | true =>
    obtain ⟨files, st, h, -⟩ := sample_study_written gekko (String.ofList ['w'])
    exact (C120_answer (E := sampleRemoval) (overwrite := true) sample_workbook.1 sample_workbook.2.1 (pairDisk_tree _)
      (fun c h => by rw [hp _ (by decide), studyDisk_folder] at h; cases h) hd (.inl ⟨rfl, rfl⟩) sample_workbook.2.2
      ((hp _ (by decide)).trans (studyDisk_book _)) (one_core h)).1
  | false =>
    obtain ⟨files, st, h, -⟩ := sample_study_written gekko (String.ofList ['v'])
    have hv : pairDisk Sample.stores ([['d']] ++ [['v']]) = none := by
      rw [hp _ (by decide)]
      unfold studyDisk
      rw [if_neg (by decide), if_neg (by decide), if_neg (by decide)]
    exact (C120_answer (E := sampleRemoval) (overwrite := false) (d := [['d']]) (base := ['v'])
      ((pair_different Sample.wallLibs gekko).book false) ((pair_different Sample.wallLibs gekko).name false) (pairDisk_tree _)
      (fun c h => by rw [hv] at h; cases h) hd (.inr hv)
      (by unfold Below; simp only [pairCalls]; decide) (if_pos rfl) (one_core h)).1

/-- Wherever the two are, the first can go on to return, then the second, and each has left what it leaves alone. -/
example (gekko : Gekko) : ∃ ss P, (Pool.start (pairDisk Sample.stores)).acts (pairCalls Sample.wallLibs gekko) ss = some P ∧
    (∀ i, (P.runs i).answer = some (.ok ()) ∧
      ∀ q, Below (home (pairCalls Sample.wallLibs gekko i) (pairNames i)) q → P.disk q =
        (Disk.main (pairCalls Sample.wallLibs gekko i).libs (pairCalls Sample.wallLibs gekko i).gekko
          (pairCalls Sample.wallLibs gekko i).removal (.path (pairCalls Sample.wallLibs gekko i).xlsx)
          (.path (pairCalls Sample.wallLibs gekko i).outdir) (pairCalls Sample.wallLibs gekko i).overwrite
          (pairDisk Sample.stores)).disk q) ∧
    ∀ q, (∀ i, ¬ Below (home (pairCalls Sample.wallLibs gekko i) (pairNames i)) q) → P.disk q = pairDisk Sample.stores q := by
  have hD := pair_different Sample.wallLibs gekko
  -- a few steps of both
  obtain ⟨more, P1, q1, h1, h2, -⟩ := C122_goes_on (ss := []) hD rfl (pair_returns gekko true)
    (fun m hm => absurd hm (by simp [own]))
  have hown : own false (more.map fun x => (true, x)) = [] := by
    unfold own
    rw [List.filter_eq_nil_iff.mpr (by intro y hy; obtain ⟨x, -, rfl⟩ := List.mem_map.mp hy; simp)]
    rfl
  obtain ⟨more', P2, -, h3, h4, h5⟩ := C122_goes_on (i := false) hD h1 (pair_returns gekko false) (by
    rw [hown]; exact fun m hm => absurd hm (by simp))
  have hP : (Pool.start (pairDisk Sample.stores)).acts (pairCalls Sample.wallLibs gekko)
      ((more.map fun x => (true, x)) ++ more'.map fun x => (false, x)) = some P2 := by rw [acts_append, h1]; exact h3
  have ha : ∀ i, (P2.runs i).answer = some (.ok ()) := by
    intro i
    cases i
    · exact h4
    · rw [h5 true (by decide)]; exact h2
  exact ⟨_, P2, hP, fun i => ⟨ha i, fun q hq => (C122_returned hD hP (ha i)).2 q hq⟩, fun q hq => C122_elsewhere hD hP hq⟩

end Verif
