import Verif.Lemmas.TogetherSame
import Verif.Props.Together

/-!
# Runs that are started for the same study at the same time (C123)
-/

set_option autoImplicit false

namespace Verif
open Files Para Disk Programme Simulation Report

/-! ## Vocabulary -/

/-- Calls for one study, none of which is to overwrite: they have one output directory, which is there, workbooks of one
name, which are there and not inside the folder of the study. -/
structure Spec.Same {ι : Type} (calls : ι → Call) (d : FPath) (base : Name) (fs : FS Data) : Prop where
  outdir : ∀ i, (calls i).outdir = d
  book : ∀ i, Spec.Workbook (calls i).xlsx base
  name : Spec.Ordinary base
  keep : ∀ i, (calls i).overwrite = false
  there : fs d = some .dir
  input : ∀ i, fs (calls i).xlsx ≠ none
  outside : ∀ i, ¬ Spec.Below (d ++ [base]) (calls i).xlsx

open Spec

variable {ι : Type} [DecidableEq ι] {calls : ι → Call} {d : FPath} {base : Name} {fs : FS Data}

theorem same_maker (hS : Same calls d base fs) {ss : List (ι × Act)} {P : Pool ι}
    (h : (Pool.start fs).acts calls ss = some P) : P.OneMaker calls (d ++ [base]) fs ss :=
  one_maker (fun i => by
      rw [show (calls i).root = (calls i).outdir ++ [base] from target_eq (hS.book i) hS.name, hS.outdir i])
    hS.keep hS.input hS.outside (fun i => by rw [hS.outdir i, hS.there]; simp)
    (fun i h => by rw [hS.outdir i] at h; simpa using h.length_le)
    (by rw [List.dropLast_concat]; exact hS.there) h

theorem outside_answer {p : Prop} {r : Running} (h : r.Outside p) :
    r.answer = none ∨ (p ∧ r.answer = some (.error .fileExistsError)) := by
  cases r with
  | ended a =>
    cases a with
    | ok => exact h.elim
    | error e => cases e <;> first | exact h.elim | exact .inr ⟨h, rfl⟩
  | two o proc job parent => exact h.elim
  | _ => exact .inl rfl

/-! ## One of them -/

/-- **One gets the folder, the others are refused.** Whatever the order in which any number of calls for one study, none
with the flag to overwrite, look at the disk and change it: either nothing has been changed, and if there was nothing at
the place of the folder no call has ended; or there was nothing, and one call, `w`, is where it would be if it had been
alone on the disk, the disk is the one it would have left then, and of the others those that have ended have raised
`FileExistsError`. -/
theorem C123_one (hS : Same calls d base fs) {ss : List (ι × Act)} {P : Pool ι}
    (h : (Pool.start fs).acts calls ss = some P) :
    (P.disk = fs ∧ ∀ i a, (P.runs i).answer = some a → fs (d ++ [base]) ≠ none ∧ a = .error .fileExistsError) ∨
    (fs (d ++ [base]) = none ∧ ∃ w, Running.started.acts (calls w) fs (own w ss) = some (P.runs w, P.disk) ∧
      ∀ j, j ≠ w → ∀ a, (P.runs j).answer = some a → a = .error .fileExistsError) := by
  rcases same_maker hS h with ⟨h1, h2⟩ | ⟨h1, -, w, h2, -, -, -, h3⟩
  · refine .inl ⟨h1, fun i a ha => ?_⟩
    rcases outside_answer (h2 i).1 with h | ⟨h, h'⟩
    · rw [h] at ha; cases ha
    · rw [h'] at ha; cases ha; exact ⟨h, rfl⟩
  · refine .inr ⟨h1, w, h2, fun j hj a ha => ?_⟩
    rcases outside_answer (h3 j hj) with h | ⟨-, h'⟩
    · rw [h] at ha; cases ha
    · rw [h'] at ha; cases ha; rfl

/-- **An earlier run is safe.** If there is anything at the place of the folder, the calls change nothing, and whichever
has ended has raised `FileExistsError`. -/
theorem C123_earlier_run (hS : Same calls d base fs) (he : fs (d ++ [base]) ≠ none) {ss : List (ι × Act)} {P : Pool ι}
    (h : (Pool.start fs).acts calls ss = some P) :
    P.disk = fs ∧ ∀ i a, (P.runs i).answer = some a → a = .error .fileExistsError := by
  rcases C123_one hS h with ⟨h1, h2⟩ | ⟨h1, -⟩
  · exact ⟨h1, fun i a ha => (h2 i a ha).2⟩
  · exact absurd h1 he

/-- **At most one goes on**: of two calls that have ended one has raised `FileExistsError`. -/
theorem C123_at_most_one (hS : Same calls d base fs) {ss : List (ι × Act)} {P : Pool ι}
    (h : (Pool.start fs).acts calls ss = some P) {i j : ι} (hij : i ≠ j) {a b : Except PyErr Unit}
    (ha : (P.runs i).answer = some a) (hb : (P.runs j).answer = some b) :
    a = .error .fileExistsError ∨ b = .error .fileExistsError := by
  rcases C123_one hS h with ⟨-, h2⟩ | ⟨-, w, -, h2⟩
  · exact .inl (h2 i a ha).2
  · by_cases hw : i = w
    · exact .inr (h2 j (fun e => hij (hw.trans e.symm)) b hb)
    · exact .inl (h2 i hw a ha)

/-- **The disk is of one hand.** At every moment the disk is as it was, or as at a moment of one of the calls alone. -/
theorem C123_any_moment (hS : Same calls d base fs) {ss : List (ι × Act)} {P : Pool ι}
    (h : (Pool.start fs).acts calls ss = some P) :
    P.disk = fs ∨ ∃ w, if (calls w).singlecore then
        P.disk ∈ (Disk.main (calls w).libs (calls w).gekko (calls w).removal (.path (calls w).xlsx)
          (.path (calls w).outdir) (calls w).overwrite fs).states
      else TwoCoresAt (calls w).libs (calls w).gekko (calls w).removal (.path (calls w).xlsx) (.path (calls w).outdir)
        (calls w).overwrite fs P.disk := by
  rcases C123_one hS h with ⟨h1, -⟩ | ⟨-, w, h1, -⟩
  · exact .inl h1
  · have h2 := alone_acts (Q := fun _ => True) (alone_start _ _ fs) (fun _ _ => trivial) h1
    cases hc : (calls w).singlecore with
    | true =>
      rcases alone_moment_one hc h2 with h | h
      · exact .inl h
      · exact .inr ⟨w, by rw [hc]; exact h⟩
    | false =>
      rcases alone_moment_two hc h2 with h | h
      · exact .inl h
      · exact .inr ⟨w, by rw [hc]; exact h⟩

/-- **Returned means done.** If a call has returned, then the study alone on one core returns from the same disk, and the
whole disk is as that leaves it, wherever the other calls are. -/
theorem C123_returned (hS : Same calls d base fs) {ss : List (ι × Act)} {P : Pool ι}
    (h : (Pool.start fs).acts calls ss = some P) {i : ι} (ha : (P.runs i).answer = some (.ok ())) :
    (Disk.main (calls i).libs (calls i).gekko (calls i).removal (.path (calls i).xlsx) (.path (calls i).outdir)
      (calls i).overwrite fs).result = .ok () ∧
    P.disk = (Disk.main (calls i).libs (calls i).gekko (calls i).removal (.path (calls i).xlsx) (.path (calls i).outdir)
      (calls i).overwrite fs).disk := by
  rcases C123_one hS h with ⟨-, h2⟩ | ⟨-, w, h1, h2⟩
  · cases (h2 i _ ha).2
  · by_cases hw : i = w
    · subst hw
      have h3 := alone_answer (alone_acts (Q := fun _ => True) (alone_start _ _ fs) (fun _ _ => trivial) h1) ha
      unfold Call.Finished at h3
      split at h3
      · exact ⟨h3.1.symm, h3.2⟩
      · obtain ⟨ms, -, h3⟩ := h3
        obtain ⟨h4, h5⟩ := C121_returned h3
        exact ⟨h4, h5.symm⟩
    · cases h2 i hw _ ha

/-- **One of them gets to the end.** If the study returns alone on one core whichever of the calls it is, then, wherever the calls are and as long as their steps have been quiet, they can go on
so that one of them returns. -/
theorem C123_goes_on [Nonempty ι] (hS : Same calls d base fs) {ss : List (ι × Act)} {P : Pool ι}
    (h : (Pool.start fs).acts calls ss = some P)
    (h1 : ∀ i, (Disk.main (calls i).libs (calls i).gekko (calls i).removal (.path (calls i).xlsx)
      (.path (calls i).outdir) (calls i).overwrite fs).result = .ok ()) (hq : ∀ i, QuietSteps (own i ss)) :
    ∃ i more P', QuietSteps more ∧ P.acts calls (more.map fun x => (i, x)) = some P' ∧
      (P'.runs i).answer = some (.ok ()) := by
  have key : ∀ i, Running.started.acts (calls i) fs (own i ss) = some (P.runs i, P.disk) → (P.runs i).Fits (calls i) →
      ∃ i more P', QuietSteps more ∧ P.acts calls (more.map fun x => (i, x)) = some P' ∧
        (P'.runs i).answer = some (.ok ()) := by
    intro i hi hf
    obtain ⟨more, r', s', e1, e2, a, rfl⟩ := alone_goes_on (h1 i) (alone_acts (alone_start _ _ fs) (hq i) hi)
    obtain ⟨P', k1, k2, -, -⟩ := pool_follow hf (fun _ _ => rfl : On _ P.disk P.disk) e2
    refine ⟨i, more, P', e1, k1, ?_⟩
    have hans : (P'.runs i).answer = some a := by rw [k2]; rfl
    -- alone it ends like this
    have hall : Running.started.acts (calls i) fs (own i ss ++ more) = some (.ended a, s') := by
      rw [run_append, hi]
      exact e2
    have h3 := alone_answer (alone_acts (Q := fun m => m ≠ .timeout ∧ ∀ c, m ≠ .kill c) (alone_start _ _ fs) (fun m hm => by
      rcases List.mem_append.mp hm with hm | hm
      · exact hq i m hm
      · exact e1 m hm) hall) rfl
    rw [hans]
    congr 1
    unfold Call.Finished at h3
    split at h3
    · exact h3.1.trans (h1 i)
    · obtain ⟨ms, h4, h5⟩ := h3
      exact (C121_quiet_end (h1 i) h4 h5).1
  rcases same_maker hS h with ⟨e1, e2⟩ | ⟨-, -, w, e1, -, e2, -⟩
  · obtain ⟨i⟩ := ‹Nonempty ι›
    obtain ⟨e3, e4⟩ := e2 i
    refine key i (by rw [e1]; exact e4) ?_
    cases hr : P.runs i with
    | removing p => rw [hr] at e3; exact e3.elim
    | early p => rw [hr] at e3; exact e3.elim
    | two o proc job parent => rw [hr] at e3; exact e3.elim
    | late p => rw [hr] at e3; exact e3.elim
    | _ => trivial
  · exact key w e1 e2

/-! ## Two runs of one study -/

/-- A disk with a workbook and an output directory. -/
def Spec.newDisk (wb : Pandas.Workbook) : FS Data := fun p =>
  if p = [] ∨ p = [['d']] then some .dir
  else if p = ["w.xlsx".toList] then some (.file (.workbook wb))
  else none

/-- The study twice at once, on two cores and on one. -/
def Spec.twice (L : Libs) (gekko : Gekko) (overwrite : Bool) (i : Bool) : Call :=
  ⟨L, gekko, sampleRemoval, ["w.xlsx".toList], [['d']], overwrite, i⟩

theorem newDisk_tree (wb : Pandas.Workbook) : Tree (newDisk wb) := by
  intro p n h
  have key : ∀ m : FPath, ∀ a : Name, p ++ [n] = m ++ [a] → p = m := fun m a h => (List.append_inj' h rfl).1
  unfold newDisk at h
  split_ifs at h with h1 h2
  · rcases h1 with h1 | h1
    · simp at h1
    · rw [key [] _ h1]; exact if_pos (by decide)
  · rw [key [] _ h2]; exact if_pos (by decide)
  · exact absurd rfl h

theorem twice_same (L : Libs) (gekko : Gekko) (wb : Pandas.Workbook) :
    Same (twice L gekko false) [['d']] ['w'] (newDisk wb) where
  outdir := fun _ => rfl
  book := fun _ => sample_workbook.1
  name := sample_workbook.2.1
  keep := fun _ => rfl
  there := if_pos (by decide)
  input := fun i => by
    show newDisk wb ["w.xlsx".toList] ≠ none
    unfold newDisk
    rw [if_neg (by decide), if_pos rfl]
    simp
  outside := fun _ => sample_workbook.2.2

/-- The first makes the folder, the second removes it, the first cannot write. -/
theorem twice_destroys (L : Libs) (gekko : Gekko) (wb : Pandas.Workbook) :
    ∃ P, (Pool.start (newDisk wb)).acts (twice L gekko true) ([true, true, true, true, false, false, false, false, false,
      false, true, true].map fun i => (i, .go)) = some P ∧ (P.runs true).answer = some (.error .fileNotFoundError) :=
  ⟨_, rfl, rfl⟩

/-- Both find nothing, one makes the folder, the other cannot. -/
theorem twice_refuses (L : Libs) (gekko : Gekko) (wb : Pandas.Workbook) :
    ∃ P, (Pool.start (newDisk wb)).acts (twice L gekko true) ([true, true, true, false, false, false, true,
      false].map fun i => (i, .go)) = some P ∧ (P.runs false).answer = some (.error .fileExistsError) :=
  ⟨_, rfl, rfl⟩

/-- Over an earlier run both are refused, and nothing is changed. -/
example (L : Libs) (gekko : Gekko) (wb : Pandas.Workbook) {ss : List (Bool × Act)} {P : Pool Bool}
    (h : (Pool.start (studyDisk wb)).acts (twice L gekko false) ss = some P) : P.disk = studyDisk wb :=
  (C123_earlier_run (d := [['d']]) (base := ['w'])
    ⟨fun _ => rfl, fun _ => sample_workbook.1, sample_workbook.2.1, fun _ => rfl, studyDisk_dir wb,
      fun _ => by rw [show (twice L gekko false _).xlsx = ["w.xlsx".toList] from rfl, studyDisk_book]; simp,
      fun _ => sample_workbook.2.2⟩
    (by rw [studyDisk_folder]; simp) h).1

/-- With a schedule: the first is refused. -/
example (L : Libs) (gekko : Gekko) (wb : Pandas.Workbook) :
    ∃ P, (Pool.start (studyDisk wb)).acts (twice L gekko false) ([true, false, true, true].map fun i => (i, .go)) = some P ∧
      (P.runs true).answer = some (.error .fileExistsError) := ⟨_, rfl, rfl⟩

attribute [local irreducible] Report.Ends Sample.stores Sample.wallLibs

theorem newDisk_free (wb : Pandas.Workbook) : newDisk wb ([['d']] ++ [['w']]) = none := by
  unfold newDisk
  rw [if_neg (by decide), if_neg (by decide)]

theorem twice_returns (gekko : Gekko) (overwrite i : Bool) :
    (Disk.main (twice Sample.wallLibs gekko overwrite i).libs (twice Sample.wallLibs gekko overwrite i).gekko
      (twice Sample.wallLibs gekko overwrite i).removal (.path (twice Sample.wallLibs gekko overwrite i).xlsx)
      (.path (twice Sample.wallLibs gekko overwrite i).outdir) (twice Sample.wallLibs gekko overwrite i).overwrite
      (newDisk Sample.stores)).result = .ok () := by
  obtain ⟨files, st, h, -⟩ := sample_study_written gekko (String.ofList ['w'])
  have hv := newDisk_free Sample.stores
  exact (C120_answer (E := sampleRemoval) (overwrite := overwrite) sample_workbook.1 sample_workbook.2.1 (newDisk_tree _)
    (fun c h => by rw [hv] at h; cases h) (if_pos (by decide)) (.inr hv) sample_workbook.2.2
    (by unfold newDisk; rw [if_neg (by decide), if_pos rfl]) (one_core h)).1

/-- One of the two can return. What it leaves is what it leaves alone, and the other does not return. -/
example (gekko : Gekko) : ∃ i ss P, (Pool.start (newDisk Sample.stores)).acts (twice Sample.wallLibs gekko false) ss = some P ∧
    (P.runs i).answer = some (.ok ()) ∧
    P.disk = (Disk.main (twice Sample.wallLibs gekko false i).libs (twice Sample.wallLibs gekko false i).gekko
      (twice Sample.wallLibs gekko false i).removal (.path (twice Sample.wallLibs gekko false i).xlsx)
      (.path (twice Sample.wallLibs gekko false i).outdir) (twice Sample.wallLibs gekko false i).overwrite
      (newDisk Sample.stores)).disk ∧
    (P.runs (!i)).answer ≠ some (.ok ()) := by
  obtain ⟨i, more, P', -, h1, h2⟩ := C123_goes_on (ss := []) (twice_same Sample.wallLibs gekko Sample.stores)
    rfl (twice_returns gekko false) fun i m hm => absurd hm (by simp [own])
  have hS := twice_same Sample.wallLibs gekko Sample.stores
  refine ⟨i, _, P', h1, h2, (C123_returned hS h1 h2).2, fun h3 => ?_⟩
  rcases C123_at_most_one hS h1 (show i ≠ !i by cases i <;> decide) h2 h3 with h | h <;> cases h

/-- **With the flag to overwrite they can destroy each other's work.** Two calls for one study, each to overwrite, on a
disk where each of them returns alone: in some order the first makes the folder, the second removes it, and the first
raises `FileNotFoundError`. -/
theorem C123_overwrite_fails (gekko : Gekko) :
    (∀ i, (Disk.main (twice Sample.wallLibs gekko true i).libs (twice Sample.wallLibs gekko true i).gekko
      (twice Sample.wallLibs gekko true i).removal (.path (twice Sample.wallLibs gekko true i).xlsx)
      (.path (twice Sample.wallLibs gekko true i).outdir) (twice Sample.wallLibs gekko true i).overwrite
      (newDisk Sample.stores)).result = .ok ()) ∧
    ∃ ss P, (Pool.start (newDisk Sample.stores)).acts (twice Sample.wallLibs gekko true) ss = some P ∧
      (P.runs true).answer = some (.error .fileNotFoundError) := by
  obtain ⟨P, h1, h2⟩ := twice_destroys Sample.wallLibs gekko Sample.stores
  exact ⟨twice_returns gekko true, _, P, h1, h2⟩

/-- **With the flag to overwrite one of them can be refused all the same.** On that disk, in some order, both find no
folder, one makes it, and the other raises `FileExistsError`. -/
theorem C123_overwrite_refused (gekko : Gekko) :
    (∀ i, (Disk.main (twice Sample.wallLibs gekko true i).libs (twice Sample.wallLibs gekko true i).gekko
      (twice Sample.wallLibs gekko true i).removal (.path (twice Sample.wallLibs gekko true i).xlsx)
      (.path (twice Sample.wallLibs gekko true i).outdir) (twice Sample.wallLibs gekko true i).overwrite
      (newDisk Sample.stores)).result = .ok ()) ∧
    ∃ ss P, (Pool.start (newDisk Sample.stores)).acts (twice Sample.wallLibs gekko true) ss = some P ∧
      (P.runs false).answer = some (.error .fileExistsError) := by
  obtain ⟨P, h1, h2⟩ := twice_refuses Sample.wallLibs gekko Sample.stores
  exact ⟨twice_returns gekko true, _, P, h1, h2⟩

end Verif
