import Verif.Lemmas.Main
import Verif.Props.OutputProcess

/-!
# One core and two cores give the same (C54)
-/

set_option autoImplicit false

namespace Verif
open OutputProcess Spec
open Main hiding finish
variable {N R F K : Type} [DecidableEq N] {P : Parts N R F K}

omit [DecidableEq N] in
theorem plotOutcome_noSilent : NoSilentExit (plotOutcome P) := by
  intro j h
  unfold plotOutcome at h
  split at h
  · cases h
  · split at h <;> cases h

omit [DecidableEq N] in
theorem procView_append (es es' : List (Event2 N)) : procView (es ++ es') = procView es ++ procView es' :=
  List.filterMap_append

omit [DecidableEq N] in
theorem mem_procView {es : List (Event2 N)} {e : Event N} : e ∈ procView es ↔ .proc e ∈ es := by
  simp only [procView, List.mem_filterMap]
  constructor
  · rintro ⟨x, hx, h⟩
    cases x <;> simp at h
    exact h ▸ hx
  · exact fun h => ⟨_, h, rfl⟩

omit [DecidableEq N] in
/-- Splitting a history where the parent's events split. -/
theorem filter_split {es A B : List (Event2 N)} {x : Event2 N}
    (h : es.filter Event2.isParent = A ++ x :: B) : ∃ es1 es2, es = es1 ++ x :: es2 ∧
      es1.filter Event2.isParent = A ∧ es2.filter Event2.isParent = B := by
  obtain ⟨l1, l2, rfl, h1, h2⟩ := List.filter_eq_append_iff.mp h
  obtain ⟨l3, l4, rfl, h3, h4, h5⟩ := List.filter_eq_cons_iff.mp h2
  refine ⟨l1 ++ l3, l4, by simp, ?_, h5⟩
  rw [List.filter_append, h1, List.filter_eq_nil_iff.mpr, List.append_nil]
  exact fun y hy => by simpa using h3 y hy

omit [DecidableEq N] in
/-- The parent's events up to and including its loop. -/
theorem loop_facts {names : List N} {es1 : List (Event2 N)}
    (h : es1.filter Event2.isParent = .proc .start :: (parentLoop P names).1) :
    (∀ x ∈ procView es1, isStop x = false) ∧ ((procView es1).filter isStart).length = 1 ∧
    submitted (procView es1) = solvedNames P names := by
  have hmem : ∀ x, .proc x ∈ es1 → (Event2.proc x).isParent = true → x = .start ∨ ∃ n, x = .submit n := by
    intro x hx hp
    have := List.mem_filter.mpr ⟨hx, hp⟩
    rw [h, List.mem_cons] at this
    rcases this with h1 | h1
    · exact .inl (by simpa using h1)
    · rcases parentLoop_events h1 with ⟨n, h2⟩ | ⟨n, h2⟩
      · cases h2
      · exact .inr ⟨n, by simpa using h2⟩
  refine ⟨fun x hx => ?_, ?_, ?_⟩
  · cases x <;> try rfl
    all_goals
      rcases hmem _ (mem_procView.mp hx) rfl with h1 | ⟨n, h1⟩ <;> cases h1
  · have key : ∀ l : List (Event2 N), ((procView l).filter isStart).length =
        ((procView (l.filter Event2.isParent)).filter isStart).length := by
      intro l
      induction l with
      | nil => rfl
      | cons a l ih =>
        cases a with
        | solve n => exact ih
        | proc e => cases e <;> first | exact ih | exact congrArg (· + 1) ih
    rw [key, h]
    show (List.filter isStart (.start :: procView (parentLoop P names).1)).length = 1
    rw [List.filter_cons_of_pos rfl, List.filter_eq_nil_iff.mpr]
    · rfl
    · intro x hx
      rcases parentLoop_events (mem_procView.mp hx) with ⟨n, h2⟩ | ⟨n, h2⟩
      · cases h2
      · cases h2; simp [isStart]
  · have key : ∀ l : List (Event2 N), submitted (procView l) =
        submitted (procView (l.filter Event2.isParent)) := by
      intro l
      induction l with
      | nil => rfl
      | cons a l ih =>
        cases a with
        | solve n => exact ih
        | proc e => cases e <;> first | exact ih | exact congrArg (List.cons _) ih
    rw [key, h, ← parentLoop_submitted]
    rfl

/-- In a possible history every plot follows the solving of its combination. -/
theorem ordered_of_script {names : List N} {es tail : List (Event2 N)} {s : State N}
    (h : es.filter Event2.isParent = .proc .start :: (parentLoop P names).1 ++ tail)
    (ht : ∀ n, .proc (.submit n) ∉ tail)
    (hr : run (plotOutcome P) (init N) (procView es) = some s) : Ordered P es := by
  intro es0 es1 w n hs
  have hb : n ∈ begun (procView es0) := by
    rcases hs with rfl | rfl
    · rw [procView_append] at hr
      exact (ended_begun (es1 := procView es1) (.inl rfl) hr).1
    · rw [procView_append] at hr
      exact (ended_begun (es1 := procView es1) (.inr rfl) hr).1
  have hpre : es0 <+: es := by rcases hs with rfl | rfl <;> exact List.prefix_append _ _
  have hr0 : ∃ t, run (plotOutcome P) (init N) (procView es0) = some t := by
    obtain ⟨k, rfl⟩ := hpre
    rw [procView_append] at hr
    obtain ⟨t, ht, -⟩ := run_split hr
    exact ⟨t, ht⟩
  obtain ⟨t, hrt⟩ := hr0
  have hsub : .proc (.submit n) ∈ es0.filter Event2.isParent := by
    have h1 := (C50_begun_prefix hrt).subset hb
    simp only [submitted, List.mem_filterMap] at h1
    obtain ⟨x, hx, hxn⟩ := h1
    cases x <;> simp at hxn
    subst hxn
    exact List.mem_filter.mpr ⟨mem_procView.mp hx, rfl⟩
  have hfp : es0.filter Event2.isParent <+: .proc .start :: (parentLoop P names).1 ++ tail := by
    rw [← h]
    exact hpre.filter _
  -- the part of the prefix inside the loop
  have hcase : ∃ p, p <+: (parentLoop P names).1 ∧ .proc (.submit n) ∈ p ∧
      ∀ x ∈ p, x ∈ es0.filter Event2.isParent := by
    rcases List.prefix_or_prefix_of_prefix hfp
      (List.prefix_append (.proc .start :: (parentLoop P names).1) tail) with h1 | h1
    · cases hq : es0.filter Event2.isParent with
      | nil => rw [hq] at hsub; simp at hsub
      | cons y p =>
        rw [hq] at h1 hsub
        rw [List.cons_prefix_cons] at h1
        refine ⟨p, h1.2, ?_, fun x hx => by simp [hx]⟩
        rcases List.mem_cons.mp hsub with h2 | h2
        · rw [h1.1] at h2; cases h2
        · exact h2
    · refine ⟨_, List.prefix_rfl, ?_, fun x hx => h1.subset (by simp [hx])⟩
      have h2 := hfp.subset hsub
      simp only [List.cons_append, List.mem_cons, List.mem_append] at h2
      rcases h2 with h2 | h2 | h2
      · cases h2
      · exact h2
      · exact absurd h2 (ht n)
  obtain ⟨p, hp, hnp, hsubset⟩ := hcase
  obtain ⟨h1, h2⟩ := parentLoop_prefix hp hnp
  exact ⟨(List.mem_filter.mp (hsubset _ h1)).1, h2⟩

/-- If the jobs begun and finished in a possible history are exactly the combinations solved, then the
output directory is that of one core. -/
theorem same_store {names : List N} {es tail : List (Event2 N)} {s : State N}
    (h : es.filter Event2.isParent = .proc .start :: (parentLoop P names).1 ++ tail)
    (ht : ∀ n, .proc (.submit n) ∉ tail ∧ .solve n ∉ tail)
    (hr : run (plotOutcome P) (init N) (procView es) = some s)
    (hf : ∀ n, n ∈ finished (procView es) ↔ n ∈ solvedNames P names)
    (hb : ∀ n, n ∈ begun (procView es) → n ∈ solvedNames P names) :
    singleLoop P names .empty = ((parentLoop P names).2, effects P es) := by
  have fin_mem : ∀ n, n ∈ finished (procView es) ↔ ∃ w, .proc (.finish w n) ∈ es := fun n => by
    simp only [finished, List.mem_filterMap]
    constructor
    · rintro ⟨x, hx, hxn⟩
      cases x <;> simp at hxn
      subst hxn
      exact ⟨_, mem_procView.mp hx⟩
    · rintro ⟨w, hw⟩
      exact ⟨_, mem_procView.mpr hw, rfl⟩
  have hout : ∀ n ∈ solvedNames P names, plotOutcome P n = .returns := fun n hn => by
    obtain ⟨w, hw⟩ := (fin_mem n).mp ((hf n).mpr hn)
    obtain ⟨l1, l2, hl⟩ := List.append_of_mem (mem_procView.mpr hw)
    rw [hl] at hr
    exact (ended_begun (.inl rfl) hr).2 rfl
  rw [singleLoop_eq names .empty hout, effects_eq (ordered_of_script h (fun n => (ht n).1) hr)]
  congr 1
  unfold shown Store.empty
  congr 1
  · funext m
    have hsol : .solve m ∈ es ↔ .solve m ∈ (parentLoop P names).1 := by
      have h1 : (.solve m ∈ es.filter Event2.isParent) ↔ .solve m ∈ es := by
        rw [List.mem_filter]
        exact ⟨fun h => h.1, fun h => ⟨h, rfl⟩⟩
      rw [← h1, h]
      simp [(ht m).2]
    by_cases hm : m ∈ solvedNames P names
    · rw [if_pos hm, if_pos (hsol.mpr (solved_mem hm).1)]
    · rw [if_neg hm]
      split
      · rename_i h1
        rcases mem_solved_or_failed (hsol.mp h1) with h2 | ⟨e, h2⟩
        · exact absurd h2 hm
        · simp [resultsOf, h2]
      · rfl
  · funext m
    have hpl : Plotted es m ↔ m ∈ solvedNames P names := by
      constructor
      · rintro ⟨w, h1 | h1⟩
        · exact (hf m).mp ((fin_mem m).mpr ⟨w, h1⟩)
        · obtain ⟨l1, l2, hl⟩ := List.append_of_mem (mem_procView.mpr h1)
          rw [hl] at hr
          have h2 := (ended_begun (.inr rfl) hr).1
          refine hb m ?_
          rw [hl, begun_append]
          exact List.mem_append_left _ h2
      · intro h1
        obtain ⟨w, hw⟩ := (fin_mem m).mp ((hf m).mpr h1)
        exact ⟨w, .inl hw⟩
    by_cases hm : m ∈ solvedNames P names
    · rw [if_pos hm, if_pos (hpl.mpr hm)]
    · rw [if_neg hm, if_neg (fun h1 => hm (hpl.mp h1))]

omit [DecidableEq N] in
/-- A history that ends with the parent's only event after `es1`. -/
theorem last_is {es2 : List (Event2 N)} {x : Event2 N} (h : es2.filter Event2.isParent = [x])
    (hl : ∃ e, es2.getLast? = some e ∧ e.isParent = true) :
    ∃ es', es2 = es' ++ [x] ∧ es'.filter Event2.isParent = [] := by
  obtain ⟨e, he, hp⟩ := hl
  obtain ⟨es', rfl⟩ : ∃ es', es2 = es' ++ [e] := by
    rw [List.getLast?_eq_some_iff] at he
    exact he
  rw [List.filter_append, List.filter_cons_of_pos hp, List.filter_nil] at h
  rcases List.append_eq_singleton_iff.mp h with ⟨h1, h2⟩ | ⟨h1, h2⟩
  · cases h2; exact ⟨es', rfl, h1⟩
  · cases h2

omit [DecidableEq N] in
theorem quiet {es : List (Event2 N)} (h : es.filter Event2.isParent = []) :
    ∀ x ∈ procView es, isStart x = false ∧ isEnd x = false ∧ isReply x = false ∧ isStop x = false := by
  intro x hx
  have h1 := List.filter_eq_nil_iff.mp h _ (mem_procView.mp hx)
  cases x <;> simp [Event2.isParent] at h1 <;> simp [isStart, isEnd, isReply, isStop]

/-- **One core and two agree.** Whatever the interleaving, and whether or not a combination fails to
solve: if `stop` and `cancel` return normally whenever they are called, the run on two cores ends with
the same answer (or the same error) and the same output directory as the run on one core. -/
theorem C54_same_results_partial {names : List N} {es : List (Event2 N)} {answer : Except PyErr K × Store N R F}
    (h : TwoCore P names es answer) (hr : ∀ r, .proc (.reply r) ∈ es → r = .returned) :
    answer = single P names := by
  obtain ⟨hne, err, hscript, ⟨s, hrun⟩, hlast, rfl⟩ := h
  have hsingle : single P names = Main.finish P (singleLoop P names .empty) := by
    cases names with
    | nil => exact absurd rfl hne
    | cons n ns => rfl
  rw [hsingle]
  unfold parentScript at hscript
  cases hloop : parentLoop P names with
  | mk body oerr =>
    have hbody : (parentLoop P names).1 = body := by rw [hloop]
    have herr : (parentLoop P names).2 = oerr := by rw [hloop]
    rw [hloop] at hscript
    cases oerr with
    | none =>
      obtain ⟨r, rfl, hfil⟩ := hscript
      obtain ⟨es1, es2, rfl, hf1, hf2⟩ := filter_split (A := .proc .start :: body) hfil
      have hl2 : ∃ e, es2.getLast? = some e ∧ e.isParent = true := by
        cases es2 with
        | nil => simp at hf2
        | cons a l =>
          obtain ⟨e, he, hp⟩ := hlast
          exact ⟨e, by rw [← he]; simp [List.getLast?_append, List.getLast?_cons], hp⟩
      obtain ⟨es', rfl, hf3⟩ := last_is hf2 hl2
      have hr1 := hr r (by simp)
      subst hr1
      rw [← hbody] at hf1
      obtain ⟨hns, hst, hsub⟩ := loop_facts hf1
      have hpv : procView (es1 ++ .proc (.stop true) :: (es' ++ [.proc (.reply .returned)])) =
          procView es1 ++ .stop true :: procView es' ++ [.reply .returned] := by
        rw [procView_append]
        show procView es1 ++ (.stop true :: procView (es' ++ [.proc (.reply .returned)])) = _
        rw [procView_append, List.append_assoc]
        rfl
      have hrun' := hrun
      rw [hpv] at hrun'
      obtain ⟨hfin, hbeg⟩ := C50_all_done plotOutcome_noSilent hns hst rfl
        (fun x hx => ⟨(quiet hf3 x hx).1, (quiet hf3 x hx).2.1⟩) hrun'
      have hfe : finished (procView (es1 ++ .proc (.stop true) :: (es' ++ [.proc (.reply .returned)]))) =
          solvedNames P names := by
        rw [hpv, finished_append, hfin, hsub]
        simp [finished]
      have hbe : begun (procView (es1 ++ .proc (.stop true) :: (es' ++ [.proc (.reply .returned)]))) =
          solvedNames P names := by
        rw [hpv, begun_append, hbeg, hsub]
        simp [begun]
      have := same_store (P := P) (names := names) (tail := [.proc (.stop true), .proc (.reply .returned)])
        (by rw [hbody]; exact hfil) (by simp) hrun (by simp [hfe]) (by simp [hbe])
      rw [this, herr]
      rfl
    | some e =>
      obtain ⟨r, r', rfl, hfil⟩ := hscript
      obtain ⟨es1, es2, rfl, hf1, hf2⟩ := filter_split (A := .proc .start :: body) hfil
      obtain ⟨es3, es4, rfl, hf3, hf4⟩ := filter_split (A := []) hf2
      have hr1 := hr r (by simp)
      subst hr1
      have hr2 : r' = .returned := by
        refine hr r' ?_
        have : .proc (.reply r') ∈ es4.filter Event2.isParent := by rw [hf4]; simp
        have := (List.mem_filter.mp this).1
        simp [this]
      subst hr2
      rw [← hbody] at hf1
      obtain ⟨hns, hst, hsub⟩ := loop_facts hf1
      have hpv : procView (es1 ++ .proc (.cancel true) :: (es3 ++ .proc (.reply .returned) :: es4)) =
          procView es1 ++ .cancel true :: procView es3 ++ [.reply .returned] ++ procView es4 := by
        rw [procView_append]
        show procView es1 ++ (.cancel true :: procView (es3 ++ .proc (.reply .returned) :: es4)) = _
        rw [procView_append]
        show procView es1 ++ (.cancel true :: (procView es3 ++ .reply .returned :: procView es4)) = _
        simp
      have hrun' := hrun
      rw [hpv] at hrun'
      obtain ⟨t, hrt, hr4⟩ := run_split hrun'
      obtain ⟨hfin, hbeg⟩ := C50_all_done plotOutcome_noSilent hns hst rfl
        (fun x hx => ⟨(quiet hf3 x hx).1, (quiet hf3 x hx).2.1⟩) hrt
      -- the worker has ended, so nothing is plotted afterwards
      have hdone : ∃ c, t.workers = [.exited c] := by
        obtain ⟨u, hu, hstep⟩ := run_snoc hrt
        obtain ⟨hcur, w, hw, -⟩ := session_after plotOutcome_noSilent hns hst rfl
          (fun x hx => ⟨(quiet hf3 x hx).1, (quiet hf3 x hx).2.1⟩) hu
        have hp : u.process = some w := by simp [State.process, hcur, hw]
        simp only [step, replyStep, hp] at hstep
        cases hpc : u.pc <;> rw [hpc] at hstep <;> cases w <;> simp at hstep
        exact ⟨_, by rw [← hstep.2]; exact hw⟩
      obtain ⟨c, hdone⟩ := hdone
      have hstart4 : ∀ x ∈ procView es4, isStart x = false := by
        intro x hx
        cases x <;> try rfl
        have : .proc .start ∈ es4.filter Event2.isParent :=
          List.mem_filter.mpr ⟨mem_procView.mp hx, rfl⟩
        rw [hf4] at this
        simp at this
      have key := run_inv (out := plotOutcome P) (s := t)
        (I := fun es s => (∀ x ∈ es, isStart x = false) → s.workers = [.exited c] ∧ ∀ x ∈ es, isWork x = false)
        (fun _ => ⟨hdone, by simp⟩)
        (fun es u x u' _ hI hx h1 => by
          obtain ⟨h2, h3⟩ := hI fun y hy => h1 y (by simp [hy])
          have hnw : isWork x = false := by
            by_contra hw
            exact ended_no_work h2 (by simpa using hw) hx
          refine ⟨(call_keeps hnw (h1 x (by simp)) hx).1.trans h2, fun y hy => ?_⟩
          rcases List.mem_append.mp hy with hy | hy
          · exact h3 y hy
          · simp at hy; exact hy ▸ hnw) hr4
      have hnowork := (key hstart4).2
      have hnofin : finished (procView es4) = [] := by
        simp only [finished, List.filterMap_eq_nil_iff]
        intro x hx
        have := hnowork x hx
        cases x <;> simp [isWork] at this <;> rfl
      have hnobeg : begun (procView es4) = [] := by
        simp only [begun, List.filterMap_eq_nil_iff]
        intro x hx
        have := hnowork x hx
        cases x <;> simp [isWork] at this <;> rfl
      have hfe : finished (procView (es1 ++ .proc (.cancel true) :: (es3 ++ .proc (.reply .returned) :: es4))) =
          solvedNames P names := by
        rw [hpv, finished_append, hnofin, finished_append, hfin, hsub]
        simp [finished]
      have hbe : begun (procView (es1 ++ .proc (.cancel true) :: (es3 ++ .proc (.reply .returned) :: es4))) =
          solvedNames P names := by
        rw [hpv, begun_append, hnobeg, begun_append, hbeg, hsub]
        simp [begun]
      have := same_store (P := P) (names := names) (tail := [.proc (.cancel true), .proc (.reply .returned),
          .proc (.stop true), .proc (.reply .returned)])
        (by rw [hbody]; exact hfil) (by simp) hrun (by simp [hfe]) (by simp [hbe])
      rw [this, herr]
      rfl

/-- So the run on two cores never succeeds where the run on one core would not. -/
theorem C54_no_false_success {names : List N} {es : List (Event2 N)} {k : K} {st : Store N R F}
    (h : TwoCore P names es (.ok k, st)) : single P names = (.ok k, st) := by
  refine (C54_same_results_partial h ?_).symm
  obtain ⟨-, err, hscript, -, -, hans⟩ := h
  have herr : err = none := by
    cases err with
    | none => rfl
    | some e => simp [Main.finish] at hans
  subst herr
  intro r hr
  have hr' : .proc (.reply r) ∈ es.filter Event2.isParent := List.mem_filter.mpr ⟨hr, rfl⟩
  unfold parentScript at hscript
  have hnb : ∀ r, Event2.proc (.reply r) ∉ (parentLoop P names).1 := fun r hm => by
    rcases parentLoop_events hm with ⟨n, h⟩ | ⟨n, h⟩ <;> cases h
  cases hloop : parentLoop P names with
  | mk body oerr =>
    rw [hloop] at hscript hnb
    cases oerr with
    | none =>
      obtain ⟨r0, h0, h1⟩ := hscript
      rw [h1] at hr'
      simp [hnb r] at hr'
      subst hr'
      cases r <;> simp [replyErr] at h0
      rfl
    | some e =>
      obtain ⟨r0, r1, h0, -⟩ := hscript
      cases r1 <;> cases r0 <;> simp [replyErr] at h0

/-- **Every schedule.** If every plot succeeds, the worker is not killed from outside and `stop` does not
run out of time, then the two agree, for every interleaving. -/
theorem C54_every_schedule_partial {names : List N} {es : List (Event2 N)}
    {answer : Except PyErr K × Store N R F} (h : TwoCore P names es answer)
    (hplot : ∀ n ∈ names, ∀ r, P.solve n = .ok r → (P.plot n r).2 = none)
    (hkill : ∀ w c, .proc (.kill w c) ∉ es) (htime : .proc .timeout ∉ es) :
    answer = single P names := by
  refine C54_same_results_partial h ?_
  obtain ⟨-, err, hscript, ⟨s, hrun⟩, -, -⟩ := h
  -- submissions come from the loop
  have hsubm : ∀ n, .proc (.submit n) ∈ es → plotOutcome P n = .returns := by
    intro n hn
    have hn' : .proc (.submit n) ∈ es.filter Event2.isParent := List.mem_filter.mpr ⟨hn, rfl⟩
    have hin : .proc (.submit n) ∈ (parentLoop P names).1 := by
      unfold parentScript at hscript
      cases hloop : parentLoop P names with
      | mk body oerr =>
        rw [hloop] at hscript
        cases oerr with
        | none =>
          obtain ⟨r0, -, h1⟩ := hscript
          rw [h1] at hn'
          simpa using hn'
        | some e =>
          obtain ⟨r0, r1, -, h1⟩ := hscript
          rw [h1] at hn'
          simpa using hn'
    have hmem : ∀ l : List N, .proc (.submit n) ∈ (parentLoop P l).1 → n ∈ l := by
      intro l
      induction l with
      | nil => simp [parentLoop]
      | cons m l ih =>
        simp only [parentLoop]
        cases P.solve m with
        | error e => simp
        | ok r =>
          simp
          rintro (h1 | h1)
          · exact .inl h1
          · exact .inr (ih h1)
    obtain ⟨-, r, hr⟩ := parentLoop_prefix List.prefix_rfl hin
    simp [plotOutcome, hr, hplot n (hmem names hin) r hr]
  -- nothing crashes
  have key := run_inv (out := plotOutcome P) (s := init N)
    (I := fun es s => (∀ n, .submit n ∈ es → plotOutcome P n = .returns) → (∀ w c, .kill w c ∉ es) →
      .timeout ∉ es → (s.pc ≠ .raising ∧ (∀ w ∈ s.workers, ∀ c, w = .exited c → c = 0)) ∧
        ∀ r, .reply r ∈ es → r = .returned)
    (fun _ _ _ => ⟨⟨by simp [init], by simp [init]⟩, by simp⟩)
    (fun es t e t' hrt hI he h1 h2 h3 => by
      obtain ⟨⟨hpc, hw⟩, hrep⟩ := hI (fun n hn => h1 n (by simp [hn])) (fun w c hm => h2 w c (by simp [hm]))
        (fun hm => h3 (by simp [hm]))
      have hset : ∀ (k : ℕ) (x : Worker N), (∀ c, x = .exited c → c = 0) →
          ∀ w ∈ t.workers.set k x, ∀ c, w = .exited c → c = 0 := fun k x hx w hwm c hc => by
        rcases List.mem_or_eq_of_mem_set hwm with h | rfl
        · exact hw w h c hc
        · exact hx c hc
      by_cases hwk : isWork e = true
      · obtain ⟨-, hpc', -⟩ := work_keeps hwk he
        have hrep' : ∀ r, .reply r ∈ es ++ [e] → r = .returned := fun r hr => by
          rcases List.mem_append.mp hr with hr | hr
          · exact hrep r hr
          · simp at hr; subst hr; simp [isWork] at hwk
        refine ⟨⟨hpc' ▸ hpc, ?_⟩, hrep'⟩
        cases e <;> simp [isWork] at hwk <;> simp only [step] at he
        case take k i => split_ifs at he; cases he; exact hset k _ (by simp)
        case quit k => split_ifs at he; cases he; exact hset k _ (fun c hc => by simpa using hc.symm)
        case finish k i => split_ifs at he; cases he; exact hset k _ (by simp)
        case fail k i =>
          exfalso
          split_ifs at he with hc
          have hb := run_running hrt hc
          have hsub := (C50_begun_prefix hrt).subset hb
          simp only [submitted, List.mem_filterMap] at hsub
          obtain ⟨x, hx, hxn⟩ := hsub
          cases x <;> simp at hxn
          subst hxn
          rw [h1 _ (by simp [hx])] at he
          cases he
        case kill k c => exact absurd (by simp) (h2 k c)
      · by_cases hst : isStart e = true
        · cases e <;> simp [isStart] at hst
          simp only [step] at he
          split_ifs at he
          cases he
          refine ⟨⟨hpc, fun w hwm c hc => ?_⟩, fun r hr => ?_⟩
          · rcases List.mem_append.mp hwm with h | h
            · exact hw w h c hc
            · simp at h; subst h; cases hc
          · exact hrep r (by simpa using hr)
        · have hk := (call_keeps (by simpa using hwk) (by simpa using hst) he).1
          refine ⟨⟨?_, hk ▸ hw⟩, fun r hr => ?_⟩
          · cases e <;> simp [isWork] at hwk <;> simp [isStart] at hst <;> simp only [step] at he
            case submit => split_ifs at he; cases he; exact hpc
            case stop =>
              simp only [stopCall] at he
              split_ifs at he
              cases hx : t.current <;> rw [hx] at he <;> cases he <;> simp
            case cancel =>
              simp only [stopCall] at he
              split_ifs at he
              cases hx : t.current <;> rw [hx] at he <;> cases he <;> simp
            case timeout => exact absurd (by simp) h3
            case reply r =>
              cases r <;> simp only [replyStep] at he <;> split at he
              all_goals first
                | (cases he; done)
                | (cases he; simp)
                | (split_ifs at he; cases he; simp)
          · rcases List.mem_append.mp hr with hr | hr
            · exact hrep r hr
            · simp at hr
              subst hr
              have hproc : ∀ c, t.process = some (.exited c) → c = 0 := fun c hc => by
                simp only [State.process, Option.bind_eq_some_iff] at hc
                obtain ⟨k, -, hk'⟩ := hc
                exact hw _ (List.mem_of_getElem? hk') c rfl
              cases r with
              | returned => rfl
              | systemError =>
                simp only [step, replyStep] at he
                split at he
                · rename_i c _ hp
                  split_ifs at he with hc
                  exact absurd (hproc c hp) hc
                · rename_i hp _
                  exact absurd hp hpc
                · cases he
              | valueError =>
                simp only [step, replyStep] at he
                split at he
                · rename_i hp _
                  exact absurd hp hpc
                · cases he) hrun
  intro r hr
  exact (key (fun n hn => hsubm n (mem_procView.mp hn)) (fun w c hm => hkill w c (mem_procView.mp hm))
    (fun hm => htime (mem_procView.mp hm))).2 r (mem_procView.mpr hr)

/-- A schedule in which the parent waits for each plot before it solves the next combination. -/
def Spec.unhurried (P : Parts N R F K) : List N → List (Event2 N)
  | [] => [.proc (.stop true), .proc (.quit 0), .proc (.reply .returned)]
  | n :: ns => match P.solve n with
    | .error _ => [.solve n, .proc (.cancel true), .proc (.quit 0), .proc (.reply .returned), .proc (.stop true),
        .proc (.reply .returned)]
    | .ok _ => .solve n :: .proc (.submit n) :: .proc (.take 0 n) :: .proc (.finish 0 n) :: Spec.unhurried P ns

omit [DecidableEq N] in
/-- What the parent does in it. -/
theorem unhurried_parent (names : List N) : (Spec.unhurried P names).filter Event2.isParent =
    (parentLoop P names).1 ++ match (parentLoop P names).2 with
      | none => [.proc (.stop true), .proc (.reply .returned)]
      | some _ => [.proc (.cancel true), .proc (.reply .returned), .proc (.stop true), .proc (.reply .returned)] := by
  induction names with
  | nil => rfl
  | cons n ns ih =>
    unfold Spec.unhurried parentLoop
    cases P.solve n with
    | error e => rfl
    | ok r =>
      dsimp only
      rw [List.filter_cons_of_pos rfl, List.filter_cons_of_pos rfl, List.filter_cons_of_neg (by simp [Event2.isParent]),
        List.filter_cons_of_neg (by simp [Event2.isParent]), ih]
      rfl

/-- It is possible. -/
theorem unhurried_run (names : List N) (hplot : ∀ n ∈ names, ∀ r, P.solve n = .ok r → (P.plot n r).2 = none) :
    ∃ s, run (plotOutcome P) ⟨[], [.waiting], some 0, .idle⟩ (procView (Spec.unhurried P names)) = some s := by
  induction names with
  | nil => exact ⟨_, rfl⟩
  | cons n ns ih =>
    unfold Spec.unhurried
    cases hs : P.solve n with
    | error e => exact ⟨_, rfl⟩
    | ok r =>
      obtain ⟨s, h⟩ := ih (fun m hm => hplot m (List.mem_cons_of_mem _ hm))
      refine ⟨s, ?_⟩
      have hout : plotOutcome P n = .returns := by
        unfold plotOutcome
        rw [hs]
        dsimp only
        rw [hplot n List.mem_cons_self r hs]
      show run (plotOutcome P) ⟨[], [.waiting], some 0, .idle⟩
        (.submit n :: .take 0 n :: .finish 0 n :: procView (Spec.unhurried P ns)) = some s
      have e1 : step (plotOutcome P) ⟨[], [.waiting], some 0, .idle⟩ (.submit n) =
          some ⟨[.job n], [.waiting], some 0, .idle⟩ := rfl
      have e2 : step (plotOutcome P) ⟨[.job n], [.waiting], some 0, .idle⟩ (.take 0 n) =
          some ⟨[], [.running n], some 0, .idle⟩ := by
        simp [step, State.setWorker]
      have e3 : step (plotOutcome P) ⟨[], [.running n], some 0, .idle⟩ (.finish 0 n) =
          some ⟨[], [.waiting], some 0, .idle⟩ := by
        simp [step, State.setWorker, hout]
      simp only [run, e1, e2, e3]
      exact h

omit [DecidableEq N] in
theorem unhurried_calm (names : List N) : (∀ w c, .proc (.kill w c) ∉ Spec.unhurried P names) ∧
    .proc .timeout ∉ Spec.unhurried P names := by
  induction names with
  | nil => simp [Spec.unhurried]
  | cons n ns ih =>
    unfold Spec.unhurried
    cases P.solve n with
    | error e => simp
    | ok r => simp [ih.1, ih.2]

omit [DecidableEq N] in
theorem unhurried_last (names : List N) :
    (Spec.unhurried P names).getLast? = some (.proc (.reply .returned)) := by
  induction names with
  | nil => rfl
  | cons n ns ih =>
    unfold Spec.unhurried
    cases P.solve n with
    | error e => rfl
    | ok r =>
      dsimp only
      rw [List.getLast?_cons, List.getLast?_cons, List.getLast?_cons, List.getLast?_cons, ih]
      rfl

/-- **Two cores get there.** If every plot succeeds, there is a run on two cores in which nothing is killed and no time
runs out, and it gives what one core gives. -/
theorem C54_two_cores_end {names : List N} (hne : names ≠ [])
    (hplot : ∀ n ∈ names, ∀ r, P.solve n = .ok r → (P.plot n r).2 = none) :
    ∃ es, TwoCore P names es (single P names) ∧ (∀ w c, .proc (.kill w c) ∉ es) ∧ .proc .timeout ∉ es := by
  have hc := unhurried_calm (P := P) names
  have hkill : ∀ w c, .proc (.kill w c) ∉ (.proc .start :: Spec.unhurried P names : List (Event2 N)) := by
    intro w c hm
    rcases List.mem_cons.mp hm with h | h
    · cases h
    · exact hc.1 w c h
  have htime : .proc .timeout ∉ (.proc .start :: Spec.unhurried P names : List (Event2 N)) := by
    intro hm
    rcases List.mem_cons.mp hm with h | h
    · cases h
    · exact hc.2 h
  have htwo : ∃ answer, TwoCore P names (.proc .start :: Spec.unhurried P names) answer := by
    obtain ⟨s, hs⟩ := unhurried_run (P := P) names hplot
    have hlast : ∃ e, (.proc .start :: Spec.unhurried P names : List (Event2 N)).getLast? = some e ∧
        e.isParent = true := by
      refine ⟨.proc (.reply .returned), ?_, rfl⟩
      rw [List.getLast?_cons, unhurried_last]
      rfl
    have hpar := unhurried_parent (P := P) names
    cases hloop : parentLoop P names with
    | mk body oerr =>
      rw [hloop] at hpar
      cases oerr with
      | none =>
        refine ⟨_, hne, none, ?_, ⟨s, hs⟩, hlast, rfl⟩
        unfold parentScript
        rw [hloop]
        refine ⟨.returned, rfl, ?_⟩
        rw [List.filter_cons_of_pos rfl, hpar]
        rfl
      | some e =>
        refine ⟨_, hne, some e, ?_, ⟨s, hs⟩, hlast, rfl⟩
        unfold parentScript
        rw [hloop]
        refine ⟨.returned, .returned, rfl, ?_⟩
        rw [List.filter_cons_of_pos rfl, hpar]
        rfl
  obtain ⟨answer, h⟩ := htwo
  exact ⟨_, C54_every_schedule_partial h hplot hkill htime ▸ h, hkill, htime⟩

/-! ### Concrete runs -/

/-- Two combinations, each with one figure; the KPIs need the results of both. -/
def Spec.goodParts : Parts ℕ ℕ ℕ ℕ :=
  ⟨fun n => .ok (10 * n), fun _ r => ([r], none), fun f => match f 1, f 2 with
    | some a, some b => .ok (a + b)
    | _, _ => .error .fileNotFoundError⟩

/-- The first figure is made while the second combination is being solved. -/
def Spec.goodHistory : List (Event2 ℕ) :=
  [.proc .start, .solve 1, .proc (.submit 1), .proc (.take 0 1), .solve 2, .proc (.finish 0 1),
    .proc (.submit 2), .proc (.stop true), .proc (.take 0 2), .proc (.finish 0 2), .proc (.quit 0),
    .proc (.reply .returned)]

example : TwoCore goodParts [1, 2] goodHistory (.ok 30, effects goodParts goodHistory) :=
  ⟨by simp, none, ⟨.returned, rfl, rfl⟩, ⟨_, rfl⟩, ⟨_, rfl, rfl⟩, rfl⟩

example : (∀ w c, .proc (.kill w c) ∉ goodHistory) ∧ .proc .timeout ∉ goodHistory ∧
    ∀ r, .proc (.reply r) ∈ goodHistory → r = .returned := by
  refine ⟨fun w c => by simp [goodHistory], by simp [goodHistory], fun r => by simp [goodHistory]⟩

example : ∃ es, TwoCore goodParts [1, 2] es (single goodParts [1, 2]) :=
  (C54_two_cores_end (by simp) (fun _ _ _ _ => rfl)).imp fun _ h => h.1

/-- **Against C54.** Nothing is wrong and one core succeeds, but on two cores the plots still to be made
at the end take longer than 30 seconds: `main` raises `ValueError` and there are no KPIs. -/
theorem C54_timeout_fails : (single goodParts [1, 2]).1 = .ok 30 ∧
    ∃ es st, TwoCore goodParts [1, 2] es (.error .valueError, st) :=
  ⟨rfl, [.proc .start, .solve 1, .proc (.submit 1), .proc (.take 0 1), .solve 2, .proc (.submit 2),
    .proc (.stop true), .proc .timeout, .proc (.reply .valueError)], _,
    ⟨by simp, some .valueError, ⟨.valueError, rfl, rfl⟩, ⟨_, rfl⟩, ⟨_, rfl, rfl⟩, rfl⟩⟩

/-- Two combinations; plotting the first divides by zero. -/
def Spec.badPlot : Parts ℕ ℕ ℕ ℕ :=
  ⟨fun n => .ok (10 * n), fun n r => if n = 1 then ([], some .zeroDivisionError) else ([r], none),
    fun _ => .ok 0⟩

/-- **Against C54.** A plot that fails ends the run on one core with its own error before the next
combination is solved; on two cores all combinations are solved first, and the error is `SystemError`. -/
theorem C54_plot_error_differs :
    (single badPlot [1, 2]).1 = .error .zeroDivisionError ∧ (single badPlot [1, 2]).2.results 2 = none ∧
    ∃ es st, TwoCore badPlot [1, 2] es (.error .systemError, st) ∧ st.results 2 = some 20 :=
  ⟨rfl, rfl, [.proc .start, .solve 1, .proc (.submit 1), .proc (.take 0 1), .proc (.fail 0 1), .solve 2,
    .proc (.submit 2), .proc (.stop true), .proc (.reply .systemError)], _,
    ⟨by simp, some .systemError, ⟨.systemError, rfl, rfl⟩, ⟨_, rfl⟩, ⟨_, rfl, rfl⟩, rfl⟩, rfl⟩

/-- Three combinations; the second has invalid inputs. -/
def Spec.badSolve : Parts ℕ ℕ ℕ ℕ :=
  ⟨fun n => if n = 2 then .error .keyError else .ok n, fun _ r => ([r], none), fun _ => .ok 0⟩

/-- The error of a combination that cannot be solved reaches the caller on two cores as well. -/
example : (single badSolve [1, 2, 3]).1 = .error .keyError ∧ ∃ es st,
    TwoCore badSolve [1, 2, 3] es (.error .keyError, st) :=
  ⟨rfl, [.proc .start, .solve 1, .proc (.submit 1), .solve 2, .proc (.cancel true), .proc (.take 0 1),
    .proc (.finish 0 1), .proc (.quit 0), .proc (.reply .returned), .proc (.stop true),
    .proc (.reply .returned)], _,
    ⟨by simp, some .keyError, ⟨.returned, .returned, rfl, rfl⟩, ⟨_, rfl⟩, ⟨_, rfl, rfl⟩, rfl⟩⟩

/-- **Against C54.** But if plots are pending for more than 30 seconds it is replaced by `ValueError`. -/
theorem C54_solve_error_masked : (single badSolve [1, 2, 3]).1 = .error .keyError ∧ ∃ es st,
    TwoCore badSolve [1, 2, 3] es (.error .valueError, st) :=
  ⟨rfl, [.proc .start, .solve 1, .proc (.submit 1), .solve 2, .proc (.cancel true), .proc (.take 0 1),
    .proc .timeout, .proc (.reply .valueError), .proc (.finish 0 1), .proc (.stop true), .proc (.quit 0),
    .proc (.reply .returned)], _,
    ⟨by simp, some .valueError, ⟨.valueError, .returned, rfl, rfl⟩, ⟨_, rfl⟩, ⟨_, rfl, rfl⟩, rfl⟩⟩

/-! ## C75 an unknown controller is refused -/

/-- On one core: `ValueError`, with no results and no figures written. -/
theorem C75_single (fixed mpc : N → Except PyErr R) (plot : N → R → List F × Option PyErr)
    (kpis : (N → Option R) → Except PyErr K) (n : N) (ns : List N) :
    single ⟨runSolver fixed mpc .other, plot, kpis⟩ (n :: ns) = (.error .valueError, .empty) := rfl

/-- On two cores: the same, in every schedule in which the worker is not killed and does not take more than
30 seconds to end. -/
theorem C75_two_cores_partial (fixed mpc : N → Except PyErr R) (plot : N → R → List F × Option PyErr)
    (kpis : (N → Option R) → Except PyErr K) {names : List N} {es : List (Event2 N)}
    {answer : Except PyErr K × Store N R F}
    (h : TwoCore ⟨runSolver fixed mpc .other, plot, kpis⟩ names es answer)
    (hkill : ∀ w c, .proc (.kill w c) ∉ es) (htime : .proc .timeout ∉ es) :
    answer = (.error .valueError, .empty) := by
  rw [C54_every_schedule_partial h (by intro n _ r hr; cases hr) hkill htime]
  cases names with
  | nil => exact absurd rfl h.1
  | cons n ns => rfl

/-- Such a run: the worker ends without a job. -/
example : TwoCore (⟨runSolver (fun _ => .ok 1) (fun _ => .ok 1) .other, fun _ r => ([r], none),
      fun _ => .ok 0⟩ : Parts ℕ ℕ ℕ ℕ) [1]
    [.proc .start, .solve 1, .proc (.cancel true), .proc (.quit 0), .proc (.reply .returned),
      .proc (.stop true), .proc (.reply .returned)] (.error .valueError, .empty) :=
  ⟨by simp, some .valueError, ⟨.returned, .returned, rfl, rfl⟩, ⟨_, rfl⟩, ⟨_, rfl, rfl⟩, rfl⟩

/-- On two cores, in every history, whatever the worker does or suffers: an error, `ValueError` or
`SystemError`, and nothing is written. -/
theorem C75_always_refused (fixed mpc : N → Except PyErr R) (plot : N → R → List F × Option PyErr)
    (kpis : (N → Option R) → Except PyErr K) {names : List N} {es : List (Event2 N)}
    {answer : Except PyErr K × Store N R F}
    (h : TwoCore ⟨runSolver fixed mpc .other, plot, kpis⟩ names es answer) :
    ∃ e, (e = .valueError ∨ e = .systemError) ∧ answer = (.error e, .empty) := by
  obtain ⟨hne, err, hscript, -, -, rfl⟩ := h
  have heff : ∀ l : List (Event2 N), l.foldl
      (Event2.effect (⟨runSolver fixed mpc .other, plot, kpis⟩ : Parts N R F K)) Store.empty
        = Store.empty := by
    intro l
    induction l with
    | nil => rfl
    | cons e l ih =>
      rw [List.foldl_cons]
      have : Event2.effect (⟨runSolver fixed mpc .other, plot, kpis⟩ : Parts N R F K) Store.empty e
          = Store.empty := by
        cases e with
        | solve n => rfl
        | proc e => cases e <;> rfl
      rw [this, ih]
  cases names with
  | nil => exact absurd rfl hne
  | cons n ns =>
    obtain ⟨r, r', rfl, -⟩ := hscript
    have hf : effects (⟨runSolver fixed mpc .other, plot, kpis⟩ : Parts N R F K) es = .empty := heff es
    rw [hf]
    cases r' <;> cases r <;> exact ⟨_, by decide, rfl⟩

/-- `SystemError` it is when the worker needs more than 30 seconds to end. -/
theorem C75_slow_worker_masks : ∃ es,
    TwoCore (⟨runSolver (fun _ => .ok 1) (fun _ => .ok 1) .other, fun _ r => ([r], none),
      fun _ => .ok 0⟩ : Parts ℕ ℕ ℕ ℕ) [1] es (.error .systemError, .empty) :=
  ⟨[.proc .start, .solve 1, .proc (.cancel true), .proc .timeout, .proc (.quit 0),
      .proc (.reply .systemError), .proc (.stop true), .proc (.reply .returned)],
  ⟨by simp, some .systemError, ⟨.systemError, .returned, rfl, rfl⟩, ⟨_, rfl⟩, ⟨_, rfl, rfl⟩, rfl⟩⟩

omit [DecidableEq N] in
/-- With a known controller that controller's results are written. -/
theorem C75_known_controller (fixed mpc : N → Except PyErr R) (n : N) :
    runSolver fixed mpc .fixedOrder n = fixed n ∧ runSolver fixed mpc .predictive n = mpc n := ⟨rfl, rfl⟩

end Verif
