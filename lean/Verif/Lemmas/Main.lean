import Verif.Model.Main
import Verif.Lemmas.OutputProcess

/-!
# Helper lemmas for one core against two
-/

set_option autoImplicit false

namespace Verif
namespace Main
open OutputProcess Spec
variable {N R F K : Type} [DecidableEq N] {P : Parts N R F K}

/-- The combinations solved before the first error. -/
def solvedNames (P : Parts N R F K) : List N → List N
  | [] => []
  | n :: ns => match P.solve n with
    | .error _ => []
    | .ok _ => n :: solvedNames P ns

omit [DecidableEq N] in
theorem parentLoop_submitted (names : List N) :
    submitted (procView (parentLoop P names).1) = solvedNames P names := by
  induction names with
  | nil => rfl
  | cons n ns ih =>
    simp only [parentLoop, solvedNames]
    cases P.solve n with
    | error e => rfl
    | ok r =>
      show n :: submitted (procView (parentLoop P ns).1) = _
      rw [ih]

omit [DecidableEq N] in
theorem parentLoop_events {names : List N} {x : Event2 N} (h : x ∈ (parentLoop P names).1) :
    (∃ n, x = .solve n) ∨ ∃ n, x = .proc (.submit n) := by
  induction names with
  | nil => simp [parentLoop] at h
  | cons n ns ih =>
    simp only [parentLoop] at h
    cases hn : P.solve n with
    | error e => rw [hn] at h; simp at h; exact .inl ⟨n, h⟩
    | ok r =>
      rw [hn] at h
      simp at h
      rcases h with h | h | h
      · exact .inl ⟨n, h⟩
      · exact .inr ⟨n, h⟩
      · exact ih h

omit [DecidableEq N] in
/-- In the parent's loop every submission follows the solving of that combination. -/
theorem parentLoop_prefix {names : List N} {p : List (Event2 N)} (h : p <+: (parentLoop P names).1) {n : N}
    (hn : .proc (.submit n) ∈ p) : .solve n ∈ p ∧ ∃ r, P.solve n = .ok r := by
  induction names generalizing p with
  | nil =>
    simp [parentLoop] at h
    subst h
    simp at hn
  | cons m ns ih =>
    simp only [parentLoop] at h
    cases hm : P.solve m with
    | error e =>
      rw [hm] at h
      have := h.subset hn
      simp at this
    | ok r =>
      rw [hm] at h
      simp only at h
      cases p with
      | nil => simp at hn
      | cons x p =>
        rw [List.cons_prefix_cons] at h
        obtain ⟨rfl, h⟩ := h
        cases p with
        | nil => simp at hn
        | cons y p =>
          rw [List.cons_prefix_cons] at h
          obtain ⟨rfl, h⟩ := h
          simp at hn
          rcases hn with rfl | hn
          · exact ⟨by simp, r, hm⟩
          · obtain ⟨h1, h2⟩ := ih h hn
            exact ⟨by simp [h1], h2⟩

omit [DecidableEq N] in
theorem mem_solved_or_failed {names : List N} {n : N} :
    .solve n ∈ (parentLoop P names).1 → n ∈ solvedNames P names ∨ ∃ e, P.solve n = .error e := by
  induction names with
  | nil => simp [parentLoop]
  | cons m ns ih =>
    simp only [parentLoop, solvedNames]
    cases hm : P.solve m with
    | error e =>
      simp
      rintro rfl
      exact ⟨e, hm⟩
    | ok r =>
      simp
      rintro (rfl | h)
      · exact .inl (.inl rfl)
      · rcases ih h with h | h
        · exact .inl (.inr h)
        · exact .inr h

omit [DecidableEq N] in
theorem solved_mem {names : List N} {n : N} (h : n ∈ solvedNames P names) :
    .solve n ∈ (parentLoop P names).1 ∧ ∃ r, P.solve n = .ok r := by
  induction names with
  | nil => simp [solvedNames] at h
  | cons m ns ih =>
    simp only [parentLoop, solvedNames] at h ⊢
    cases hm : P.solve m with
    | error e => rw [hm] at h; simp at h
    | ok r =>
      rw [hm] at h
      simp at h ⊢
      rcases h with rfl | h
      · exact ⟨.inl rfl, r, hm⟩
      · obtain ⟨h1, h2⟩ := ih h
        exact ⟨.inr h1, h2⟩

/-- The figures of a combination. -/
def figuresOf (P : Parts N R F K) (n : N) : List F := match P.solve n with
  | .ok r => (P.plot n r).1
  | .error _ => []

/-- The results of a combination. -/
def resultsOf (P : Parts N R F K) (n : N) : Option R := match P.solve n with
  | .ok r => some r
  | .error _ => none

/-- Plotting the combination ended, well or badly. -/
def Plotted (es : List (Event2 N)) (m : N) : Prop :=
  ∃ w, .proc (.finish w m) ∈ es ∨ .proc (.fail w m) ∈ es

open Classical in
/-- The output directory after a history, read off the set of events. -/
noncomputable def shown (P : Parts N R F K) (es : List (Event2 N)) : Store N R F :=
  ⟨fun m => if .solve m ∈ es then resultsOf P m else none,
   fun m => if Plotted es m then figuresOf P m else []⟩

omit [DecidableEq N] in
theorem plotted_snoc {es : List (Event2 N)} {e : Event2 N} {m : N} :
    Plotted (es ++ [e]) m ↔ Plotted es m ∨ ∃ w, e = .proc (.finish w m) ∨ e = .proc (.fail w m) := by
  unfold Plotted
  simp only [List.mem_append, List.mem_singleton]
  constructor
  · rintro ⟨w, (h | h) | (h | h)⟩
    exacts [.inl ⟨w, .inl h⟩, .inr ⟨w, .inl h.symm⟩, .inl ⟨w, .inr h⟩, .inr ⟨w, .inr h.symm⟩]
  · rintro (⟨w, h | h⟩ | ⟨w, h | h⟩)
    exacts [⟨w, .inl (.inl h)⟩, ⟨w, .inr (.inl h)⟩, ⟨w, .inl (.inr h.symm)⟩, ⟨w, .inr (.inr h.symm)⟩]

/-- Every plot in the history follows the solving of that combination. -/
def Ordered (P : Parts N R F K) (es : List (Event2 N)) : Prop :=
  ∀ es0 es1 w n, (es = es0 ++ .proc (.finish w n) :: es1 ∨ es = es0 ++ .proc (.fail w n) :: es1) →
    .solve n ∈ es0 ∧ ∃ r, P.solve n = .ok r

theorem effects_snoc (es : List (Event2 N)) (e : Event2 N) :
    effects P (es ++ [e]) = e.effect P (effects P es) := by
  simp [effects]

theorem effects_eq {es : List (Event2 N)} (h : Ordered P es) : effects P es = shown P es := by
  induction es using List.reverseRecOn with
  | nil =>
    have : ∀ m : N, ¬ Plotted [] m := by rintro m ⟨w, h | h⟩ <;> simp at h
    simp [effects, shown, Store.empty, this]
  | append_singleton es e ih =>
    have h' : Ordered P es := fun es0 es1 w n hs => by
      refine h es0 (es1 ++ [e]) w n ?_
      rcases hs with hs | hs <;> rw [hs] <;> simp
    rw [effects_snoc, ih h']
    have store_ext : ∀ s t : Store N R F, (∀ m, s.results m = t.results m) →
        (∀ m, s.figures m = t.figures m) → s = t := fun s t h1 h2 => by
      cases s; cases t; congr
      · exact funext h1
      · exact funext h2
    cases e with
    | solve n =>
      refine store_ext _ _ (fun m => ?_) (fun m => ?_)
      · have hmem : (.solve m ∈ es ++ [.solve n]) ↔ (.solve m ∈ es ∨ m = n) := by simp
        simp only [Event2.effect, solveStep]
        by_cases hm : m = n
        · subst hm
          cases hn : P.solve m <;> simp [shown, resultsOf, hn]
        · cases hn : P.solve n <;> simp [shown, hm]
      · have h1 : Plotted (es ++ [.solve n]) m ↔ Plotted es m := by simp [plotted_snoc]
        have h2 : (Event2.effect P (shown P es) (.solve n)).figures m = (shown P es).figures m := by
          simp only [Event2.effect, solveStep]
          cases P.solve n <;> rfl
        rw [h2]
        classical exact (if_congr h1 rfl rfl).symm
    | proc e =>
      have hres : ∀ m, (shown P (es ++ [.proc e])).results m = (shown P es).results m := fun m => by
        simp [shown]
      have same : (∀ w n, e ≠ .finish w n ∧ e ≠ .fail w n) → shown P es = shown P (es ++ [.proc e]) := by
        intro hne
        refine store_ext _ _ (fun m => (hres m).symm) (fun m => ?_)
        have h1 : Plotted (es ++ [.proc e]) m ↔ Plotted es m := by
          rw [plotted_snoc, or_iff_left]
          rintro ⟨w, h | h⟩
          · exact (hne w m).1 (by simpa using h)
          · exact (hne w m).2 (by simpa using h)
        classical exact (if_congr h1 rfl rfl).symm
      have plot : ∀ w n, e = .finish w n ∨ e = .fail w n →
          (plotStep P (shown P es) n).2 = shown P (es ++ [.proc e]) := by
        intro w n hwn
        obtain ⟨h1, r, h2⟩ := h es [] w n (by rcases hwn with rfl | rfl <;> simp)
        have h3 : (shown P es).results n = some r := by simp [shown, h1, resultsOf, h2]
        simp only [plotStep, h3]
        refine store_ext _ _ (fun m => (hres m).symm) (fun m => ?_)
        by_cases hm : m = n
        · subst hm
          have h4 : Plotted (es ++ [.proc e]) m := by
            rw [plotted_snoc]
            exact .inr ⟨w, by rcases hwn with rfl | rfl <;> simp⟩
          simp [shown, h4, figuresOf, h2]
        · have h4 : Plotted (es ++ [.proc e]) m ↔ Plotted es m := by
            rw [plotted_snoc, or_iff_left]
            rintro ⟨v, h | h⟩ <;> rcases hwn with rfl | rfl <;> simp at h <;> exact hm h.2.symm
          simp only [if_neg hm]
          classical exact (if_congr h4 rfl rfl).symm
      cases e with
      | finish w n => exact plot w n (.inl rfl)
      | fail w n => exact plot w n (.inr rfl)
      | _ => exact same (by simp)

/-- What the loop on one core does when no plot fails. -/
theorem singleLoop_eq (names : List N) (s : Store N R F)
    (hp : ∀ n ∈ solvedNames P names, plotOutcome P n = .returns) :
    singleLoop P names s = ((parentLoop P names).2,
      ⟨fun m => if m ∈ solvedNames P names then resultsOf P m else s.results m,
       fun m => if m ∈ solvedNames P names then figuresOf P m else s.figures m⟩) := by
  induction names generalizing s with
  | nil => simp [singleLoop, solvedNames, parentLoop]
  | cons n ns ih =>
    cases hn : P.solve n with
    | error e =>
      have h1 : solvedNames P (n :: ns) = [] := by simp [solvedNames, hn]
      rw [h1]
      simp [singleLoop, solveStep, parentLoop, hn]
    | ok r =>
      have h0 : solvedNames P (n :: ns) = n :: solvedNames P ns := by simp [solvedNames, hn]
      have h3 : (parentLoop P (n :: ns)).2 = (parentLoop P ns).2 := by simp [parentLoop, hn]
      rw [h0, h3]
      simp only [singleLoop, solveStep, hn]
      have h1 : (P.plot n r).2 = none := by
        have := hp n (by simp [solvedNames, hn])
        simp only [plotOutcome, hn] at this
        cases hx : (P.plot n r).2 with
        | none => rfl
        | some e => rw [hx] at this; cases this
      have h2 : ∀ m ∈ solvedNames P ns, plotOutcome P m = .returns := fun m hm =>
        hp m (by simp [solvedNames, hn, hm])
      simp only [plotStep, if_true, h1]
      rw [ih _ h2]
      simp only [List.mem_cons]
      congr 2
      · funext m
        by_cases hm : m = n
        · subst hm; simp [resultsOf, hn]
        · simp [hm]
      · funext m
        by_cases hm : m = n
        · subst hm; simp [figuresOf, hn]
        · simp [hm]

/-! ### Facts about histories of the output process -/

variable {out : N → Outcome}

theorem run_running {es : List (Event N)} {s : State N} (h : run out (init N) es = some s) {w : ℕ} {j : N}
    (hw : s.workers[w]? = some (.running j)) : j ∈ begun es := by
  have key := run_inv (out := out) (s := init N)
    (I := fun es s => ∀ (w : ℕ) (j : N), s.workers[w]? = some (.running j) → j ∈ begun es)
    (by intro w j h; simp [init] at h)
    (fun es t e t' _ hI he w j hw => by
      rw [begun_append, List.mem_append]
      have old : ∀ (k : ℕ) (x : Worker N), x ≠ .running j → t'.workers = t.workers.set k x →
          j ∈ begun es := fun k x hx ht => by
        rw [ht, List.getElem?_set] at hw
        split_ifs at hw with h1 h2
        · exact absurd (by simpa using hw) hx
        · exact hI w j hw
      by_cases hwk : isWork e = true
      · cases e <;> simp [isWork] at hwk <;> simp only [step] at he
        case take k i =>
          split_ifs at he
          by_cases hij : i = j
          · exact .inr (by simp [begun, hij])
          · cases he
            exact .inl (old k (.running i) (by simp [hij]) rfl)
        case fail k i =>
          split_ifs at he
          split at he <;> cases he
          · exact .inl (old k _ (by simp) rfl)
          · exact .inl (old k _ (by simp) rfl)
        case kill k c =>
          split at he
          · split_ifs at he
            cases he
            exact .inl (old k _ (by simp) rfl)
          · cases he
        case quit k =>
          split_ifs at he
          cases he
          exact .inl (old k _ (by simp) rfl)
        case finish k i =>
          split_ifs at he
          cases he
          exact .inl (old k _ (by simp) rfl)
      · by_cases hst : isStart e = true
        · cases e <;> simp [isStart] at hst
          simp only [step] at he
          split_ifs at he
          cases he
          rw [List.getElem?_append] at hw
          split_ifs at hw
          · exact .inl (hI w j hw)
          · rw [List.getElem?_singleton] at hw
            split_ifs at hw
            simp at hw
        · rw [(call_keeps (by simpa using hwk) (by simpa using hst) he).1] at hw
          exact .inl (hI w j hw)) h
  exact key w j hw

/-- A job that finished or failed had begun. -/
theorem ended_begun {es0 es1 : List (Event N)} {w : ℕ} {n : N} {s : State N} {e : Event N}
    (he : e = .finish w n ∨ e = .fail w n) (h : run out (init N) (es0 ++ e :: es1) = some s) :
    n ∈ begun es0 ∧ (e = .finish w n → out n = .returns) := by
  obtain ⟨t, ht, h⟩ := run_split h
  simp only [run] at h
  rcases he with rfl | rfl
  · simp only [step] at h
    by_cases hc : t.workers[w]? = some (.running n) ∧ out n = .returns
    · exact ⟨run_running ht hc.1, fun _ => hc.2⟩
    · rw [if_neg hc] at h; cases h
  · simp only [step] at h
    by_cases hc : t.workers[w]? = some (.running n)
    · exact ⟨run_running ht hc, by simp⟩
    · rw [if_neg hc] at h; cases h

end Main
end Verif
