import Verif.Spec.Kpi
import Verif.Lemmas.ListM
import Mathlib.Algebra.BigOperators.Group.List.Basic
import Mathlib.Algebra.Order.BigOperators.Group.List

/-!
# Lemmas on the performance indicators
-/

set_option autoImplicit false

namespace Verif
namespace Kpi
open FixedOrder Spec
variable {N : Type}

theorem mapM_range_of {β : Type} {f : ℕ → Except PyErr β} {g : ℕ → β} {n : ℕ}
    (h : ∀ i < n, f i = .ok (g i)) : (List.range n).mapM f = .ok ((List.range n).map g) := by
  rw [mapM_ok_iff, List.forall₂_iff_get]
  refine ⟨by simp, fun i h1 h2 => ?_⟩
  have hi : i < n := by simpa using h1
  simpa using h i hi

theorem result_ok {C : Calcs N} {i : ℕ} (h : i < C.results.length) :
    result C i = .ok C.results[i] := by
  unfold result
  rw [List.getElem?_eq_getElem h]

theorem series_ok {C : Calcs N} (h : AllHours C) (f : Results N → ℚ) :
    series C f = .ok (C.results.map f) := by
  unfold series
  rw [← show C.results.length = C.timesteps from h, mapM_ok_iff, List.forall₂_iff_get]
  refine ⟨by simp, fun i h1 h2 => ?_⟩
  have hi : i < C.results.length := by simpa using h1
  simp only [List.get_eq_getElem, List.getElem_range, List.getElem_map]
  rw [result_ok hi]
  rfl

theorem total_ok {C : Calcs N} (h : AllHours C) (f : Results N → ℚ) :
    total C f = .ok (C.results.map f).sum := by
  unfold total
  rw [series_ok h]
  rfl

theorem total_short {C : Calcs N} (h : C.results.length < C.timesteps) (f : Results N → ℚ) :
    total C f = .error .indexError := by
  have key : ∀ n k : ℕ, k ≤ C.results.length → C.results.length < k + n →
      (List.range' k n).mapM (fun i => f <$> result C i) = .error .indexError := by
    intro n
    induction n with
    | zero => intro k h1 h2; omega
    | succ n ih =>
      intro k h1 h2
      rw [List.range'_succ, List.mapM_cons]
      by_cases hk : k < C.results.length
      · rw [result_ok hk]
        have := ih (k + 1) hk (by omega)
        show (do let a ← Except.ok (f C.results[k]); _) = _
        show (do let as ← (List.range' (k + 1) n).mapM (fun i => f <$> result C i); _) = _
        rw [this]
        rfl
      · have : C.results[k]? = none := List.getElem?_eq_none (by omega)
        unfold result
        rw [this]
        rfl
  unfold total series
  rw [List.range_eq_range', key _ 0 (by omega) (by omega)]
  rfl

theorem sum_le_sum_map {α : Type} {l : List α} {f g : α → ℚ} (h : ∀ x ∈ l, f x ≤ g x) :
    (l.map f).sum ≤ (l.map g).sum := List.sum_le_sum h

theorem sum_map_nonneg {α : Type} {l : List α} {f : α → ℚ} (h : ∀ x ∈ l, 0 ≤ f x) :
    0 ≤ (l.map f).sum := by
  have := sum_le_sum_map (f := fun _ => 0) h
  simpa using this

theorem sum_map_add' {α : Type} (l : List α) (f g : α → ℚ) :
    (l.map fun x => f x + g x).sum = (l.map f).sum + (l.map g).sum := by
  induction l with
  | nil => simp
  | cons x xs ih => simp only [List.map_cons, List.sum_cons, ih]; ring

theorem sum_map_sub' {α : Type} (l : List α) (f g : α → ℚ) :
    (l.map fun x => f x - g x).sum = (l.map f).sum - (l.map g).sum := by
  induction l with
  | nil => simp
  | cons x xs ih => simp only [List.map_cons, List.sum_cons, ih]; ring

theorem sum_map_div' {α : Type} (l : List α) (f : α → ℚ) (c : ℚ) :
    (l.map fun x => f x / c).sum = (l.map f).sum / c := by
  induction l with
  | nil => simp
  | cons x xs ih => simp only [List.map_cons, List.sum_cons, ih]; ring

theorem sum_map_neg' {α : Type} (l : List α) (f : α → ℚ) :
    (l.map fun x => -f x).sum = -(l.map f).sum := by
  induction l with
  | nil => simp
  | cons x xs ih => simp only [List.map_cons, List.sum_cons, ih]; ring

theorem repeated_all {k : ℕ} {C : Calcs N} (h : AllHours C) : AllHours (repeated k C) := by
  unfold AllHours at *
  simp [repeated, h]

theorem sum_flatten_replicate {α : Type} (k : ℕ) (l : List α) (f : α → ℚ) :
    ((List.replicate k l).flatten.map f).sum = k * (l.map f).sum := by
  induction k with
  | zero => simp
  | succ k ih =>
    rw [List.replicate_succ, List.flatten_cons, List.map_append, List.sum_append, ih]
    push_cast
    ring

theorem total_repeated {k : ℕ} {C : Calcs N} (h : AllHours C) (f : Results N → ℚ) :
    total (repeated k C) f = .ok (k * (C.results.map f).sum) := by
  rw [total_ok (repeated_all h)]
  congr 1
  exact sum_flatten_replicate _ _ _

end Kpi
end Verif
