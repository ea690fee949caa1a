import Verif.Lemmas.FixedOrder
import Mathlib.Data.List.Range

/-!
# Lemmas on loops that may raise
-/

set_option autoImplicit false

namespace Verif
open FixedOrder
variable {α β : Type}

theorem except_map_ok {f : α → β} {x : Except PyErr α} {b : β} :
    f <$> x = .ok b ↔ ∃ a, x = .ok a ∧ f a = b := by
  cases x with
  | error e => constructor <;> rintro h <;> simp_all [Functor.map, Except.map]
  | ok a => simp [Functor.map, Except.map]

/-- A loop that collects results succeeds exactly when every pass does. -/
theorem mapM_ok_iff {f : α → Except PyErr β} {xs : List α} {ys : List β} :
    xs.mapM f = .ok ys ↔ List.Forall₂ (fun x y => f x = .ok y) xs ys := by
  induction xs generalizing ys with
  | nil => simp [pure, Except.pure, eq_comm]
  | cons x xs ih =>
    rw [List.mapM_cons]
    simp only [except_bind_ok, ih, except_pure_ok]
    constructor
    · rintro ⟨y, hy, ys', h', rfl⟩; exact .cons hy h'
    · intro h; cases h with
      | cons hy h' => exact ⟨_, hy, _, h', rfl⟩

theorem mapM_length {f : α → Except PyErr β} {xs : List α} {ys : List β} (h : xs.mapM f = .ok ys) :
    ys.length = xs.length := (mapM_ok_iff.1 h).length_eq.symm

theorem mapM_get {f : α → Except PyErr β} {xs : List α} {ys : List β} (h : xs.mapM f = .ok ys)
    {i : ℕ} {x : α} (hx : xs[i]? = some x) : ∃ y, ys[i]? = some y ∧ f x = .ok y := by
  rw [mapM_ok_iff] at h
  induction h generalizing i with
  | nil => simp at hx
  | cons h1 _ ih =>
    cases i with
    | zero => simp only [List.getElem?_cons_zero, Option.some.injEq] at hx ⊢; subst hx; exact ⟨_, rfl, h1⟩
    | succ i => simp only [List.getElem?_cons_succ] at hx ⊢; exact ih hx

theorem mapM_total {f : α → Except PyErr β} {xs : List α} (h : ∀ x ∈ xs, ∃ y, f x = .ok y) :
    ∃ ys, xs.mapM f = .ok ys := by
  induction xs with
  | nil => exact ⟨[], rfl⟩
  | cons x xs ih =>
    obtain ⟨y, hy⟩ := h x (List.mem_cons_self ..)
    obtain ⟨ys, hys⟩ := ih (fun z hz => h z (List.mem_cons_of_mem _ hz))
    exact ⟨y :: ys, by rw [List.mapM_cons, hy, hys]; rfl⟩

/-- A loop over `range(n)`. -/
theorem mapM_range_get {f : ℕ → Except PyErr β} {n : ℕ} {ys : List β}
    (h : (List.range n).mapM f = .ok ys) {t : ℕ} (ht : t < n) :
    ∃ y, ys[t]? = some y ∧ f t = .ok y :=
  mapM_get h (by rw [List.getElem?_range ht])

/-- Blocks of one length, put end to end. -/
theorem flatten_length {xss : List (List α)} {k : ℕ} (h : ∀ xs ∈ xss, xs.length = k) :
    xss.flatten.length = xss.length * k := by
  induction xss with
  | nil => simp
  | cons xs xss ih =>
    have h1 := h xs (List.mem_cons_self ..)
    have h2 := ih (fun ys hy => h ys (List.mem_cons_of_mem _ hy))
    simp only [List.flatten_cons, List.length_append, List.length_cons, h1, h2]; ring

theorem flatten_get {xss : List (List α)} {k : ℕ} (h : ∀ xs ∈ xss, xs.length = k) {i j : ℕ}
    (hj : j < k) : xss.flatten[i * k + j]? = (xss[i]?).bind (·[j]?) := by
  induction xss generalizing i with
  | nil => simp
  | cons xs xss ih =>
    have h1 := h xs (List.mem_cons_self ..)
    cases i with
    | zero =>
      rw [List.flatten_cons, List.getElem?_append_left (by omega)]; simp
    | succ i =>
      have h2 := ih (fun ys hy => h ys (List.mem_cons_of_mem _ hy)) (i := i)
      rw [List.flatten_cons, List.getElem?_append_right (by rw [h1]; nlinarith)]
      rw [h1, show (i + 1) * k + j - k = i * k + j by rw [Nat.succ_mul]; omega, h2]
      simp

end Verif
