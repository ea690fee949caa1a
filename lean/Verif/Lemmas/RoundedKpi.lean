import Verif.Model.RoundedKpi
import Verif.Spec.Rounding
import Verif.Lemmas.Rounding
import Verif.Lemmas.Kpi
import Mathlib.Algebra.Order.Ring.Pow
import Mathlib.Tactic.Positivity

/-!
# Lemmas on sums with rounding
-/

set_option autoImplicit false

namespace Verif
namespace RoundedKpi
open FixedOrder Kpi Spec Rounding
variable {N : Type} {R : Rounding} {u η : ℚ}

/-- The number of additions. -/
def Adding.adds : Adding → ℕ
  | .one _ => 0
  | .both a b => a.adds + b.adds + 1

theorem places_length (a : Adding) : a.places.length = a.adds + 1 := by
  induction a with
  | one i => rfl
  | both a b iha ihb =>
    rw [Adding.places, List.length_append, iha, ihb, Adding.adds]
    omega

theorem abs_sum_le (l : List ℚ) : |l.sum| ≤ (l.map fun x => |x|).sum := by
  induction l with
  | nil => simp
  | cons x l ih =>
    rw [List.sum_cons, List.map_cons, List.sum_cons]
    exact (abs_add_le x l.sum).trans (by linarith)

theorem abs_sum_nonneg (l : List ℚ) : 0 ≤ (l.map fun x => |x|).sum :=
  List.sum_nonneg fun x hx => by obtain ⟨y, -, rfl⟩ := List.mem_map.mp hx; exact abs_nonneg y

theorem adding_error (ha : Accurate R u η) (hu : 0 ≤ u) (hη : 0 ≤ η) (xs : List ℚ) (a : Adding) :
    |a.sum R xs - (a.places.map fun i => xs[i]?.getD 0).sum| ≤
      ((1 + u) ^ a.adds - 1) * ((a.places.map fun i => xs[i]?.getD 0).map fun x => |x|).sum +
        a.adds * η * (1 + u) ^ a.adds := by
  induction a with
  | one i => simp [Adding.sum, Adding.places, Adding.adds]
  | both a b iha ihb =>
    rw [Adding.sum, Adding.places, List.map_append, List.sum_append, List.map_append, List.sum_append, Adding.adds]
    set Sa := (a.places.map fun i => xs[i]?.getD 0).sum
    set Sb := (b.places.map fun i => xs[i]?.getD 0).sum
    set Ma := ((a.places.map fun i => xs[i]?.getD 0).map fun x => |x|).sum
    set Mb := ((b.places.map fun i => xs[i]?.getD 0).map fun x => |x|).sum
    have hMa : 0 ≤ Ma := abs_sum_nonneg _
    have hMb : 0 ≤ Mb := abs_sum_nonneg _
    have hSa : |Sa| ≤ Ma := abs_sum_le _
    have hSb : |Sb| ≤ Mb := abs_sum_le _
    have h0 := ha (a.sum R xs + b.sum R xs)
    change |R.rnd (a.sum R xs + b.sum R xs) - _| ≤ _
    have hone : (1 : ℚ) ≤ 1 + u := by linarith
    set P := (1 + u) ^ (a.adds + b.adds + 1) with hP
    have hPa : (1 + u) ^ a.adds * (1 + u) ≤ P := by
      rw [← pow_succ]; exact pow_le_pow_right₀ hone (by omega)
    have hPb : (1 + u) ^ b.adds * (1 + u) ≤ P := by
      rw [← pow_succ]; exact pow_le_pow_right₀ hone (by omega)
    have hP1 : 1 ≤ P := one_le_pow₀ hone
    generalize (1 + u) ^ a.adds = A at iha hPa
    generalize (1 + u) ^ b.adds = B at ihb hPb
    have hp : (0 : ℚ) ≤ a.adds := Nat.cast_nonneg _
    have hq : (0 : ℚ) ≤ b.adds := Nat.cast_nonneg _
    generalize a.sum R xs = sa at *
    generalize b.sum R xs = sb at *
    push_cast
    generalize (a.adds : ℚ) = p at *
    generalize (b.adds : ℚ) = q at *
    have e1 : |R.rnd (sa + sb) - (Sa + Sb)| ≤ |R.rnd (sa + sb) - (sa + sb)| + (|sa - Sa| + |sb - Sb|) := by
      have : R.rnd (sa + sb) - (Sa + Sb) = (R.rnd (sa + sb) - (sa + sb)) + ((sa - Sa) + (sb - Sb)) := by ring
      rw [this]
      exact (abs_add_le _ _).trans (by linarith [abs_add_le (sa - Sa) (sb - Sb)])
    have e2 : |sa + sb| ≤ |sa - Sa| + |sb - Sb| + Ma + Mb := by
      have : sa + sb = ((sa - Sa) + (sb - Sb)) + (Sa + Sb) := by ring
      rw [this]
      have := abs_add_le ((sa - Sa) + (sb - Sb)) (Sa + Sb)
      have := abs_add_le (sa - Sa) (sb - Sb)
      have := abs_add_le Sa Sb
      linarith
    have e3 : |R.rnd (sa + sb) - (Sa + Sb)| ≤ (1 + u) * (|sa - Sa| + |sb - Sb|) + u * (Ma + Mb) + η := by
      have := mul_le_mul_of_nonneg_left e2 hu
      nlinarith
    have f1 : (1 + u) * |sa - Sa| ≤ (P - 1 - u) * Ma + p * η * P := by
      have h1 := mul_le_mul_of_nonneg_left iha (by linarith : 0 ≤ 1 + u)
      have h2 := mul_le_mul_of_nonneg_right hPa hMa
      have h3 := mul_le_mul_of_nonneg_left hPa (mul_nonneg hp hη)
      nlinarith
    have f2 : (1 + u) * |sb - Sb| ≤ (P - 1 - u) * Mb + q * η * P := by
      have h1 := mul_le_mul_of_nonneg_left ihb (by linarith : 0 ≤ 1 + u)
      have h2 := mul_le_mul_of_nonneg_right hPb hMb
      have h3 := mul_le_mul_of_nonneg_left hPb (mul_nonneg hq hη)
      nlinarith
    have f3 : η ≤ η * P := le_mul_of_one_le_right hη hP1
    linarith

theorem adding_mono (hr : Rounds R) {xs ys : List ℚ} (h : ∀ i : ℕ, xs[i]?.getD 0 ≤ ys[i]?.getD 0) (a : Adding) :
    a.sum R xs ≤ a.sum R ys := by
  induction a with
  | one i => exact h i
  | both a b iha ihb => exact hr.mono _ _ (add_le_add iha ihb)

theorem places_sum (np : Numpy) {xs : List ℚ} (h : xs ≠ []) (g : ℚ → ℚ) :
    (((np.order xs.length).places.map fun i => xs[i]?.getD 0).map g).sum = (xs.map g).sum := by
  have hp := np.all xs.length (List.length_pos_iff.mpr h)
  rw [((hp.map fun i => xs[i]?.getD 0).map g).sum_eq]
  congr 2
  refine List.ext_getElem (by simp) fun i h1 h2 => ?_
  simp [h2]

/-- The error of `np.sum`. -/
theorem npSum_error (ha : Accurate R u η) (hu : 0 ≤ u) (hη : 0 ≤ η) (np : Numpy) (xs : List ℚ) :
    |npSum R np xs - xs.sum| ≤ ((1 + u) ^ xs.length - 1) * (xs.map fun x => |x|).sum + xs.length * η * (1 + u) ^ xs.length := by
  unfold npSum
  split
  · rename_i h
    simp [h]
  · rename_i h
    have h1 := adding_error ha hu hη xs (np.order xs.length)
    have hn : (np.order xs.length).adds + 1 = xs.length := by
      rw [← places_length, (np.all _ (List.length_pos_iff.mpr h)).length_eq, List.length_range]
    have e := places_sum np h id
    rw [List.map_id, List.map_id] at e
    rw [e, places_sum np h fun x => |x|] at h1
    have hM := abs_sum_nonneg xs
    have hone : (1 : ℚ) ≤ 1 + u := by linarith
    have hpow : (1 + u) ^ (np.order xs.length).adds ≤ (1 + u) ^ xs.length := pow_le_pow_right₀ hone (by omega)
    have hc : ((np.order xs.length).adds : ℚ) ≤ xs.length := by exact_mod_cast (by omega)
    refine h1.trans (add_le_add (mul_le_mul_of_nonneg_right (by linarith) hM) ?_)
    have h0 : (0 : ℚ) ≤ (np.order xs.length).adds := Nat.cast_nonneg _
    exact mul_le_mul (mul_le_mul_of_nonneg_right hc hη) hpow (by positivity) (by positivity)

theorem npSum_mono (hr : Rounds R) (np : Numpy) {xs ys : List ℚ} (h : List.Forall₂ (· ≤ ·) xs ys) :
    npSum R np xs ≤ npSum R np ys := by
  have hl := h.length_eq
  unfold npSum
  by_cases hx : xs = []
  · have hy : ys = [] := by rw [← List.length_eq_zero_iff, ← hl, hx]; rfl
    rw [if_pos hx, if_pos hy]
  · have hy : ys ≠ [] := fun e => hx (by rw [← List.length_eq_zero_iff, hl, e]; rfl)
    rw [if_neg hx, if_neg hy, hl]
    refine adding_mono hr (fun i => ?_) _
    by_cases hi : i < xs.length
    · have h2 := (List.forall₂_iff_get.mp h).2 i hi (hl ▸ hi)
      simpa [hi, hl ▸ hi] using h2
    · simp [List.getElem?_eq_none (not_lt.mp hi), List.getElem?_eq_none (hl ▸ not_lt.mp hi)]

theorem rounds_zero (hr : Rounds R) : R.rnd 0 = 0 := by
  have := hr.neg 0
  rw [neg_zero] at this
  linarith

theorem npSum_nonneg (hr : Rounds R) (np : Numpy) {xs : List ℚ} (h : ∀ x ∈ xs, 0 ≤ x) : 0 ≤ npSum R np xs := by
  unfold npSum
  split
  · exact le_rfl
  · suffices ∀ a : Adding, 0 ≤ a.sum R xs from this _
    intro a
    induction a with
    | one i =>
      show 0 ≤ xs[i]?.getD 0
      cases hi : xs[i]? with
      | none => exact le_rfl
      | some x => exact h x (List.mem_of_getElem? hi)
    | both a b iha ihb =>
      have := hr.mono _ _ (add_nonneg iha ihb)
      rwa [rounds_zero hr] at this

/-- Whole multiples of a power of two are added without error while the sum of the amounts has 53 digits. -/
theorem adding_whole {xs : List ℚ} {l : ℤ} (hl : -1074 ≤ l) {k : ℕ → ℤ} (hk : ∀ i : ℕ, xs[i]?.getD 0 = k i * 2 ^ l) (a : Adding)
    (h : (a.places.map fun i => |k i|).sum ≤ 2 ^ 53) :
    a.sum double xs = ((a.places.map k).sum : ℤ) * 2 ^ l ∧ |(a.places.map k).sum| ≤ (a.places.map fun i => |k i|).sum := by
  induction a with
  | one i => simpa [Adding.sum, Adding.places] using hk i
  | both a b iha ihb =>
    rw [Adding.places, List.map_append, List.sum_append] at h
    have ha0 : 0 ≤ (a.places.map fun i => |k i|).sum :=
      List.sum_nonneg fun x hx => by obtain ⟨y, -, rfl⟩ := List.mem_map.mp hx; exact abs_nonneg _
    have hb0 : 0 ≤ (b.places.map fun i => |k i|).sum :=
      List.sum_nonneg fun x hx => by obtain ⟨y, -, rfl⟩ := List.mem_map.mp hx; exact abs_nonneg _
    obtain ⟨a1, a2⟩ := iha (by linarith)
    obtain ⟨b1, b2⟩ := ihb (by linarith)
    rw [Adding.places, List.map_append, List.map_append, List.sum_append, List.sum_append]
    have hab : |(a.places.map k).sum + (b.places.map k).sum| ≤
        (a.places.map fun i => |k i|).sum + (b.places.map fun i => |k i|).sum := (abs_add_le _ _).trans (by linarith)
    refine ⟨?_, hab⟩
    rw [Adding.sum, a1, b1]
    have := double_fixes (y := (a.places.map k).sum * (2 : ℚ) ^ l + (b.places.map k).sum * 2 ^ l)
      (k := (a.places.map k).sum + (b.places.map k).sum) (l := l) (by push_cast; ring) (by linarith) hl
    rw [show double.add _ _ = _ from this]
    push_cast
    ring

theorem npSum_whole (np : Numpy) {xs : List ℚ} {l : ℤ} (hl : -1074 ≤ l) (hx : ∀ x ∈ xs, ∃ k : ℤ, x = k * 2 ^ l)
    (hs : (xs.map fun x => |x|).sum ≤ 2 ^ 53 * 2 ^ l) : npSum double np xs = xs.sum := by
  unfold npSum
  split
  · rename_i h; simp [h]
  · rename_i h
    have hp := two_zpow_pos l
    have hx' : ∀ i : ℕ, ∃ k : ℤ, xs[i]?.getD 0 = k * 2 ^ l := by
      intro i
      cases hi : xs[i]? with
      | none => exact ⟨0, by simp⟩
      | some x => exact hx x (List.mem_of_getElem? hi)
    choose k hk using hx'
    have e : ∀ is : List ℕ, ((is.map k).sum : ℤ) * (2 : ℚ) ^ l = (is.map fun i => xs[i]?.getD 0).sum := by
      intro is
      induction is with
      | nil => simp
      | cons i is ih => rw [List.map_cons, List.map_cons, List.sum_cons, List.sum_cons, ← ih, hk]; push_cast; ring
    have e' : ∀ is : List ℕ, ((is.map fun i => |k i|).sum : ℤ) * (2 : ℚ) ^ l =
        ((is.map fun i => xs[i]?.getD 0).map fun x => |x|).sum := by
      intro is
      induction is with
      | nil => simp
      | cons i is ih =>
        rw [List.map_cons, List.map_cons, List.map_cons, List.sum_cons, List.sum_cons, ← ih, hk, abs_mul, abs_of_pos hp]
        push_cast
        ring
    have hsum : (((np.order xs.length).places.map fun i => |k i|).sum : ℤ) ≤ 2 ^ 53 := by
      have h1 := e' (np.order xs.length).places
      rw [places_sum np h fun x => |x|] at h1
      rw [← h1] at hs
      exact_mod_cast le_of_mul_le_mul_right hs hp
    rw [(adding_whole hl hk _ hsum).1, e]
    have := places_sum np h id
    rwa [List.map_id, List.map_id] at this

/-- `(1 + u) ^ n - 1` for small `n u`. -/
theorem pow_excess {n : ℕ} (hu : 0 ≤ u) (h : n * u < 1) : (1 + u) ^ n - 1 ≤ n * u / (1 - n * u) := by
  rcases Nat.eq_zero_or_pos n with rfl | hn
  · simp
  have hn1 : (1 : ℚ) ≤ n := by exact_mod_cast hn
  have hu1 : u ≤ 1 := by nlinarith
  have h1 : 1 - n * u ≤ (1 - u) ^ n := by
    have := one_add_mul_le_pow (a := -u) (by linarith) n
    rw [mul_neg] at this
    rw [sub_eq_add_neg, sub_eq_add_neg]
    exact this
  have h2 : (1 + u) ^ n * (1 - u) ^ n ≤ 1 := by
    rw [← mul_pow]
    exact pow_le_one₀ (by nlinarith) (by nlinarith)
  have hpos : 0 < 1 - n * u := by linarith
  rw [sub_le_iff_le_add, div_add_one (ne_of_gt hpos)]
  rw [show (n : ℚ) * u + (1 - n * u) = 1 by ring, le_div_iff₀ hpos]
  exact (mul_le_mul_of_nonneg_left h1 (by positivity)).trans h2

/-- The error of `np.sum` in binary64 for up to a leap year of hours. -/
theorem npSum_year (np : Numpy) {xs : List ℚ} (h : xs.length ≤ 8784) :
    |npSum double np xs - xs.sum| ≤ 1 / 10 ^ 12 * (xs.map fun x => |x|).sum + 1 / 10 ^ 300 := by
  have h1 := npSum_error double_accurate (by norm_num) (by norm_num) np xs
  have hn : (xs.length : ℚ) ≤ 8784 := by exact_mod_cast h
  have h0 : (0 : ℚ) ≤ xs.length := Nat.cast_nonneg _
  have hM := abs_sum_nonneg xs
  have hlt : (xs.length : ℚ) * (1 / 2 ^ 53) < 1 := by
    have : (xs.length : ℚ) * (1 / 2 ^ 53) ≤ 8784 * (1 / 2 ^ 53) := mul_le_mul_of_nonneg_right hn (by norm_num)
    exact this.trans_lt (by norm_num)
  have h2 := pow_excess (u := 1 / 2 ^ 53) (by norm_num) hlt
  have h3 : (xs.length : ℚ) * (1 / 2 ^ 53) / (1 - xs.length * (1 / 2 ^ 53)) ≤ 1 / 10 ^ 12 := by
    rw [div_le_iff₀ (by linarith)]
    have : (xs.length : ℚ) * (1 / 2 ^ 53) ≤ 8784 * (1 / 2 ^ 53) := mul_le_mul_of_nonneg_right hn (by norm_num)
    have c : (8784 : ℚ) * (1 / 2 ^ 53) ≤ 1 / 10 ^ 12 * (1 - 8784 * (1 / 2 ^ 53)) := by norm_num
    linarith
  refine h1.trans (add_le_add (mul_le_mul_of_nonneg_right (h2.trans h3) hM) ?_)
  have h4 : (1 + 1 / 2 ^ 53 : ℚ) ^ xs.length ≤ 2 := by
    have : (1 : ℚ) / 10 ^ 12 ≤ 1 := by norm_num
    linarith
  have h5 : (xs.length : ℚ) * (1 / 2 ^ 1075) ≤ 8784 * (1 / 2 ^ 1075) := mul_le_mul_of_nonneg_right hn (by positivity)
  calc (xs.length : ℚ) * (1 / 2 ^ 1075) * (1 + 1 / 2 ^ 53) ^ xs.length ≤ 8784 * (1 / 2 ^ 1075) * 2 :=
        mul_le_mul h5 h4 (by positivity) (by positivity)
    _ ≤ 1 / 10 ^ 300 := by decide +kernel

theorem total_ok {C : Calcs N} (h : AllHours C) (np : Numpy) (f : Results N → ℚ) :
    total R np C f = .ok (npSum R np (C.results.map f)) := by
  unfold total
  rw [series_ok h]
  rfl

end RoundedKpi
end Verif
