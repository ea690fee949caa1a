import Verif.Spec.Rounding
import Verif.Lemmas.Tank
import Verif.Lemmas.Grid
import Mathlib.Data.Rat.Lemmas
import Mathlib.Data.Nat.Log

/-!
# Rounding to binary64
-/

set_option autoImplicit false

namespace Verif
open Spec Rounding

theorem roundHalfEven_int (k : ℤ) : roundHalfEven (k : ℚ) = k := by
  unfold roundHalfEven
  dsimp only
  rw [Int.floor_intCast, if_pos (by norm_num)]

theorem roundHalfEven_neg (q : ℚ) : roundHalfEven (-q) = -roundHalfEven q := by
  by_cases hq : (⌊q⌋ : ℚ) = q
  · have : -q = ((-⌊q⌋ : ℤ) : ℚ) := by rw [Int.cast_neg, hq]
    rw [this, roundHalfEven_int]
    congr 1
    conv_rhs => rw [← hq]
    rw [roundHalfEven_int]
  · have h1 := Int.floor_le q
    have h2 := Int.lt_floor_add_one q
    have hlt : (⌊q⌋ : ℚ) < q := lt_of_le_of_ne h1 hq
    have hf : ⌊-q⌋ = -⌊q⌋ - 1 := by
      rw [Int.floor_eq_iff]
      push_cast
      constructor <;> linarith
    unfold roundHalfEven
    dsimp only
    rw [hf]
    push_cast
    split_ifs <;> first | omega | (exfalso; linarith)

/-- Powers of two. -/
theorem two_zpow_pos (e : ℤ) : (0 : ℚ) < 2 ^ e := zpow_pos (by norm_num) e

theorem two_zpow_mono {a b : ℤ} (h : a ≤ b) : (2 : ℚ) ^ a ≤ 2 ^ b :=
  zpow_le_zpow_right₀ (by norm_num) h

theorem two_zpow_lt {a b : ℤ} (h : (2 : ℚ) ^ a < 2 ^ b) : a < b := by
  by_contra hh
  exact absurd (two_zpow_mono (by omega : b ≤ a)) (not_le.mpr h)

theorem two_zpow_add (a b : ℤ) : (2 : ℚ) ^ (a + b) = 2 ^ a * 2 ^ b := zpow_add₀ (by norm_num) a b

theorem two_zpow_nat {a : ℤ} (h : 0 ≤ a) : (2 : ℚ) ^ a = ((2 ^ a.toNat : ℤ) : ℚ) := by
  obtain ⟨n, rfl⟩ := Int.eq_ofNat_of_zero_le h
  simp

theorem exponent_spec {x : ℚ} (hx : x ≠ 0) :
    (2 : ℚ) ^ exponent x ≤ |x| ∧ |x| < 2 ^ (exponent x + 1) := by
  have hn : x.num.natAbs ≠ 0 := by simpa using hx
  have hd : x.den ≠ 0 := x.den_nz
  have habs : |x| = (x.num.natAbs : ℚ) / (x.den : ℚ) := by
    conv_lhs => rw [← Rat.num_div_den x]
    rw [abs_div, Nat.abs_cast, Nat.cast_natAbs, Int.cast_abs]
  have n1 : ((2 ^ Nat.log2 x.num.natAbs : ℕ) : ℚ) ≤ x.num.natAbs := by
    exact_mod_cast Nat.log2_self_le hn
  have n2 : (x.num.natAbs : ℚ) < ((2 ^ (Nat.log2 x.num.natAbs + 1) : ℕ) : ℚ) := by
    exact_mod_cast Nat.lt_log2_self
  have d1 : ((2 ^ Nat.log2 x.den : ℕ) : ℚ) ≤ x.den := by
    exact_mod_cast Nat.log2_self_le hd
  have d2 : (x.den : ℚ) < ((2 ^ (Nat.log2 x.den + 1) : ℕ) : ℚ) := by
    exact_mod_cast Nat.lt_log2_self
  have dp : (0 : ℚ) < x.den := by exact_mod_cast x.den_pos
  generalize ha : Nat.log2 x.num.natAbs = a at *
  generalize hb : Nat.log2 x.den = b at *
  have pa : ((2 ^ a : ℕ) : ℚ) = (2 : ℚ) ^ (a : ℤ) := by push_cast; rw [zpow_natCast]
  have pb : ((2 ^ b : ℕ) : ℚ) = (2 : ℚ) ^ (b : ℤ) := by push_cast; rw [zpow_natCast]
  have pa1 : ((2 ^ (a + 1) : ℕ) : ℚ) = (2 : ℚ) ^ (a : ℤ) * 2 := by
    push_cast; rw [zpow_natCast, pow_succ]
  have pb1 : ((2 ^ (b + 1) : ℕ) : ℚ) = (2 : ℚ) ^ (b : ℤ) * 2 := by
    push_cast; rw [zpow_natCast, pow_succ]
  rw [pa] at n1
  rw [pa1] at n2
  rw [pb] at d1
  rw [pb1] at d2
  have e1 : (2 : ℚ) ^ ((a : ℤ) - b) = 2 ^ (a : ℤ) / 2 ^ (b : ℤ) := zpow_sub₀ (by norm_num) _ _
  have e2 : (2 : ℚ) ^ ((a : ℤ) - b + 1) = 2 ^ (a : ℤ) / 2 ^ (b : ℤ) * 2 := by
    rw [two_zpow_add, e1, zpow_one]
  have e3 : (2 : ℚ) ^ ((a : ℤ) - b - 1) = 2 ^ (a : ℤ) / 2 ^ (b : ℤ) / 2 := by
    rw [sub_eq_add_neg _ (1 : ℤ), two_zpow_add, e1]; norm_num; ring
  have ap := two_zpow_pos (a : ℤ)
  have bp := two_zpow_pos (b : ℤ)
  have hlow : (2 : ℚ) ^ (a : ℤ) / 2 ^ (b : ℤ) / 2 ≤ |x| := by
    rw [habs, div_div, div_le_div_iff₀ (by positivity) dp]
    nlinarith
  have hhigh : |x| < (2 : ℚ) ^ (a : ℤ) / 2 ^ (b : ℤ) * 2 := by
    rw [habs, div_mul_eq_mul_div, div_lt_div_iff₀ dp bp]
    nlinarith
  unfold exponent
  dsimp only
  rw [ha, hb]
  split_ifs with h
  · exact ⟨h, by rw [e2]; exact hhigh⟩
  · refine ⟨by rw [e3]; exact hlow, ?_⟩
    rw [sub_add_cancel]
    exact not_le.mp h

theorem exponent_neg (x : ℚ) : exponent (-x) = exponent x := by
  unfold exponent
  simp only [Rat.num_neg_eq_neg_num, Int.natAbs_neg, Rat.neg_den, abs_neg]

theorem lastDigit_neg (x : ℚ) : lastDigit (-x) = lastDigit x := by
  unfold lastDigit
  rw [exponent_neg]

theorem double_eq {x : ℚ} (hx : x ≠ 0) :
    double.rnd x = roundHalfEven (x / 2 ^ lastDigit x) * 2 ^ lastDigit x := if_neg hx

theorem double_neg (x : ℚ) : double.rnd (-x) = -double.rnd x := by
  by_cases hx : x = 0
  · subst hx
    rfl
  · rw [double_eq hx, double_eq (neg_ne_zero.mpr hx), lastDigit_neg, neg_div, roundHalfEven_neg]
    push_cast
    ring

/-- The size of a number against its last digit. -/
theorem lt_lastDigit {x : ℚ} (hx : x ≠ 0) : |x| < 2 ^ (lastDigit x + 53) := by
  refine lt_of_lt_of_le (exponent_spec hx).2 (two_zpow_mono ?_)
  have : exponent x - 52 ≤ lastDigit x := le_max_left _ _
  omega

theorem le_of_int {q : ℚ} {k : ℤ} (h : (k : ℚ) ≤ q) : k ≤ roundHalfEven q := by
  have := roundHalfEven_mono h
  rwa [roundHalfEven_int] at this

theorem of_le_int {q : ℚ} {k : ℤ} (h : q ≤ k) : roundHalfEven q ≤ k := by
  have := roundHalfEven_mono h
  rwa [roundHalfEven_int] at this

theorem double_pos_mono {x y : ℚ} (hx : 0 < x) (h : x ≤ y) : double.rnd x ≤ double.rnd y := by
  have hy : 0 < y := lt_of_lt_of_le hx h
  rw [double_eq hx.ne', double_eq hy.ne']
  have sx := exponent_spec hx.ne'
  have sy := exponent_spec hy.ne'
  rw [abs_of_pos hx] at sx
  rw [abs_of_pos hy] at sy
  have hexp : exponent x ≤ exponent y := by
    have := two_zpow_lt (lt_of_le_of_lt (sx.1.trans h) sy.2)
    omega
  have hl : lastDigit x ≤ lastDigit y := max_le_max (by omega) le_rfl
  have px := two_zpow_pos (lastDigit x)
  have py := two_zpow_pos (lastDigit y)
  rcases hl.lt_or_eq with hlt | heq
  · have ey : lastDigit y = exponent y - 52 := by
      unfold lastDigit at hlt ⊢
      omega
    have hmid1 : (roundHalfEven (x / 2 ^ lastDigit x) : ℚ) * 2 ^ lastDigit x
        ≤ 2 ^ (lastDigit y + 52) := by
      have hx53 := lt_lastDigit hx.ne'
      rw [abs_of_pos hx] at hx53
      have hb : x ≤ 2 ^ (lastDigit y + 52) := hx53.le.trans (two_zpow_mono (by omega))
      have hk : (0 : ℤ) ≤ lastDigit y + 52 - lastDigit x := by omega
      have hs : (2 : ℚ) ^ (lastDigit y + 52)
          = ((2 ^ (lastDigit y + 52 - lastDigit x).toNat : ℤ) : ℚ) * 2 ^ lastDigit x := by
        rw [← two_zpow_nat hk, ← two_zpow_add]
        congr 1
        ring
      rw [hs] at hb ⊢
      have : roundHalfEven (x / 2 ^ lastDigit x) ≤ 2 ^ (lastDigit y + 52 - lastDigit x).toNat := by
        apply of_le_int
        rwa [div_le_iff₀ px]
      exact mul_le_mul_of_nonneg_right (by exact_mod_cast this) px.le
    refine hmid1.trans ?_
    have hs : (2 : ℚ) ^ (lastDigit y + 52) = ((2 ^ 52 : ℤ) : ℚ) * 2 ^ lastDigit y := by
      rw [add_comm, two_zpow_add]
      norm_num
    rw [hs]
    have : (2 ^ 52 : ℤ) ≤ roundHalfEven (y / 2 ^ lastDigit y) := by
      apply le_of_int
      rw [le_div_iff₀ py, ← hs]
      refine le_trans (two_zpow_mono ?_) sy.1
      omega
    exact mul_le_mul_of_nonneg_right (by exact_mod_cast this) py.le
  · rw [heq]
    have : x / 2 ^ lastDigit y ≤ y / 2 ^ lastDigit y := div_le_div_of_nonneg_right h py.le
    exact mul_le_mul_of_nonneg_right (by exact_mod_cast roundHalfEven_mono this) py.le

theorem double_nonneg {x : ℚ} (hx : 0 ≤ x) : 0 ≤ double.rnd x := by
  rcases hx.lt_or_eq with h | h
  · rw [double_eq h.ne']
    have p := two_zpow_pos (lastDigit x)
    have : (0 : ℤ) ≤ roundHalfEven (x / 2 ^ lastDigit x) := le_of_int (by push_cast; positivity)
    exact mul_nonneg (by exact_mod_cast this) p.le
  · rw [← h]
    exact le_of_eq rfl

theorem double_mono {x y : ℚ} (h : x ≤ y) : double.rnd x ≤ double.rnd y := by
  rcases lt_or_ge 0 x with hx | hx
  · exact double_pos_mono hx h
  · rcases lt_or_ge y 0 with hy | hy
    · have := double_pos_mono (neg_pos.mpr hy) (neg_le_neg h)
      rw [double_neg, double_neg] at this
      linarith
    · have h1 := double_nonneg (neg_nonneg.mpr hx)
      rw [double_neg] at h1
      exact le_trans (by linarith) (double_nonneg hy)

theorem double_fixes {y : ℚ} {k l : ℤ} (hy : y = k * 2 ^ l) (hk : |k| ≤ 2 ^ 53) (hl : -1074 ≤ l) :
    double.rnd y = y := by
  by_cases h0 : y = 0
  · rw [h0]
    rfl
  have p := two_zpow_pos l
  have key : ∀ l' j : ℤ, lastDigit y = l' → y = j * 2 ^ l' → double.rnd y = y := by
    intro l' j h1 h2
    rw [double_eq h0, h1]
    have pl := two_zpow_pos l'
    have : y / 2 ^ l' = j := by rw [h2]; field_simp
    rw [this, roundHalfEven_int, ← h2]
  have sy := exponent_spec h0
  have habs : |y| = (|k| : ℤ) * 2 ^ l := by rw [hy, abs_mul, abs_of_pos p, Int.cast_abs]
  rcases hk.lt_or_eq with hlt | heq
  · have hlt' : |y| < 2 ^ (l + 53) := by
      rw [habs, add_comm, two_zpow_add]
      refine mul_lt_mul_of_pos_right ?_ p
      have : ((|k| : ℤ) : ℚ) < ((2 ^ 53 : ℤ) : ℚ) := by exact_mod_cast hlt
      refine lt_of_lt_of_eq this ?_
      norm_num
    have he : exponent y < l + 53 := two_zpow_lt (lt_of_le_of_lt sy.1 hlt')
    have hd : lastDigit y ≤ l := by
      unfold lastDigit
      omega
    refine key _ (k * 2 ^ (l - lastDigit y).toNat) rfl ?_
    have := two_zpow_nat (show (0 : ℤ) ≤ l - lastDigit y by omega)
    push_cast at this ⊢
    rw [← this, mul_assoc, ← two_zpow_add, hy]
    congr 2
    ring
  · have habs' : |y| = 2 ^ (l + 53) := by
      rw [habs, heq, add_comm, two_zpow_add]
      norm_num
    have he : exponent y = l + 53 := by
      have h1 := two_zpow_lt (lt_of_eq_of_lt habs'.symm sy.2)
      have h2 : exponent y ≤ l + 53 := by
        by_contra hh
        have := two_zpow_mono (show l + 53 + 1 ≤ exponent y by omega)
        have h3 : (2 : ℚ) ^ (l + 53 + 1) = 2 ^ (l + 53) * 2 := by rw [two_zpow_add, zpow_one]
        have h4 := two_zpow_pos (l + 53)
        linarith [sy.1]
      omega
    have hd : lastDigit y = l + 1 := by
      unfold lastDigit
      omega
    obtain ⟨s, hs⟩ : ∃ s : ℤ, k = s * 2 ^ 53 := by
      rcases abs_choice k with h | h
      · exact ⟨1, by rw [← h, heq]; ring⟩
      · exact ⟨-1, by linarith⟩
    refine key (l + 1) (s * 2 ^ 52) hd ?_
    rw [hy, hs, two_zpow_add]
    push_cast
    ring

theorem double_idem (x : ℚ) : double.rnd (double.rnd x) = double.rnd x := by
  by_cases hx : x = 0
  · rw [hx]
    rfl
  · refine double_fixes (k := roundHalfEven (x / 2 ^ lastDigit x)) (l := lastDigit x) (double_eq hx) ?_
      (le_max_right _ _)
    have p := two_zpow_pos (lastDigit x)
    have h := lt_lastDigit hx
    rw [add_comm, two_zpow_add] at h
    have h' : |x / 2 ^ lastDigit x| ≤ ((2 ^ 53 : ℤ) : ℚ) := by
      rw [abs_div, abs_of_pos p, div_le_iff₀ p]
      refine h.le.trans (le_of_eq ?_)
      norm_num
    obtain ⟨h1, h2⟩ := abs_le.mp h'
    rw [abs_le]
    refine ⟨?_, of_le_int h2⟩
    exact le_of_int (by push_cast at h1 ⊢; linarith)

/-- Binary64 keeps order, signs and what is already rounded. -/
theorem double_rounds : Rounds double where
  mono _ _ h := double_mono h
  neg := double_neg
  idem := double_idem

/-- The error of binary64 is at most one in `2 ^ 53`. -/
theorem double_accurate : Accurate double (1 / 2 ^ 53) (1 / 2 ^ 1075) := by
  intro x
  by_cases hx : x = 0
  · subst hx
    have : double.rnd 0 = 0 := rfl
    rw [this]
    norm_num
  · have p := two_zpow_pos (lastDigit x)
    have hd := Tank.roundHalfEven_dist (x / 2 ^ lastDigit x)
    have e : double.rnd x - x
        = -((x / 2 ^ lastDigit x - roundHalfEven (x / 2 ^ lastDigit x)) * 2 ^ lastDigit x) := by
      rw [double_eq hx]
      field_simp
      ring
    rw [e, abs_neg, abs_mul, abs_of_pos p]
    have h1 : |x / 2 ^ lastDigit x - roundHalfEven (x / 2 ^ lastDigit x)| * 2 ^ lastDigit x
        ≤ 1 / 2 * 2 ^ lastDigit x := mul_le_mul_of_nonneg_right hd p.le
    refine h1.trans ?_
    have ax := abs_nonneg x
    rcases max_choice (exponent x - 52) (-1074) with h | h
    · have hl : lastDigit x = exponent x + (-52) := h
      have : (2 : ℚ) ^ lastDigit x = 2 ^ exponent x * (1 / 2 ^ 52) := by
        rw [hl, two_zpow_add]
        congr 1
        rw [zpow_neg]
        norm_num
      rw [this]
      have := (exponent_spec hx).1
      have hη : (0 : ℚ) ≤ 1 / 2 ^ 1075 := by positivity
      have h53 : (1 : ℚ) / 2 ^ 53 = 1 / 2 * (1 / 2 ^ 52) := by norm_num
      rw [h53]
      generalize (1 : ℚ) / 2 ^ 1075 = η at hη ⊢
      nlinarith
    · have hl : lastDigit x = -1074 := h
      have : (1 : ℚ) / 2 * 2 ^ lastDigit x = 1 / 2 ^ 1075 := by
        rw [hl, zpow_neg]
        rw [show (2 : ℚ) ^ 1075 = 2 * 2 ^ 1074 by rw [← pow_succ']]
        rw [show (2 : ℚ) ^ (1074 : ℤ) = 2 ^ 1074 from zpow_natCast 2 1074]
        generalize (2 : ℚ) ^ 1074 = x
        ring
      rw [this]
      exact le_add_of_nonneg_left (by positivity)

/-- No integer is closer to `q` than the one it is rounded to. -/
theorem roundHalfEven_nearest (q : ℚ) (k : ℤ) : |(roundHalfEven q : ℚ) - q| ≤ |(k : ℚ) - q| := by
  by_cases hk : k = roundHalfEven q
  · rw [hk]
  · have h1 := FixedOrder.roundHalfEven_bounds q
    have h2 : (1 : ℚ) ≤ |(k : ℚ) - roundHalfEven q| := by
      have : 1 ≤ |k - roundHalfEven q| := Int.one_le_abs (sub_ne_zero.mpr hk)
      exact_mod_cast this
    have h3 : |(roundHalfEven q : ℚ) - q| ≤ 1 / 2 := abs_le.mpr ⟨by linarith [h1.2], by linarith [h1.1]⟩
    have h4 : |(k : ℚ) - roundHalfEven q| ≤ |(k : ℚ) - q| + |q - roundHalfEven q| := abs_sub_le _ _ _
    rw [abs_sub_comm q] at h4
    linarith

theorem double_pos_nearest {x : ℚ} (hx : 0 < x) {m e : ℤ} (hm : |m| ≤ 2 ^ 53) (he : -1074 ≤ e) :
    |double.rnd x - x| ≤ |m * 2 ^ e - x| := by
  have hp := two_zpow_pos (lastDigit x)
  have grid : ∀ k : ℤ, |double.rnd x - x| ≤ |k * 2 ^ lastDigit x - x| := by
    intro k
    have h := mul_le_mul_of_nonneg_right (roundHalfEven_nearest (x / 2 ^ lastDigit x) k) hp.le
    have e1 : ∀ j : ℚ, |j - x / 2 ^ lastDigit x| * 2 ^ lastDigit x = |j * 2 ^ lastDigit x - x| := by
      intro j
      rw [← abs_of_pos hp, ← abs_mul, abs_of_pos hp, sub_mul, div_mul_cancel₀ _ hp.ne']
    rw [e1, e1] at h
    rw [double_eq hx.ne']
    exact h
  by_cases hl : lastDigit x ≤ e
  · have h2 : (2 : ℚ) ^ e = ((2 ^ (e - lastDigit x).toNat : ℤ) : ℚ) * 2 ^ lastDigit x := by
      rw [← two_zpow_nat (by omega), ← two_zpow_add]
      congr 1
      omega
    have := grid (m * 2 ^ (e - lastDigit x).toNat)
    rw [Int.cast_mul, mul_assoc, ← h2] at this
    exact this
  · have hex : lastDigit x = exponent x - 52 := by
      unfold lastDigit at hl ⊢
      omega
    have sx := (exponent_spec hx.ne').1
    rw [abs_of_pos hx] at sx
    have hy : (m : ℚ) * 2 ^ e ≤ 2 ^ exponent x := by
      have h1 : (m : ℚ) ≤ 2 ^ (53 : ℤ) := by
        have : m ≤ 2 ^ 53 := (le_abs_self m).trans hm
        have h : (m : ℚ) ≤ ((2 ^ 53 : ℤ) : ℚ) := by exact_mod_cast this
        rw [show ((2 : ℚ) ^ (53 : ℤ)) = ((2 ^ 53 : ℤ) : ℚ) by norm_num]
        exact h
      calc (m : ℚ) * 2 ^ e ≤ 2 ^ (53 : ℤ) * 2 ^ e := mul_le_mul_of_nonneg_right h1 (two_zpow_pos e).le
        _ = 2 ^ (53 + e) := (two_zpow_add _ _).symm
        _ ≤ 2 ^ exponent x := two_zpow_mono (by omega)
    have g := grid (2 ^ 52)
    have e2 : (((2 ^ 52 : ℤ)) : ℚ) * 2 ^ lastDigit x = 2 ^ exponent x := by
      rw [show (((2 ^ 52 : ℤ)) : ℚ) = 2 ^ (52 : ℤ) by norm_num, ← two_zpow_add]
      congr 1
      omega
    rw [e2] at g
    refine g.trans ?_
    rw [abs_sub_comm, abs_sub_comm (_ * _), abs_of_nonneg (by linarith), abs_of_nonneg (by linarith)]
    linarith

theorem double_nearest (x : ℚ) {m e : ℤ} (hm : |m| ≤ 2 ^ 53) (he : -1074 ≤ e) :
    |double.rnd x - x| ≤ |m * 2 ^ e - x| := by
  rcases lt_trichotomy x 0 with h | h | h
  · have := double_pos_nearest (x := -x) (by linarith) (m := -m) (by rwa [abs_neg]) he
    rw [double_neg] at this
    rw [← abs_neg, ← abs_neg (_ - x)]
    refine le_of_eq_of_le ?_ (this.trans_eq ?_) <;> congr 1
    · ring
    · push_cast
      ring
  · subst h
    rw [show double.rnd 0 = 0 from rfl, sub_zero, abs_zero]
    exact abs_nonneg _
  · exact double_pos_nearest h hm he

theorem double_digits (x : ℚ) :
    ∃ m e : ℤ, |m| ≤ 2 ^ 53 ∧ -1074 ≤ e ∧ double.rnd x = m * 2 ^ e := by
  by_cases hx : x = 0
  · subst hx
    exact ⟨0, 0, by norm_num, by norm_num, by simp [double]⟩
  · refine ⟨roundHalfEven (x / 2 ^ lastDigit x), lastDigit x, ?_, le_max_right _ _, double_eq hx⟩
    have h := lt_lastDigit hx
    have p := two_zpow_pos (lastDigit x)
    rw [add_comm, two_zpow_add, abs_lt] at h
    have hc : (((2 : ℤ) ^ 53 : ℤ) : ℚ) = 2 ^ (53 : ℤ) := by norm_num
    rw [abs_le]
    constructor
    · apply le_of_int
      rw [le_div_iff₀ p, Int.cast_neg, hc]
      linarith [h.1]
    · apply of_le_int
      rw [div_le_iff₀ p, hc]
      exact h.2.le

theorem roundHalfEven_half (k : ℤ) : roundHalfEven ((k : ℚ) + 1 / 2) = 2 * ((k + 1) / 2) := by
  have hf : ⌊(k : ℚ) + 1 / 2⌋ = k := by
    rw [Int.floor_eq_iff]
    constructor <;> linarith
  unfold roundHalfEven
  rw [hf]
  simp only [add_sub_cancel_left]
  norm_num
  omega

/-- Halfway between two neighbours the one with the even last digit is taken. -/
theorem double_ties {k l : ℤ} (h1 : 2 ^ 52 ≤ k ∨ (0 ≤ k ∧ l = -1074)) (h2 : k < 2 ^ 53) (hl : -1074 ≤ l) :
    double.rnd ((k + 1 / 2) * 2 ^ l) = (2 * ((k + 1) / 2) : ℤ) * 2 ^ l := by
  have hk0 : 0 ≤ k := by rcases h1 with h | h <;> omega
  have hkq : (0 : ℚ) ≤ k := by exact_mod_cast hk0
  have p := two_zpow_pos l
  have hx : (0 : ℚ) < (k + 1 / 2) * 2 ^ l := mul_pos (by linarith) p
  have hd : lastDigit ((k + 1 / 2) * 2 ^ l) = l := by
    obtain ⟨e1, e2⟩ := exponent_spec hx.ne'
    rw [abs_of_pos hx] at e1 e2
    have h2q : (k : ℚ) + 1 / 2 < 2 ^ (53 : ℤ) := by
      have : k + 1 ≤ 2 ^ 53 := h2
      have : (k : ℚ) + 1 ≤ 2 ^ 53 := by exact_mod_cast this
      norm_num at this ⊢
      linarith
    have u : exponent ((k + 1 / 2) * 2 ^ l) < 53 + l := by
      apply two_zpow_lt
      rw [two_zpow_add]
      exact lt_of_le_of_lt e1 (mul_lt_mul_of_pos_right h2q p)
    unfold lastDigit
    rcases h1 with h | ⟨-, rfl⟩
    · have hq : (2 : ℚ) ^ (52 : ℤ) ≤ k + 1 / 2 := by
        have : (2 : ℚ) ^ 52 ≤ k := by exact_mod_cast h
        norm_num at this ⊢
        linarith
      have : 52 + l < exponent ((k + 1 / 2) * 2 ^ l) + 1 := by
        apply two_zpow_lt
        rw [two_zpow_add]
        exact lt_of_le_of_lt (mul_le_mul_of_nonneg_right hq p.le) e2
      omega
    · omega
  rw [double_eq hx.ne', hd, mul_div_assoc, div_self p.ne', mul_one, roundHalfEven_half]

end Verif
