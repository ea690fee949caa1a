import Verif.Model.Para
import Verif.Props.Enums
import Verif.Lemmas.ListM
import Mathlib.Data.List.Nodup
import Mathlib.Data.List.Chain
import Mathlib.Algebra.Order.Floor.Ring

/-!
# Properties of the parametric study (C40-C43)
-/

set_option autoImplicit false

namespace Verif
open InputText Para Spec FixedOrder

/-! ## `range` -/

theorem pyRange_up {a b s : ℤ} (hs : 0 < s) : ∃ xs, pyRange a b s = .ok xs ∧
    xs = (List.range ((b - a + s - 1) / s).toNat).map (fun k : ℕ => a + k * s) := by
  unfold pyRange
  rw [if_neg (by omega), if_pos hs]
  exact ⟨_, rfl, rfl⟩

theorem mem_pyRange_up {a b s : ℤ} (hs : 0 < s) {xs : List ℤ} (h : pyRange a b s = .ok xs) {x : ℤ} :
    x ∈ xs ↔ ∃ k : ℕ, x = a + k * s ∧ x < b := by
  obtain ⟨ys, h1, rfl⟩ := pyRange_up (a := a) (b := b) hs
  rw [h] at h1; cases h1
  simp only [List.mem_map, List.mem_range]
  have key : ∀ k : ℕ, k < ((b - a + s - 1) / s).toNat ↔ a + k * s < b := by
    intro k
    rw [Int.lt_toNat, Int.lt_iff_add_one_le, Int.le_ediv_iff_mul_le hs]
    constructor <;> intro h <;> nlinarith
  constructor
  · rintro ⟨k, hk, rfl⟩; exact ⟨k, rfl, (key k).1 hk⟩
  · rintro ⟨k, rfl, hk⟩; exact ⟨k, (key k).2 hk, rfl⟩

theorem pyRange_nodup {a b s : ℤ} {xs : List ℤ} (h : pyRange a b s = .ok xs) : xs.Nodup := by
  unfold pyRange at h
  have inj : s ≠ 0 → Function.Injective (fun k : ℕ => a + k * s) := by
    intro hs k l hkl
    have : ((k : ℤ) - l) * s = 0 := by linarith
    rcases mul_eq_zero.1 this with h | h
    · omega
    · exact absurd h hs
  split_ifs at h with h0 h1
  · cases h; exact List.Nodup.map (inj h0) List.nodup_range
  · cases h; exact List.Nodup.map (inj h0) List.nodup_range

theorem hpSizes_nodup {pa : Ranges} {xs : List ℤ} (h : hpSizes pa = .ok xs) : xs.Nodup := by
  unfold hpSizes at h
  split_ifs at h
  · cases h; simp
  · exact pyRange_nodup h

theorem tsSizes_nodup {pa : Ranges} {xs : List ℤ} (h : tsSizes pa = .ok xs) : xs.Nodup := by
  unfold tsSizes at h
  split_ifs at h
  · cases h; simp
  · exact pyRange_nodup h

theorem combos_ok {pa : Ranges} {cs : List (ℤ × ℤ)} : combos pa = .ok cs ↔
    ∃ hps tss, hpSizes pa = .ok hps ∧ tsSizes pa = .ok tss ∧ cs = pairs hps tss := by
  unfold combos
  constructor
  · intro h
    split at h
    · cases h
    · rename_i hps h1
      split at h
      · cases h
      · rename_i tss h2
        cases h
        exact ⟨hps, tss, h1, h2, rfl⟩
  · rintro ⟨hps, tss, h1, h2, rfl⟩
    rw [h1, h2]

theorem mem_pairs {hps tss : List ℤ} {c : ℤ × ℤ} : c ∈ pairs hps tss ↔ c.1 ∈ hps ∧ c.2 ∈ tss := by
  obtain ⟨h, t⟩ := c
  unfold pairs
  simp only [List.mem_flatMap, List.mem_map, Prod.mk.injEq]
  constructor
  · rintro ⟨a, ha, b, hb, rfl, rfl⟩; exact ⟨ha, hb⟩
  · rintro ⟨h1, h2⟩; exact ⟨h, h1, t, h2, rfl, rfl⟩

theorem pairs_nodup {hps tss : List ℤ} (h1 : hps.Nodup) (h2 : tss.Nodup) : (pairs hps tss).Nodup := by
  unfold pairs
  rw [List.nodup_flatMap]
  refine ⟨fun h _ => h2.map (fun a b hab => by simpa using hab), ?_⟩
  refine h1.imp ?_
  intro a b hab
  simp only [Function.onFun, List.disjoint_left, List.mem_map, not_exists, not_and]
  rintro x ⟨t, -, rfl⟩ t' - heq
  exact hab (by simpa using (Prod.mk.inj heq).1.symm)

/-! ## Names -/

theorem toDigits_inj {m n : ℕ} (h : Nat.toDigits 10 m = Nat.toDigits 10 n) : m = n := by
  have := congrArg (fun cs => Nat.ofDigitChars 10 cs 0) h
  simpa [Nat.ofDigitChars_ten_toDigits] using this

theorem toDigits_digit {n : ℕ} {c : Char} (h : c ∈ Nat.toDigits 10 n) : c.isDigit = true :=
  Nat.isDigit_of_mem_toDigits (by decide) (by decide) h

theorem showInt_inj {a b : ℤ} (h : showInt a = showInt b) : a = b := by
  cases a with
  | ofNat m => cases b with
    | ofNat n => rw [toDigits_inj h]
    | negSucc n =>
      have : '-' ∈ Nat.toDigits 10 m := by
        change Nat.toDigits 10 m = '-' :: _ at h
        rw [h]; exact List.mem_cons_self
      exact absurd (toDigits_digit this) (by decide)
  | negSucc m => cases b with
    | ofNat n =>
      have : '-' ∈ Nat.toDigits 10 n := by
        change '-' :: _ = Nat.toDigits 10 n at h
        rw [← h]; exact List.mem_cons_self
      exact absurd (toDigits_digit this) (by decide)
    | negSucc n =>
      have h' := List.cons.inj h
      have := toDigits_inj h'.2
      congr 1; omega

theorem showInt_no_underscore (a : ℤ) : '_' ∉ showInt a := by
  cases a with
  | ofNat n => intro h; exact absurd (toDigits_digit h) (by decide)
  | negSucc n =>
    intro h
    rcases List.mem_cons.1 h with h | h
    · exact absurd h (by decide)
    · exact absurd (toDigits_digit h) (by decide)

theorem append_sep_inj {x : Char} {a a' r r' : List Char} (h1 : x ∉ a) (h2 : x ∉ a')
    (h : a ++ x :: r = a' ++ x :: r') : a = a' ∧ r = r' := by
  induction a generalizing a' with
  | nil => cases a' with
    | nil => simpa using h
    | cons c cs =>
      simp only [List.nil_append, List.cons_append, List.cons.injEq] at h
      exact absurd (h.1 ▸ List.mem_cons_self) h2
  | cons c cs ih => cases a' with
    | nil =>
      simp only [List.nil_append, List.cons_append, List.cons.injEq] at h
      exact absurd (h.1 ▸ List.mem_cons_self) h1
    | cons c' cs' =>
      simp only [List.cons_append, List.cons.injEq] at h
      obtain ⟨e1, e2⟩ := ih (fun h' => h1 (List.mem_cons_of_mem _ h'))
        (fun h' => h2 (List.mem_cons_of_mem _ h')) h.2
      exact ⟨by rw [h.1, e1], e2⟩

theorem folderName_eq (c : ℤ × ℤ) : folderName c =
    ['h', 'p', '_'] ++ (showInt c.1 ++ '_' :: (['t', 's', '_'] ++ showInt c.2)) := by
  unfold folderName
  rw [show "hp_".toList = ['h', 'p', '_'] by decide +kernel,
    show "_ts_".toList = ['_', 't', 's', '_'] by decide +kernel]
  simp

theorem folderName_inj : Function.Injective folderName := by
  rintro ⟨a, b⟩ ⟨a', b'⟩ h
  rw [folderName_eq, folderName_eq] at h
  have h := List.append_cancel_left h
  obtain ⟨h1, h2⟩ := append_sep_inj (showInt_no_underscore _) (showInt_no_underscore _) h
  have h2 := List.append_cancel_left h2
  exact Prod.ext (showInt_inj h1) (showInt_inj h2)

/-! ## C40 -/

/-- C40: the study runs each pair of a heat pump size and a store size exactly once, in a folder of its
own. -/
theorem C40_each_pair_once {pa : Ranges} {names : List (List Char)} (h : folderNames pa = .ok names) :
    ∃ hps tss cs, hpSizes pa = .ok hps ∧ tsSizes pa = .ok tss ∧ combos pa = .ok cs ∧
      cs.Nodup ∧ (∀ p, p ∈ cs ↔ p.1 ∈ hps ∧ p.2 ∈ tss) ∧ cs.length = hps.length * tss.length ∧
      names.Nodup ∧ names = cs.map folderName := by
  unfold folderNames at h
  split at h
  · cases h
  · rename_i cs hcs
    cases h
    obtain ⟨hps, tss, h1, h2, rfl⟩ := combos_ok.1 hcs
    have hnd := pairs_nodup (hpSizes_nodup h1) (tsSizes_nodup h2)
    refine ⟨hps, tss, _, h1, h2, hcs, hnd, fun p => mem_pairs, ?_, hnd.map folderName_inj, rfl⟩
    unfold pairs
    simp [List.length_flatMap]

/-- C40: two pairs never share a folder. -/
theorem C40_folders_distinct {c c' : ℤ × ℤ} (h : folderName c = folderName c') : c = c' :=
  folderName_inj h

/-- C40: after the set-up every combination has an empty folder and no other folder is touched. -/
theorem C40_folders_made {F : Type} (empty : F) (names : List (List Char)) (d : Dir F) :
    (∀ n ∈ names, makeFolders empty names d n = some empty) ∧
    (∀ n, n ∉ names → makeFolders empty names d n = d n) := by
  induction names generalizing d with
  | nil => exact ⟨by simp, fun _ _ => rfl⟩
  | cons m ms ih =>
    constructor
    · intro n hn
      by_cases hm : n ∈ ms
      · exact (ih _).1 n hm
      · have : n = m := by simpa [hm] using hn
        subst this
        rw [makeFolders, (ih _).2 n hm]
        simp [Dir.put]
    · intro n hn
      rw [List.mem_cons, not_or] at hn
      rw [makeFolders, (ih _).2 n hn.2]
      simp [Dir.put, hn.1]

/-- A study of four pairs. -/
def Spec.sampleRanges : Ranges :=
  { hpMin := 100, hpMax := 200, hpStep := 100, tsMin := 0, tsMax := 500, tsStep := 500 }

example : folderNames sampleRanges = .ok
    ["hp_100_ts_0".toList, "hp_100_ts_500".toList, "hp_200_ts_0".toList, "hp_200_ts_500".toList] := by
  decide +kernel

/-! ## C41 -/

/-- C41: sizes from `lo` to `hi` in steps of `step`. -/
def Spec.Ladder (lo hi step : ℤ) (xs : List ℤ) : Prop :=
  xs.head? = some lo ∧ xs.getLast? = some hi ∧ xs.IsChain (fun a b => b = a + step) ∧
    ∀ x ∈ xs, lo ≤ x ∧ x ≤ hi

theorem isChain_map_range (n : ℕ) (a s : ℤ) :
    ((List.range n).map (fun k : ℕ => a + k * s)).IsChain (fun a b => b = a + s) := by
  rw [List.isChain_iff_getElem]
  intro i hi
  simp only [List.length_map, List.length_range] at hi
  simp only [List.getElem_map, List.getElem_range]
  push_cast; ring

theorem ladder_of_range {lo hi step extra : ℤ} (hs : 0 < step) (hlo : lo < hi) (hdvd : step ∣ hi - lo)
    (h0 : 0 < extra) (h1 : extra ≤ step) :
    ∃ xs, pyRange lo (hi + extra) step = .ok xs ∧ Ladder lo hi step xs := by
  obtain ⟨xs, hx, he⟩ := pyRange_up (a := lo) (b := hi + extra) hs
  obtain ⟨n, hn⟩ := hdvd
  have hnpos : 0 < n := by
    by_contra hc
    push Not at hc
    nlinarith
  have hcount : ((hi + extra - lo + step - 1) / step).toNat = n.toNat + 1 := by
    have : hi + extra - lo + step - 1 = (extra - 1) + step * (n + 1) := by rw [mul_add]; omega
    rw [this, Int.add_mul_ediv_left _ _ (by omega), Int.ediv_eq_zero_of_lt (by omega) (by omega)]
    omega
  rw [hcount] at he
  subst he
  refine ⟨_, hx, ?_, ?_, isChain_map_range _ _ _, ?_⟩
  · rw [List.range_succ_eq_map]; simp
  · rw [List.range_succ, List.map_append, List.map_singleton, List.getLast?_append_of_ne_nil _ (by simp)]
    simp only [List.getLast?_singleton, Option.some.injEq]
    rw [Int.toNat_of_nonneg hnpos.le]; linarith
  · intro x hx
    simp only [List.mem_map, List.mem_range] at hx
    obtain ⟨k, hk, rfl⟩ := hx
    have hk' : (k : ℤ) ≤ n := by omega
    constructor
    · nlinarith
    · nlinarith

/-- C41 for heat pump sizes when the step divides the interval. Missing: other steps, where the largest
size is above the maximum, see `C41_hp_overshoots`. -/
theorem C41_hp_partial {pa : Ranges} (h : pa.hpMin ≤ pa.hpMax) (hs : 0 < pa.hpStep)
    (hd : pa.hpStep ∣ pa.hpMax - pa.hpMin) :
    ∃ xs, hpSizes pa = .ok xs ∧ Ladder pa.hpMin pa.hpMax pa.hpStep xs := by
  unfold hpSizes
  by_cases he : pa.hpMin = pa.hpMax
  · rw [if_pos he]
    exact ⟨_, rfl, by simp, by simp [he], by simp, by simp [he]⟩
  · rw [if_neg he]
    exact ladder_of_range hs (by omega) hd hs (le_refl _)

/-- C41 for store sizes when the step divides the interval and the heat pump step is positive and not
above the store step. Missing: other heat pump steps, see `C41_ts_overshoots` and
`C41_ts_maximum_dropped`. -/
theorem C41_ts_partial {pa : Ranges} (h : pa.tsMin ≤ pa.tsMax) (hs : 0 < pa.tsStep)
    (hd : pa.tsStep ∣ pa.tsMax - pa.tsMin) (h0 : 0 < pa.hpStep) (h1 : pa.hpStep ≤ pa.tsStep) :
    ∃ xs, tsSizes pa = .ok xs ∧ Ladder pa.tsMin pa.tsMax pa.tsStep xs := by
  unfold tsSizes
  by_cases he : pa.tsMin = pa.tsMax
  · rw [if_pos he]
    exact ⟨_, rfl, by simp, by simp [he], by simp, by simp [he]⟩
  · rw [if_neg he]
    exact ladder_of_range hs (by omega) hd h0 h1

example : ∃ xs, hpSizes sampleRanges = .ok xs ∧ Ladder 100 200 100 xs :=
  C41_hp_partial (by decide) (by decide) (by decide)

example : ∃ xs, tsSizes sampleRanges = .ok xs ∧ Ladder 0 500 500 xs :=
  C41_ts_partial (by decide) (by decide) (by decide) (by decide) (by decide)

/-- C41: equal minimum and maximum mean this one size, whatever the step. -/
theorem C41_single_size {pa : Ranges} : (pa.hpMin = pa.hpMax → hpSizes pa = .ok [pa.hpMin]) ∧
    (pa.tsMin = pa.tsMax → tsSizes pa = .ok [pa.tsMin]) := by
  unfold hpSizes tsSizes
  exact ⟨fun h => if_pos h, fun h => if_pos h⟩

/-- C41: the sizes never start anywhere but at the minimum. -/
theorem C41_sizes_on_grid {pa : Ranges} {xs : List ℤ} (hs : 0 < pa.hpStep) (h : hpSizes pa = .ok xs) :
    ∀ x ∈ xs, ∃ k : ℕ, x = pa.hpMin + k * pa.hpStep := by
  intro x hx
  unfold hpSizes at h
  split_ifs at h
  · cases h
    exact ⟨0, by simpa using hx⟩
  · obtain ⟨k, hk, -⟩ := (mem_pyRange_up hs h).1 hx
    exact ⟨k, hk⟩

example : ∀ x ∈ [100, 140, 180, 220], ∃ k : ℕ, x = (100 : ℤ) + k * 40 :=
  C41_sizes_on_grid (pa := { sampleRanges with hpStep := 40 }) (by decide) (by decide +kernel)

/-- C41 fails whenever the heat pump step does not divide the interval: a size above the maximum is
run. -/
theorem C41_hp_overshoots {pa : Ranges} (h : pa.hpMin < pa.hpMax) (hs : 0 < pa.hpStep)
    (hd : ¬ pa.hpStep ∣ pa.hpMax - pa.hpMin) :
    ∃ xs, hpSizes pa = .ok xs ∧ ∃ x ∈ xs, pa.hpMax < x := by
  unfold hpSizes
  rw [if_neg (by omega)]
  obtain ⟨xs, hx, -⟩ := pyRange_up (a := pa.hpMin) (b := pa.hpMax + pa.hpStep) hs
  refine ⟨xs, hx, ?_⟩
  have hq := Int.emod_add_mul_ediv (pa.hpMax - pa.hpMin) pa.hpStep
  have hr1 := Int.emod_nonneg (pa.hpMax - pa.hpMin) hs.ne'
  have hr2 := Int.emod_lt_of_pos (pa.hpMax - pa.hpMin) hs
  have hr3 : (pa.hpMax - pa.hpMin) % pa.hpStep ≠ 0 := fun h0 => hd (Int.dvd_of_emod_eq_zero h0)
  have hq0 : 0 ≤ (pa.hpMax - pa.hpMin) / pa.hpStep := Int.ediv_nonneg (by omega) hs.le
  refine ⟨pa.hpMin + (((pa.hpMax - pa.hpMin) / pa.hpStep + 1).toNat : ℕ) * pa.hpStep,
    (mem_pyRange_up hs hx).2 ⟨_, rfl, ?_⟩, ?_⟩
  · rw [Int.toNat_of_nonneg (by omega)]
    have : 0 < (pa.hpMax - pa.hpMin) % pa.hpStep := lt_of_le_of_ne hr1 (Ne.symm hr3)
    nlinarith
  · rw [Int.toNat_of_nonneg (by omega)]
    have : 0 < (pa.hpMax - pa.hpMin) % pa.hpStep := lt_of_le_of_ne hr1 (Ne.symm hr3)
    nlinarith

example : ∃ xs, hpSizes { sampleRanges with hpStep := 40 } = .ok xs ∧ ∃ x ∈ xs, 200 < x :=
  C41_hp_overshoots (by decide) (by decide) (by decide)

/-- C41 fails for the store whenever the heat pump step is above the store step. -/
theorem C41_ts_overshoots {pa : Ranges} (h : pa.tsMin < pa.tsMax) (hs : 0 < pa.tsStep)
    (hd : pa.tsStep < pa.hpStep) :
    ∃ xs, tsSizes pa = .ok xs ∧ ∃ x ∈ xs, pa.tsMax < x := by
  unfold tsSizes
  rw [if_neg (by omega)]
  obtain ⟨xs, hx, -⟩ := pyRange_up (a := pa.tsMin) (b := pa.tsMax + pa.hpStep) hs
  refine ⟨xs, hx, ?_⟩
  have hq := Int.emod_add_mul_ediv (pa.tsMax - pa.tsMin) pa.tsStep
  have hr1 := Int.emod_nonneg (pa.tsMax - pa.tsMin) hs.ne'
  have hr2 := Int.emod_lt_of_pos (pa.tsMax - pa.tsMin) hs
  have hq0 : 0 ≤ (pa.tsMax - pa.tsMin) / pa.tsStep := Int.ediv_nonneg (by omega) hs.le
  refine ⟨pa.tsMin + (((pa.tsMax - pa.tsMin) / pa.tsStep + 1).toNat : ℕ) * pa.tsStep,
    (mem_pyRange_up hs hx).2 ⟨_, rfl, ?_⟩, ?_⟩
  · rw [Int.toNat_of_nonneg (by omega)]; nlinarith
  · rw [Int.toNat_of_nonneg (by omega)]; nlinarith

example : ∃ xs, tsSizes { sampleRanges with tsStep := 50 } = .ok xs ∧ ∃ x ∈ xs, 500 < x :=
  C41_ts_overshoots (by decide) (by decide) (by decide)

/-- C41 fails for the store when the heat pump step is zero, as for a fixed heat pump size: the largest
store is never run. -/
theorem C41_ts_maximum_dropped {pa : Ranges} (h : pa.tsMin < pa.tsMax) (hs : 0 < pa.tsStep)
    (h0 : pa.hpStep ≤ 0) : ∃ xs, tsSizes pa = .ok xs ∧ pa.tsMax ∉ xs := by
  unfold tsSizes
  rw [if_neg (by omega)]
  obtain ⟨xs, hx, -⟩ := pyRange_up (a := pa.tsMin) (b := pa.tsMax + pa.hpStep) hs
  refine ⟨xs, hx, ?_⟩
  rw [mem_pyRange_up hs hx]
  rintro ⟨k, -, hlt⟩
  omega

example : ∃ xs, tsSizes { sampleRanges with hpMax := 100, hpStep := 0 } = .ok xs ∧ (500 : ℤ) ∉ xs :=
  C41_ts_maximum_dropped (by decide) (by decide) (by decide)

/-- C41: a zero step with different minimum and maximum is refused. -/
theorem C41_zero_step {pa : Ranges} (h : pa.hpMin ≠ pa.hpMax) (h0 : pa.hpStep = 0) :
    hpSizes pa = .error .valueError ∧ combos pa = .error .valueError := by
  have : hpSizes pa = .error .valueError := by
    unfold hpSizes pyRange
    rw [if_neg h, if_pos h0]
  exact ⟨this, by unfold combos; rw [this]⟩

example : combos { sampleRanges with hpStep := 0 } = .error .valueError :=
  (C41_zero_step (by decide) rfl).2

/-! ## C42 -/

/-- C42: the inputs of one combination, given the base inputs and the factor applied to duties. -/
structure Spec.Resized {ρ : Type} (base : Inputs ρ) (hp ts : ℤ) (factor : ℚ) (i : Inputs ρ) : Prop where
  capacity : i.hpCapacity = hp
  store : i.tsCapacity = ts
  duty1 : i.duty1 = base.duty1.map (· * factor)
  duty2 : i.duty2 = base.duty2.map (· * factor)
  duty3 : i.duty3 = base.duty3.map (· * factor)
  duty4 : i.duty4 = base.duty4.map (· * factor)
  rest : i.rest = base.rest

theorem pickleName_inj : Function.Injective pickleName := fun _ _ h =>
  folderName_inj (List.append_cancel_right h)

theorem pickleName_ne_base (c : ℤ × ℤ) : pickleName c ≠ baseFile := by
  unfold pickleName baseFile
  rw [folderName_eq]
  intro h
  have := congrArg List.head? h
  rw [show "inputs.pkl".toList.head? = some 'i' by decide +kernel] at this
  simp at this

theorem createPickles_spec {ρ : Type} {cs : List (ℤ × ℤ)} {d : Dir (Inputs ρ)} {base : Inputs ρ}
    (hb : d baseFile = some base) : ∃ d', createPickles cs d = .ok d' ∧
      (∀ c ∈ cs, d' (pickleName c) = some (resize c base)) ∧
      (∀ n, (∀ c ∈ cs, n ≠ pickleName c) → d' n = d n) := by
  induction cs generalizing d with
  | nil => exact ⟨d, rfl, by simp, fun _ _ => rfl⟩
  | cons c cs ih =>
    have hb' : (d.put (pickleName c) (resize c base)) baseFile = some base := by
      unfold Dir.put
      rw [if_neg (pickleName_ne_base c).symm]; exact hb
    obtain ⟨d', h1, h2, h3⟩ := ih hb'
    refine ⟨d', by rw [createPickles, hb]; exact h1, ?_, ?_⟩
    · intro x hx
      by_cases hm : x ∈ cs
      · exact h2 x hm
      · have : x = c := by simpa [hm] using hx
        subst this
        rw [h3 _ (fun y hy h => hm (by rw [pickleName_inj h]; exact hy))]
        simp [Dir.put]
    · intro n hn
      rw [h3 n (fun y hy => hn y (List.mem_cons_of_mem _ hy))]
      simp [Dir.put, hn c List.mem_cons_self]

/-- C42: the pickle of each combination is the base with that combination's sizes and duties times one
factor; the base itself and all other files stay as they were. -/
theorem C42_pickles {ρ : Type} {cs : List (ℤ × ℤ)} {d : Dir (Inputs ρ)} {base : Inputs ρ}
    (hb : d baseFile = some base) : ∃ d', createPickles cs d = .ok d' ∧
      (∀ c ∈ cs, ∃ i, d' (pickleName c) = some i ∧
        Resized base c.1 c.2 (ratio c.1 base.hpCapacity) i) ∧
      d' baseFile = some base ∧
      (∀ n, (∀ c ∈ cs, n ≠ pickleName c) → d' n = d n) := by
  obtain ⟨d', h1, h2, h3⟩ := createPickles_spec (cs := cs) hb
  refine ⟨d', h1, fun c hc => ⟨_, h2 c hc, ⟨rfl, rfl, rfl, rfl, rfl, rfl, rfl⟩⟩, ?_, h3⟩
  rw [h3 _ (fun c _ => (pickleName_ne_base c).symm), hb]

/-- C42: the inputs of a combination do not depend on which other combinations are run, or on their
order. -/
theorem C42_independent {ρ : Type} {cs cs' : List (ℤ × ℤ)} {d d1 d2 : Dir (Inputs ρ)}
    {base : Inputs ρ} (hb : d baseFile = some base) (h1 : createPickles cs d = .ok d1)
    (h2 : createPickles cs' d = .ok d2) {c : ℤ × ℤ} (hc : c ∈ cs) (hc' : c ∈ cs') :
    d1 (pickleName c) = d2 (pickleName c) := by
  obtain ⟨e1, g1, k1, -⟩ := createPickles_spec (cs := cs) hb
  obtain ⟨e2, g2, k2, -⟩ := createPickles_spec (cs := cs') hb
  rw [h1] at g1; cases g1
  rw [h2] at g2; cases g2
  rw [k1 c hc, k2 c hc']

/-- C42: without base inputs nothing is written. -/
theorem C42_no_base {ρ : Type} {c : ℤ × ℤ} {cs : List (ℤ × ℤ)} {d : Dir (Inputs ρ)}
    (hb : d baseFile = none) : createPickles (c :: cs) d = .error .fileNotFoundError := by
  rw [createPickles, hb]

example : createPickles [(500, 100)] (fun _ => (none : Option (Inputs Unit))) = .error .fileNotFoundError :=
  C42_no_base rfl

/-- C42: the factor is the capacity ratio when that ratio is a whole number of hundredths. Missing:
other ratios, which are rounded, see `C42_small_pump_no_duty`. -/
theorem C42_factor_partial {hp k : ℤ} {capacity : ℚ} (h0 : capacity ≠ 0)
    (h : (hp : ℚ) / capacity = k / 100) : ratio hp capacity = hp / capacity := by
  unfold ratio
  rw [if_neg h0, h]
  unfold pyRound
  have : roundHalfEven ((k : ℚ) / 100 * 10 ^ 2) = k := by
    rw [show (k : ℚ) / 100 * 10 ^ 2 = k by ring]
    unfold roundHalfEven
    simp
  rw [this]; norm_num

example : ratio 500 1000 = 500 / 1000 := C42_factor_partial (k := 50) (by norm_num) (by norm_num)

/-- C42: the factor is within half a hundredth of the capacity ratio. -/
theorem C42_factor_close {hp : ℤ} {capacity : ℚ} (h0 : capacity ≠ 0) :
    |ratio hp capacity - hp / capacity| ≤ 1 / 200 := by
  unfold ratio
  rw [if_neg h0]
  have := pyRound_bounds ((hp : ℚ) / capacity) 2
  rw [abs_le]
  constructor <;> norm_num at this ⊢ <;> linarith [this.1, this.2]

/-- C42 fails for pumps far smaller than the base: with a base of 1000 kW a 4 kW pump gets no duty at
all. -/
theorem C42_small_pump_no_duty {ρ : Type} (i : Inputs ρ) (h : i.hpCapacity = 1000) (ts : ℤ) :
    (resize (4, ts) i).hpCapacity = 4 ∧ ∀ d ∈ (resize (4, ts) i).duty1, d = 0 := by
  have hr : ratio 4 1000 = 0 := by decide +kernel
  refine ⟨by norm_num [resize], ?_⟩
  intro d hd
  simp only [resize, List.mem_map] at hd
  obtain ⟨x, -, rfl⟩ := hd
  rw [h, hr, mul_zero]

/-- A heat pump of 37 kW, when the base heat pump has 1000. -/
example : |ratio 37 1000 - (37 : ℤ) / 1000| ≤ 1 / 200 ∧ ratio 37 1000 = 4 / 100 :=
  ⟨C42_factor_close (by norm_num), by decide +kernel⟩

/-- C42: from a base without a heat pump every combination has no duty, whatever its size. -/
theorem C42_zero_base_no_duty {ρ : Type} (i : Inputs ρ) (h : i.hpCapacity = 0) (c : ℤ × ℤ) :
    ∀ d ∈ (resize c i).duty1, d = 0 := by
  intro d hd
  simp only [resize, List.mem_map] at hd
  obtain ⟨x, -, rfl⟩ := hd
  rw [h]; simp [ratio]

/-- Base inputs for examples. -/
def Spec.sampleInputs : Inputs Unit :=
  { hpCapacity := 1000, duty1 := [900, 1000], duty2 := [800], duty3 := [700], duty4 := [600],
    tsCapacity := 5000, rest := () }

example : ∃ d', createPickles [(500, 100), (250, 200)]
      (fun n => if n = baseFile then some sampleInputs else none) = .ok d' ∧
    (d' "hp_250_ts_200.pkl".toList).map (fun i => (i.hpCapacity, i.duty1, i.tsCapacity))
      = some (250, [225, 250], 200) :=
  exists_of_checks (by decide +kernel)

/-! ## C43 -/

theorem splitSpace_word {w : List Char} (hw : ' ' ∉ w) : splitSpace w = [w] := by
  induction w with
  | nil => rfl
  | cons c cs ih =>
    have h1 : c ≠ ' ' := fun h => hw (h ▸ List.mem_cons_self)
    unfold splitSpace
    rw [if_neg h1, ih (fun h => hw (List.mem_cons_of_mem _ h))]

theorem splitSpace_append {w : List Char} (hw : ' ' ∉ w) (rest : List Char) :
    splitSpace (w ++ ' ' :: rest) = w :: splitSpace rest := by
  induction w with
  | nil => simp [splitSpace]
  | cons c cs ih =>
    have h1 : c ≠ ' ' := fun h => hw (h ▸ List.mem_cons_self)
    rw [List.cons_append, splitSpace, if_neg h1, ih (fun h => hw (List.mem_cons_of_mem _ h))]

theorem spaced_of_no_underscore {w : List Char} (hw : '_' ∉ w) : spaced w = w := by
  unfold spaced
  conv_rhs => rw [← List.map_id w]
  apply List.map_congr_left
  intro c hc
  have : c ≠ '_' := by rintro rfl; exact hw hc
  rw [if_neg this]; rfl

theorem numbers_name (m n : ℕ) : Para.numbers (folderName (m, n)) = [m, n] := by
  have hsp : ∀ k, ' ' ∉ Nat.toDigits 10 k := fun k h => absurd (toDigits_digit h) (by decide)
  have hus : ∀ k, '_' ∉ Nat.toDigits 10 k := fun k h => absurd (toDigits_digit h) (by decide)
  have e : spaced (folderName ((m : ℤ), (n : ℤ))) =
      ['h', 'p'] ++ ' ' :: (Nat.toDigits 10 m ++ ' ' :: (['t', 's'] ++ ' ' :: Nat.toDigits 10 n)) := by
    rw [folderName_eq]
    have h1 := spaced_of_no_underscore (hus m)
    have h2 := spaced_of_no_underscore (hus n)
    unfold spaced at h1 h2 ⊢
    simp only [List.map_append, List.map_cons]
    change _ ++ ((Nat.toDigits 10 m).map _ ++ _ :: (_ ++ (Nat.toDigits 10 n).map _)) = _
    rw [h1, h2]
    simp
  have hd : ∀ k, isDigits (Nat.toDigits 10 k) = true := by
    intro k
    unfold isDigits
    exact decide_eq_true ⟨Nat.toDigits_ne_nil, fun c hc => toDigits_digit hc⟩
  have hv : ∀ k, digitsVal 0 (Nat.toDigits 10 k) = some k := by
    intro k
    rw [digitsVal_ofDigitChars _ 0 (fun c hc => toDigits_digit hc), Nat.ofDigitChars_ten_toDigits]
  unfold Para.numbers words
  rw [e, splitSpace_append (by decide), splitSpace_append (hsp m), splitSpace_append (by decide),
    splitSpace_word (hsp n)]
  have hne : ∀ k, Nat.toDigits 10 k ≠ [] := fun k => Nat.toDigits_ne_nil
  have w1 : isDigits ['h', 'p'] = false := by decide
  have w2 : isDigits ['t', 's'] = false := by decide
  simp [hne, hd, hv, w1, w2]

/-- C43: the sizes are recovered from the folder name. -/
theorem C43_sizes_from_name {h t : ℤ} (hh : 0 ≤ h) (ht : 0 ≤ t) :
    numberAt (folderName (h, t)) 0 = .ok h.toNat ∧ numberAt (folderName (h, t)) 1 = .ok t.toNat := by
  lift h to ℕ using hh
  lift t to ℕ using ht
  unfold numberAt
  rw [numbers_name]
  exact ⟨rfl, rfl⟩

example : numberAt "hp_100_ts_500".toList 0 = .ok 100 ∧ numberAt "hp_100_ts_500".toList 1 = .ok 500 := by
  decide +kernel

/-- C43: a negative size is not recovered; the store is then read as the heat pump. -/
theorem C43_negative_misread :
    numberAt (folderName (-5, 300)) 0 = .ok 300 ∧
    numberAt (folderName (-5, 300)) 1 = .error .indexError := by decide +kernel

/-- C43: the KPI stage enumerates the same combinations in the same order as the study. -/
theorem C43_same_combinations (pa : Ranges) : kpiCombos pa = combos pa := by
  unfold kpiCombos combos hpSizes tsSizes pairs
  split_ifs <;>
    simp only [pure, Except.pure, bind, Except.bind] <;>
    repeat' (split <;> simp_all)

theorem readResults_ok {R : Type} {outputs : Dir R} {cs : List (ℤ × ℤ)} {f : ℤ × ℤ → R}
    (h : ∀ c ∈ cs, outputs (folderName c) = some (f c)) :
    readResults outputs cs = .ok (cs.map (fun c => (folderName c, f c))) := by
  induction cs with
  | nil => rfl
  | cons c cs ih =>
    rw [readResults, h c List.mem_cons_self, ih (fun x hx => h x (List.mem_cons_of_mem _ hx))]
    rfl

/-- C43: when every combination has its outputs, the KPI stage reads exactly those, one per folder of
the study and in its order. -/
theorem C43_reads_the_runs {R : Type} {pa : Ranges} {cs : List (ℤ × ℤ)} {outputs : Dir R}
    {f : ℤ × ℤ → R} (hcs : combos pa = .ok cs) (h : ∀ c ∈ cs, outputs (folderName c) = some (f c)) :
    kpiResults pa outputs = .ok (cs.map (fun c => (folderName c, f c))) ∧
    folderNames pa = .ok (cs.map folderName) := by
  unfold kpiResults folderNames
  rw [C43_same_combinations, hcs]
  exact ⟨readResults_ok h, rfl⟩

/-- C43: a missing output stops the KPI stage. -/
theorem C43_missing_output {R : Type} {pa : Ranges} {cs : List (ℤ × ℤ)} {outputs : Dir R}
    (hcs : combos pa = .ok cs) {c : ℤ × ℤ} (hc : c ∈ cs) (h : outputs (folderName c) = none) :
    kpiResults pa outputs = .error .fileNotFoundError := by
  unfold kpiResults
  rw [C43_same_combinations, hcs]
  dsimp only
  clear hcs
  induction cs with
  | nil => cases hc
  | cons x xs ih =>
    rw [readResults]
    cases hx : outputs (folderName x) with
    | none => rfl
    | some r =>
      have hm : c ∈ xs := by
        rcases List.mem_cons.1 hc with rfl | hm
        · rw [h] at hx; cases hx
        · exact hm
      simp only [ih hm]

example : kpiResults sampleRanges (fun n => some n.length) =
    .ok [("hp_100_ts_0".toList, 11), ("hp_100_ts_500".toList, 13), ("hp_200_ts_0".toList, 11),
      ("hp_200_ts_500".toList, 13)] := by decide +kernel

end Verif
