import Verif.Props.Enums

/-!
# Which texts are orders (C57)
-/

set_option autoImplicit false

namespace Verif
open Enums StrEnum InputText Spec

/-- A whole number as it may be written in an order: blanks, a sign or none, digits, blanks. -/
def Spec.WritesInt (z : ℤ) (w : List Char) : Prop :=
  ∃ (i j : ℕ) (sign digits : List Char), w = List.replicate i ' ' ++ (sign ++ digits) ++ List.replicate j ' ' ∧
    digits ≠ [] ∧ (∀ c ∈ digits, c.isDigit = true) ∧
    ((sign = [] ∨ sign = ['+']) ∧ z = (Nat.ofDigitChars 10 digits 0 : ℕ) ∨
      sign = ['-'] ∧ z = -(Nat.ofDigitChars 10 digits 0 : ℕ))

theorem digitsVal_some {cs : List Char} : ∀ {acc n : ℕ}, digitsVal acc cs = some n →
    (∀ c ∈ cs, c.isDigit = true) ∧ n = Nat.ofDigitChars 10 cs acc := by
  induction cs with
  | nil =>
    intro acc n h
    refine ⟨(fun c hc => by cases hc), ?_⟩
    have := digitsVal_ofDigitChars [] acc (fun c hc => by cases hc)
    exact Option.some.inj (h.symm.trans this)
  | cons c cs ih =>
    intro acc n h
    have hd : ∀ d ∈ c :: cs, d.isDigit = true := by
      rw [digitsVal] at h
      by_cases hc : c.isDigit = true
      · simp only [digitVal, hc, if_true] at h
        intro d hd
        rcases List.mem_cons.mp hd with rfl | hd
        · exact hc
        · exact (ih h).1 d hd
      · simp only [digitVal, hc, if_false, Bool.false_eq_true] at h
        cases h
    exact ⟨hd, Option.some.inj (h.symm.trans (digitsVal_ofDigitChars _ acc hd))⟩

theorem dropWhile_spaces_eq (cs : List Char) : ∃ i : ℕ, cs = List.replicate i ' ' ++ cs.dropWhile (· == ' ') := by
  induction cs with
  | nil => exact ⟨0, rfl⟩
  | cons c cs ih =>
    by_cases h : c = ' '
    · subst h
      obtain ⟨i, hi⟩ := ih
      refine ⟨i + 1, ?_⟩
      rw [List.dropWhile_cons_of_pos (by decide), List.replicate_succ, List.cons_append, ← hi]
    · exact ⟨0, by rw [List.dropWhile_cons_of_neg (by simpa using h)]; rfl⟩

theorem strip_surround (cs : List Char) :
    ∃ i j : ℕ, cs = List.replicate i ' ' ++ strip cs ++ List.replicate j ' ' := by
  obtain ⟨i, hi⟩ := dropWhile_spaces_eq cs
  obtain ⟨j, hj⟩ := dropWhile_spaces_eq (cs.dropWhile (· == ' ')).reverse
  refine ⟨i, j, ?_⟩
  have : cs.dropWhile (· == ' ') = strip cs ++ List.replicate j ' ' := by
    have := congrArg List.reverse hj
    rw [List.reverse_reverse, List.reverse_append, List.reverse_replicate] at this
    exact this
  rw [List.append_assoc, ← this]
  exact hi

theorem strip_core {i j : ℕ} {core : List Char} (h1 : ∀ c ∈ core.head?, c ≠ ' ')
    (h2 : ∀ c ∈ core.getLast?, c ≠ ' ') (hne : core ≠ []) :
    strip (List.replicate i ' ' ++ core ++ List.replicate j ' ') = core := by
  unfold strip
  rw [List.append_assoc, dropWhile_spaces, List.reverse_append, List.reverse_replicate, dropWhile_spaces,
    List.reverse_reverse]
  · intro c hc
    rw [List.head?_reverse] at hc
    exact h2 c hc
  · intro c hc
    cases core with
    | nil => exact absurd rfl hne
    | cons a core => exact h1 c hc

theorem not_space {c : Char} (h : c.isDigit = true) : c ≠ ' ' := by
  rintro rfl
  exact absurd h (by decide)

/-- `int` accepts exactly such texts. -/
theorem pyInt_iff {w : List Char} {z : ℤ} : pyInt w = .ok z ↔ WritesInt z w := by
  constructor
  · intro h
    obtain ⟨i, j, hw⟩ := strip_surround w
    unfold pyInt at h
    split at h
    · cases h
    · rename_i c cs hs
      split at h
      · rename_i n hn
        obtain ⟨d1, d2⟩ := digitsVal_some hn
        refine ⟨i, j, ['-'], c :: cs, by rw [hs] at hw; exact hw, by simp, d1, .inr ⟨rfl, ?_⟩⟩
        rw [← d2]
        exact (Except.ok.inj h).symm
      · cases h
    · rename_i c cs hs
      split at h
      · rename_i n hn
        obtain ⟨d1, d2⟩ := digitsVal_some hn
        refine ⟨i, j, ['+'], c :: cs, by rw [hs] at hw; exact hw, by simp, d1, .inl ⟨.inr rfl, ?_⟩⟩
        rw [← d2]
        exact (Except.ok.inj h).symm
      · cases h
    · rename_i c cs _ _ hs
      split at h
      · rename_i n hn
        obtain ⟨d1, d2⟩ := digitsVal_some hn
        refine ⟨i, j, [], c :: cs, by rw [hs] at hw; exact hw, by simp, d1, .inl ⟨.inl rfl, ?_⟩⟩
        rw [← d2]
        exact (Except.ok.inj h).symm
      · cases h
  · rintro ⟨i, j, sign, digits, rfl, hne, hd, hz⟩
    have hv := digitsVal_ofDigitChars digits 0 hd
    have hlast : ∀ c ∈ (sign ++ digits).getLast?, c ≠ ' ' := by
      intro c hc
      rw [List.getLast?_append_of_ne_nil _ hne] at hc
      exact not_space (hd c (List.mem_of_mem_getLast? hc))
    have hsign : ∀ c ∈ (sign ++ digits).head?, c ≠ ' ' := by
      intro c hc
      rcases hz with ⟨rfl | rfl, -⟩ | ⟨rfl, -⟩
      · exact not_space (hd c (List.mem_of_mem_head? hc))
      · cases Option.mem_some.mp hc; decide
      · cases Option.mem_some.mp hc; decide
    have hstrip := strip_core (i := i) (j := j) hsign hlast (by simp [hne])
    obtain ⟨c, cs, rfl⟩ := List.exists_cons_of_ne_nil hne
    unfold pyInt
    rw [hstrip]
    rcases hz with ⟨rfl | rfl, rfl⟩ | ⟨rfl, rfl⟩
    · have hc := hd c List.mem_cons_self
      have h1 : c ≠ '-' := by rintro rfl; exact absurd hc (by decide)
      have h2 : c ≠ '+' := by rintro rfl; exact absurd hc (by decide)
      rw [List.nil_append]
      split
      · simp_all
      · rename_i e; injection e with e; exact absurd e h1
      · rename_i e; injection e with e; exact absurd e h2
      · rename_i e
        rw [← e, hv]
    · show (match digitsVal 0 (c :: cs) with | some n => Except.ok (n : ℤ) | none => _) = _
      rw [hv]
    · show (match digitsVal 0 (c :: cs) with | some n => Except.ok (-(n : ℤ)) | none => _) = _
      rw [hv]

theorem readInts_iff {ws : List (List Char)} : ∀ {zs : List ℤ}, readInts ws = .ok zs ↔
    List.Forall₂ WritesInt zs ws := by
  induction ws with
  | nil =>
    intro zs
    constructor
    · intro h; cases Except.ok.inj h; exact .nil
    · intro h; cases h; rfl
  | cons w ws ih =>
    intro zs
    rw [readInts]
    constructor
    · intro h
      cases hp : pyInt w with
      | error e => rw [hp] at h; cases h
      | ok n =>
        rw [hp] at h
        dsimp only at h
        cases hr : readInts ws with
        | error e => rw [hr] at h; cases h
        | ok ms =>
          rw [hr] at h
          cases Except.ok.inj h
          exact .cons (pyInt_iff.mp hp) (ih.mp hr)
    · intro h
      cases h with
      | cons h1 h2 =>
        rw [pyInt_iff.mpr h1, ih.mpr h2]

theorem join_split (cs : List Char) : splitComma cs ≠ [] ∧ joinComma (splitComma cs) = cs ∧
    ∀ w ∈ splitComma cs, ',' ∉ w := by
  induction cs with
  | nil => exact ⟨by simp [splitComma], rfl, by simp [splitComma]⟩
  | cons c cs ih =>
    obtain ⟨h1, h2, h3⟩ := ih
    obtain ⟨w, ws, hs⟩ := List.exists_cons_of_ne_nil h1
    rw [splitComma]
    split_ifs with hc
    · refine ⟨by simp, ?_, ?_⟩
      · rw [hs] at h2 ⊢
        subst hc
        show [] ++ ',' :: joinComma (w :: ws) = _
        rw [h2]
        rfl
      · intro v hv
        rcases List.mem_cons.mp hv with rfl | hv
        · simp
        · exact h3 v hv
    · rw [hs] at h2 h3 ⊢
      refine ⟨by simp, ?_, ?_⟩
      · cases ws with
        | nil => show c :: w = c :: cs; exact congrArg _ h2
        | cons v ws => show (c :: w) ++ ',' :: joinComma (v :: ws) = _; exact congrArg (c :: ·) h2
      · intro v hv
        rcases List.mem_cons.mp hv with rfl | hv
        · intro hm
          rcases List.mem_cons.mp hm with e | hm
          · exact hc e.symm
          · exact h3 w List.mem_cons_self hm
        · exact h3 v (List.mem_cons_of_mem _ hv)

/-- C57, exactly: an order is read from a text if and only if the text is one or more whole numbers, each with a
sign or none and blanks around it, separated by commas; and the order read is these numbers. -/
theorem C57_order_exact {cs : List Char} {zs : List ℤ} : readOrder cs = .ok zs ↔
    ∃ ws, ws ≠ [] ∧ cs = joinComma ws ∧ List.Forall₂ WritesInt zs ws := by
  unfold readOrder
  constructor
  · intro h
    obtain ⟨h1, h2, -⟩ := join_split cs
    exact ⟨splitComma cs, h1, h2.symm, readInts_iff.mp h⟩
  · rintro ⟨ws, hne, rfl, h⟩
    have hc : ∀ w ∈ ws, ',' ∉ w := by
      clear hne
      induction h with
      | nil => simp
      | cons h _ ih =>
        intro w hw
        rcases List.mem_cons.1 hw with rfl | hw
        · obtain ⟨i, j, sign, digits, rfl, -, hd, hz⟩ := h
          intro hm
          simp only [List.mem_append, List.mem_replicate] at hm
          rcases hm with (⟨-, e⟩ | hm | hm) | ⟨-, e⟩
          · exact absurd e (by decide)
          · rcases hz with ⟨rfl | rfl, -⟩ | ⟨rfl, -⟩
            · cases hm
            · simp at hm
            · simp at hm
          · exact absurd (hd _ hm) (by decide)
          · exact absurd e (by decide)
        · exact ih w hw
    rw [splitComma_join hne hc]
    exact readInts_iff.mpr h

/-- Signs and leading zeros. -/
example : readOrder "-1, +02".toList = .ok [-1, 2] :=
  C57_order_exact.mpr ⟨["-1".toList, " +02".toList], by decide, rfl,
    .cons ⟨0, 0, ['-'], ['1'], rfl, by decide, by decide, .inr ⟨rfl, rfl⟩⟩
      (.cons ⟨1, 0, ['+'], ['0', '2'], rfl, by decide, by decide, .inl ⟨.inr rfl, rfl⟩⟩ .nil)⟩

end Verif
