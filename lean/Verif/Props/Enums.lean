import Verif.Model.AuxHeater
import Verif.Lemmas.HeatPumpConfig
import Mathlib.Tactic.NormNum

/-!
# Properties of enumerations, the auxiliary heater and the controller order text (C55–C57)
-/

set_option autoImplicit false

namespace Verif
open Enums StrEnum InputText Spec

section
variable {α : Type} [StrEnum α]

theorem fromValue_value (hm : ∀ m : α, m ∈ members (α := α))
    (hv : ∀ x y : α, value x = value y → x = y) (m : α) : fromValue α (value m) = .ok m := by
  unfold fromValue
  cases h : (members (α := α)).find? (fun m' => value m' == value m) with
  | none =>
    rw [List.find?_eq_none] at h
    exact absurd (by simp) (h m (hm m))
  | some m' =>
    have := List.find?_some h
    rw [hv m' m (by simpa using this)]

theorem fromValue_unknown {s : String} (h : ∀ m : α, value m ≠ s) :
    fromValue α s = .error .keyError := by
  unfold fromValue
  rw [List.find?_eq_none.2 (fun m _ => by simpa using h m)]

end

/-- C55: each member is recovered from its text. -/
theorem C55_round_trip : (∀ m, fromValue HPType (value m) = .ok m) ∧
    (∀ m, fromValue ModelName (value m) = .ok m) ∧
    (∀ m, fromValue DataInput (value m) = .ok m) ∧ (∀ m, fromValue Fuel (value m) = .ok m) :=
  ⟨fromValue_value hpType_all hpType_inj, fromValue_value modelName_all modelName_inj,
    fromValue_value dataInput_all dataInput_inj, fromValue_value fuel_all fuel_inj⟩

/-- C55: the texts of the four enumerations. -/
theorem C55_texts (s : String) :
    ((∃ m, fromValue HPType s = .ok m) ↔ s ∈ ["ASHP", "GSHP", "WSHP"]) ∧
    ((∃ m, fromValue ModelName s = .ok m) ↔
      s ∈ ["SIMPLE", "LORENTZ", "GENERIC REGRESSION", "STANDARD TEST REGRESSION"]) ∧
    ((∃ m, fromValue DataInput s = .ok m) ↔
      s ∈ ["INTEGRATED PERFORMANCE", "PEAK PERFORMANCE"]) ∧
    ((∃ m, fromValue Fuel s = .ok m) ↔ s ∈ ["GAS", "WOOD CHIPS", "KEROSENE", "ELECTRIC"]) := by
  have gen {α : Type} [StrEnum α] (hm : ∀ m : α, m ∈ members (α := α))
      (hv : ∀ x y : α, value x = value y → x = y) :
      (∃ m, fromValue α s = .ok m) ↔ s ∈ (members (α := α)).map value := by
    constructor
    · rintro ⟨m, h⟩
      by_contra hn
      rw [fromValue_unknown (fun m' hm' => hn (List.mem_map.2 ⟨m', hm m', hm'⟩))] at h
      cases h
    · intro h
      obtain ⟨m, -, rfl⟩ := List.mem_map.1 h
      exact ⟨m, fromValue_value hm hv m⟩
  exact ⟨gen hpType_all hpType_inj, gen modelName_all modelName_inj,
    gen dataInput_all dataInput_inj, gen fuel_all fuel_inj⟩

/-- C55: any text that is not a member's raises `KeyError`. -/
theorem C55_unknown_raises (s : String) :
    (s ∉ ["ASHP", "GSHP", "WSHP"] → fromValue HPType s = .error .keyError) ∧
    (s ∉ ["SIMPLE", "LORENTZ", "GENERIC REGRESSION", "STANDARD TEST REGRESSION"] →
      fromValue ModelName s = .error .keyError) ∧
    (s ∉ ["INTEGRATED PERFORMANCE", "PEAK PERFORMANCE"] →
      fromValue DataInput s = .error .keyError) ∧
    (s ∉ ["GAS", "WOOD CHIPS", "KEROSENE", "ELECTRIC"] →
      fromValue Fuel s = .error .keyError) := by
  have gen {α : Type} [StrEnum α] (hm : ∀ m : α, m ∈ members (α := α))
      (h : s ∉ (members (α := α)).map value) : fromValue α s = .error .keyError :=
    fromValue_unknown (fun m' hm' => h (List.mem_map.2 ⟨m', hm m', hm'⟩))
  exact ⟨gen hpType_all, gen modelName_all, gen dataInput_all, gen fuel_all⟩

/-- C55: `in` accepts a text exactly when `from_value` does, and accepts every member. -/
theorem C55_in_iff (s : String) :
    (isIn (.text s : Arg HPType) = true ↔ ∃ m, fromValue HPType s = .ok m) ∧
    (isIn (.text s : Arg ModelName) = true ↔ ∃ m, fromValue ModelName s = .ok m) ∧
    (isIn (.text s : Arg DataInput) = true ↔ ∃ m, fromValue DataInput s = .ok m) ∧
    (isIn (.text s : Arg Fuel) = true ↔ ∃ m, fromValue Fuel s = .ok m) := by
  have gen {α : Type} [StrEnum α] [DecidableEq α] (hm : ∀ m : α, m ∈ members (α := α))
      (hv : ∀ x y : α, value x = value y → x = y) :
      isIn (.text s : Arg α) = true ↔ ∃ m, fromValue α s = .ok m := by
    rw [isIn_iff _ hm]
    constructor
    · rintro ⟨m, h | h⟩
      · cases h
      · injection h with h
        exact ⟨m, h ▸ fromValue_value hm hv m⟩
    · rintro ⟨m, h⟩
      by_contra hn
      rw [fromValue_unknown (fun m' hm' => hn ⟨m', Or.inr (by rw [hm'])⟩)] at h
      cases h
  exact ⟨gen hpType_all hpType_inj, gen modelName_all modelName_inj,
    gen dataInput_all dataInput_inj, gen fuel_all fuel_inj⟩

/-- C55: reading from the sheet accepts any letter case and raises `ValueError` otherwise. -/
theorem C55_sheet_text {s : String} (m : HPType) (h : s.toUpper = value m) :
    readEnum HPType s = .ok m := by
  unfold readEnum
  rw [h, if_pos ((isIn_iff _ hpType_all).2 ⟨m, Or.inr rfl⟩), C55_round_trip.1 m]

example : readEnum HPType "Wshp" = .ok .wshp := C55_sheet_text .wshp (by decide +kernel)

theorem C55_sheet_unknown {s : String} (h : ∀ m : HPType, s.toUpper ≠ value m) :
    readEnum HPType s = .error .valueError := by
  unfold readEnum
  rw [if_neg]
  rw [isIn_iff _ hpType_all]
  rintro ⟨m, hm | hm⟩
  · cases hm
  · injection hm with hm; exact h m hm

example : readEnum HPType "ashp" = .ok .ashp ∧ readEnum HPType "air" = .error .valueError := by
  decide +kernel

/-- C56: construction succeeds exactly for electricity, or a known fuel with data in the table. (The
plain text "ELECTRIC" is not the member, so it counts as a fuel that needs data.) -/
theorem C56_accepts_iff (fuel : Arg Fuel) (eff : ℚ) (info : List (String × FuelInfo)) :
    (∃ o, Aux.construct fuel eff info = .ok o) ↔
      fuel = .member .electric ∨ ∃ f, Names fuel f ∧ ∃ e, info.lookup (value f) = some e := by
  unfold Aux.construct
  by_cases hin : isIn fuel = true
  · rw [if_pos hin]
    obtain ⟨f, hf⟩ := (isIn_iff fuel fuel_all).1 hin
    have hlook : Aux.lookup info fuel = info.lookup (value f) := by
      rcases hf with rfl | rfl <;> rfl
    split_ifs with he
    · refine ⟨fun _ => Or.inl ?_, fun _ => ⟨_, rfl⟩⟩
      split at he
      · rfl
      · cases he
    · rw [hlook]
      constructor
      · rintro ⟨o, ho⟩
        right
        cases hl : info.lookup (value f) with
        | none => rw [hl] at ho; cases ho
        | some e => exact ⟨f, hf, e, hl⟩
      · rintro (rfl | ⟨f', hf', e, he'⟩)
        · exact absurd rfl he
        · rw [names_unique fuel_inj hf hf', he']
          exact ⟨_, rfl⟩
  · rw [if_neg hin]
    refine ⟨fun ⟨_, ho⟩ => (by cases ho), ?_⟩
    rintro (rfl | ⟨f, hf, -⟩)
    · exact absurd ((isIn_iff _ fuel_all).2 ⟨_, Or.inl rfl⟩) hin
    · exact absurd ((isIn_iff _ fuel_all).2 ⟨f, hf⟩) hin

/-- C56: anything that is not a known fuel raises `ValueError`. -/
theorem C56_unknown_fuel_raises {fuel : Arg Fuel} (h : ∀ f, ¬ Names fuel f) (eff : ℚ)
    (info : List (String × FuelInfo)) : Aux.construct fuel eff info = .error .valueError := by
  unfold Aux.construct
  rw [if_neg (fun hin => ?_)]
  obtain ⟨f, hf⟩ := (isIn_iff fuel fuel_all).1 hin
  exact h f hf

example : Aux.construct (.text "gas") (9 / 10) [("GAS", ⟨4, 11⟩)] = .error .valueError :=
  C56_unknown_fuel_raises (by intro f; cases f <;> simp [Names, value]) _ _

/-- C56: a known fuel other than electricity without data raises `KeyError`. -/
theorem C56_missing_data_raises {fuel : Arg Fuel} {f : Fuel} (hf : Names fuel f)
    (he : fuel ≠ .member .electric) {info : List (String × FuelInfo)}
    (hl : info.lookup (value f) = none) (eff : ℚ) :
    Aux.construct fuel eff info = .error .keyError := by
  have hlook : Aux.lookup info fuel = info.lookup (value f) := by
    rcases hf with rfl | rfl <;> rfl
  unfold Aux.construct
  rw [if_pos ((isIn_iff _ fuel_all).2 ⟨f, hf⟩), if_neg, hlook, hl]
  split
  · exact absurd rfl he
  · simp

example : Aux.construct (.member .kerosene) (9 / 10) [("GAS", ⟨4, 11⟩)] = .error .keyError :=
  C56_missing_data_raises (f := .kerosene) (Or.inl rfl) (fun h => by cases h) rfl _

/-- C56: electricity needs no table, and has no cost or density of its own. -/
theorem C56_electric_needs_no_data (eff : ℚ) (info : List (String × FuelInfo)) :
    Aux.construct (.member .electric) eff info = .ok ⟨.member .electric, eff, none, none⟩ := by
  rfl

/-- C56: another fuel gets its cost and density from its own row. -/
theorem C56_data_of_fuel {f : Fuel} (he : f ≠ .electric) {info : List (String × FuelInfo)}
    {e : FuelInfo} (hl : info.lookup (value f) = some e) (eff : ℚ) :
    Aux.construct (.member f) eff info =
      .ok ⟨.member f, eff, some e.cost, some e.energyDensity⟩ := by
  unfold Aux.construct
  rw [if_pos ((isIn_iff _ fuel_all).2 ⟨f, Or.inl rfl⟩), if_neg, show Aux.lookup info (.member f) =
    some e from hl]
  cases f <;> first | exact absurd rfl he | simp

example : Aux.construct (.member .gas) (9 / 10) [("WOOD CHIPS", ⟨3, 5⟩), ("GAS", ⟨4, 11⟩)] =
    .ok ⟨.member .gas, 9 / 10, some 4, some 11⟩ :=
  C56_data_of_fuel (f := .gas) (e := ⟨4, 11⟩) (by decide) rfl _

/-- C56: fuel used times efficiency is the demand. -/
theorem C56_fuel_usage {a : AuxObj} (h : a.efficiency ≠ 0) (demand : ℚ) :
    ∃ u, Aux.fuelUsage a demand = .ok u ∧ u * a.efficiency = demand := by
  refine ⟨demand / a.efficiency, by simp [Aux.fuelUsage, h], div_mul_cancel₀ _ h⟩

example : Aux.construct (.text "GAS") (9 / 10) [("WOOD CHIPS", ⟨3, 5⟩), ("GAS", ⟨4, 11⟩)] =
    .ok ⟨.text "GAS", 9 / 10, some 4, some 11⟩ ∧
    (∀ f, ¬ Names (.text "gas" : Arg Fuel) f) ∧
    ([("GAS", ⟨4, 11⟩)] : List (String × FuelInfo)).lookup (value Fuel.kerosene) = none := by
  refine ⟨rfl, ?_, rfl⟩
  intro f
  cases f <;> simp [Names, value]

/-! ## Order text -/

/-- C57: a number as a user may write it: decimal digits, spaces allowed on both sides. -/
def Spec.Writes (n : ℕ) (w : List Char) : Prop :=
  ∃ i j, w = List.replicate i ' ' ++ Nat.toDigits 10 n ++ List.replicate j ' '

/-- C57: words joined with commas. -/
def Spec.joinComma : List (List Char) → List Char
  | [] => []
  | [w] => w
  | w :: ws => w ++ ',' :: joinComma ws

theorem splitComma_word {w : List Char} (hw : ',' ∉ w) : splitComma w = [w] := by
  induction w with
  | nil => rfl
  | cons c cs ih =>
    have h1 : c ≠ ',' := fun h => hw (h ▸ List.mem_cons_self)
    unfold splitComma
    rw [if_neg h1, ih (fun h => hw (List.mem_cons_of_mem _ h))]

theorem splitComma_append {w : List Char} (hw : ',' ∉ w) (rest : List Char) :
    splitComma (w ++ ',' :: rest) = w :: splitComma rest := by
  induction w with
  | nil => simp [splitComma]
  | cons c cs ih =>
    have h1 : c ≠ ',' := fun h => hw (h ▸ List.mem_cons_self)
    rw [List.cons_append, splitComma, if_neg h1, ih (fun h => hw (List.mem_cons_of_mem _ h))]

theorem splitComma_join {ws : List (List Char)} (h : ws ≠ []) (hw : ∀ w ∈ ws, ',' ∉ w) :
    splitComma (joinComma ws) = ws := by
  induction ws with
  | nil => exact absurd rfl h
  | cons w ws ih =>
    have h1 := hw w List.mem_cons_self
    cases ws with
    | nil => exact splitComma_word h1
    | cons w' ws =>
      rw [joinComma, splitComma_append h1, ih (by simp) (fun w hm => hw w (List.mem_cons_of_mem _ hm))]
      simp

theorem digitsVal_ofDigitChars : ∀ (cs : List Char) (acc : ℕ), (∀ c ∈ cs, c.isDigit = true) →
    digitsVal acc cs = some (Nat.ofDigitChars 10 cs acc)
  | [], acc, _ => by simp [digitsVal]
  | c :: cs, acc, h => by
    have h1 := h c List.mem_cons_self
    rw [digitsVal]
    simp only [digitVal, h1, if_true]
    rw [digitsVal_ofDigitChars cs _ (fun c hc => h c (List.mem_cons_of_mem _ hc)),
      Nat.ofDigitChars_cons, Nat.mul_comm]

theorem dropWhile_spaces (i : ℕ) {cs : List Char} (h : ∀ c ∈ cs.head?, c ≠ ' ') :
    (List.replicate i ' ' ++ cs).dropWhile (· == ' ') = cs := by
  induction i with
  | zero =>
    cases cs with
    | nil => rfl
    | cons c cs => simp [h c rfl]
  | succ i ih => simpa [List.replicate_succ] using ih

theorem strip_written {n : ℕ} {w : List Char} (h : Writes n w) : strip w = Nat.toDigits 10 n := by
  obtain ⟨i, j, rfl⟩ := h
  have hd : ∀ c ∈ Nat.toDigits 10 n, c ≠ ' ' := by
    rintro c hc rfl
    exact absurd (Nat.isDigit_of_mem_toDigits (by decide) (by decide) hc) (by decide)
  unfold strip
  rw [List.append_assoc, dropWhile_spaces, List.reverse_append, List.reverse_replicate,
    dropWhile_spaces, List.reverse_reverse]
  · intro c hc
    exact hd c (by simpa using List.mem_of_mem_head? hc)
  · intro c hc
    cases hN : Nat.toDigits 10 n with
    | nil => exact absurd hN Nat.toDigits_ne_nil
    | cons x xs =>
      rw [hN] at hc hd
      simp at hc
      exact hc ▸ hd x List.mem_cons_self

theorem pyInt_written {n : ℕ} {w : List Char} (h : Writes n w) : pyInt w = .ok (n : ℤ) := by
  have hdig : ∀ c ∈ Nat.toDigits 10 n, c.isDigit = true := fun c hc =>
    Nat.isDigit_of_mem_toDigits (by decide) (by decide) hc
  have hv := digitsVal_ofDigitChars _ 0 hdig
  rw [Nat.ofDigitChars_ten_toDigits] at hv
  unfold pyInt
  rw [strip_written h]
  cases hN : Nat.toDigits 10 n with
  | nil => exact absurd hN Nat.toDigits_ne_nil
  | cons c cs =>
    rw [hN] at hv hdig
    have hc := hdig c List.mem_cons_self
    have h1 : c ≠ '-' := by rintro rfl; exact absurd hc (by decide)
    have h2 : c ≠ '+' := by rintro rfl; exact absurd hc (by decide)
    split
    · simp_all
    · rename_i e; injection e with e; exact absurd e h1
    · rename_i e; injection e with e; exact absurd e h2
    · rename_i e
      rw [← e, hv]

theorem writes_no_comma {n : ℕ} {w : List Char} (h : Writes n w) : ',' ∉ w := by
  obtain ⟨i, j, rfl⟩ := h
  intro hc
  rcases List.mem_append.1 hc with hc | hc
  · rcases List.mem_append.1 hc with hc | hc
    · exact absurd (List.eq_of_mem_replicate hc) (by decide)
    · exact absurd (Nat.isDigit_of_mem_toDigits (by decide) (by decide) hc) (by decide)
  · exact absurd (List.eq_of_mem_replicate hc) (by decide)

theorem readInts_written {ns : List ℕ} {ws : List (List Char)} (h : List.Forall₂ Writes ns ws) :
    readInts ws = .ok (ns.map (fun n : ℕ => (n : ℤ))) := by
  induction h with
  | nil => rfl
  | cons h _ ih => rw [readInts, pyInt_written h]; simp [ih]

/-- C57: an order written as process numbers separated by commas is read back as written. -/
theorem C57_order_round_trip {ns : List ℕ} {ws : List (List Char)} (hne : ns ≠ [])
    (h : List.Forall₂ Writes ns ws) :
    readOrder (joinComma ws) = .ok (ns.map (fun n : ℕ => (n : ℤ))) := by
  have hws : ws ≠ [] := by
    rintro rfl
    cases h
    exact hne rfl
  have hc : ∀ w ∈ ws, ',' ∉ w := by
    clear hne hws
    induction h with
    | nil => simp
    | cons h _ ih =>
      intro w hw
      rcases List.mem_cons.1 hw with rfl | hw
      · exact writes_no_comma h
      · exact ih w hw
  unfold readOrder
  rw [splitComma_join hws hc, readInts_written h]

example : readOrder "1, 10 ".toList = .ok [1, 10] :=
  C57_order_round_trip (ns := [1, 10]) (ws := ["1".toList, " 10 ".toList]) (by decide)
    (.cons ⟨0, 0, by decide⟩ (.cons ⟨1, 1, by decide⟩ .nil))

/-- C57: as many numbers are read as there are words, so no process is dropped or invented. -/
theorem C57_order_count {cs : List Char} {ns : List ℤ} (h : readOrder cs = .ok ns) :
    ns.length = cs.count ',' + 1 := by
  have h1 : ∀ (ws : List (List Char)) (ns : List ℤ), readInts ws = .ok ns → ns.length = ws.length := by
    intro ws
    induction ws with
    | nil => intro ns h; injection h with h; simp [← h]
    | cons w ws ih =>
      intro ns h
      rw [readInts] at h
      cases hp : pyInt w with
      | error e => rw [hp] at h; cases h
      | ok n =>
        rw [hp] at h
        dsimp only at h
        cases hr : readInts ws with
        | error e => rw [hr] at h; cases h
        | ok ms =>
          rw [hr] at h
          injection h with h
          rw [← h, List.length_cons, List.length_cons, ih _ hr]
  have h2 : ∀ cs : List Char, (splitComma cs).length = cs.count ',' + 1 := by
    intro cs
    induction cs with
    | nil => rfl
    | cons c cs ih =>
      rw [splitComma]
      split_ifs with hc
      · subst hc
        simp [ih]
      · rw [List.count_cons_of_ne hc]
        split
        · rename_i e; rw [e] at ih; simp at ih
        · rename_i e; rw [e] at ih; simpa using ih
  rw [h1 _ _ h, h2]

example : ([1, 2, 10, 3] : List ℤ).length = "1, 2,10 ,3".toList.count ',' + 1 :=
  C57_order_count (by decide +kernel)

/-- C57: anything else fails with `ValueError`. -/
theorem C57_order_failure {cs : List Char} {e : PyErr} (h : readOrder cs = .error e) :
    e = .valueError := by
  have hp : ∀ w e, pyInt w = .error e → e = .valueError := by
    intro w e h
    unfold pyInt at h
    split at h
    · injection h with h; exact h.symm
    all_goals split at h
    all_goals first | (injection h with h; exact h.symm) | cases h
  unfold readOrder at h
  generalize splitComma cs = ws at h
  induction ws with
  | nil => cases h
  | cons w ws ih =>
    rw [readInts] at h
    cases hw : pyInt w with
    | error e' => rw [hw] at h; injection h with h; exact h ▸ hp w e' hw
    | ok n =>
      rw [hw] at h
      dsimp only at h
      cases hr : readInts ws with
      | error e' =>
        rw [hr] at h
        injection h with h
        subst h
        exact ih hr
      | ok ms => rw [hr] at h; cases h

example : readOrder "1, 2,10 ,3".toList = .ok [1, 2, 10, 3] ∧
    readOrder "1,,2".toList = .error .valueError := by decide +kernel

example : List.Forall₂ Writes [1, 10] ["1".toList, " 10 ".toList] :=
  .cons ⟨0, 0, by decide⟩ (.cons ⟨1, 1, by decide⟩ .nil)

end Verif
