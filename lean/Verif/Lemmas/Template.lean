import Verif.Lemmas.Workbook

/-!
# Which sheets can be read
-/

set_option autoImplicit false
set_option linter.unusedSimpArgs false

namespace Verif
namespace Workbook
open Pandas DataFrame FixedOrder Enums

/-- The sheet has columns up to number `w` and rows up to number `h`. -/
def Fits (s : Sheet) (w h : ℕ) : Prop := w ≤ s.width ∧ h ≤ s.height

theorem at_iff {s : Sheet} (hb : BlankHeader s) {c r : ℕ} {v : Value} :
    at' (readSheet s) c r = .ok v ↔ Fits s (c + 1) (r + 2) ∧ s.cell (r + 2) c = v := by
  constructor
  · intro h
    refine ⟨?_, (at_ok h).symm⟩
    obtain ⟨i, j, hj, hi, -⟩ := get_ok h
    rw [readSheet_lookup hb] at hj
    rw [readSheet_index] at hi
    split at hj
    · split at hi
      · exact ⟨by omega, by omega⟩
      · cases hi
    · cases hj
  · rintro ⟨⟨h1, h2⟩, rfl⟩
    exact at_total hb (by omega) (by omega)

theorem pos_mem {s : Sheet} (r : ℕ) : Key.pos r ∈ (readSheet s).index.map Prod.fst ↔ r + 2 ≤ s.height := by
  simp only [readSheet, List.map_map, List.mem_map, List.mem_range, Function.comp, Key.pos.injEq,
    exists_eq_right]
  omega

theorem unnamed_mem {s : Sheet} (hb : BlankHeader s) (k : ℕ) :
    Key.unnamed k ∈ (readSheet s).columns.map Prod.fst ↔ k + 1 ≤ s.width := by
  rw [readSheet_columns hb]
  simp only [List.map_map, List.mem_map, List.mem_range, Function.comp, Key.unnamed.injEq, exists_eq_right]
  omega

theorem drop_iff {f g : DataFrame} {rows cols : List Key} :
    f.drop rows cols = .ok g ↔
      ((∀ r ∈ rows, r ∈ f.index.map Prod.fst) ∧ ∀ c ∈ cols, c ∈ f.columns.map Prod.fst) ∧
      { f with index := f.index.filter (fun p => p.1 ∉ rows),
               columns := f.columns.filter (fun p => p.1 ∉ cols) } = g := by
  unfold DataFrame.drop
  split
  · rename_i h
    simp only [Except.ok.injEq]
    exact ⟨fun e => ⟨h, e⟩, fun e => e.2⟩
  · rename_i h
    exact ⟨fun e => (by cases e), fun e => absurd e.1 h⟩

theorem filter_mem {l : List (Key × ℕ)} {ks : List Key} {k : Key} :
    k ∈ (l.filter (fun p => p.1 ∉ ks)).map Prod.fst ↔ k ∈ l.map Prod.fst ∧ k ∉ ks := by
  simp only [List.mem_map, List.mem_filter, decide_eq_true_eq]
  constructor
  · rintro ⟨p, ⟨h1, h2⟩, rfl⟩
    exact ⟨⟨p, h1, rfl⟩, h2⟩
  · rintro ⟨⟨p, h1, rfl⟩, h2⟩
    exact ⟨p, ⟨h1, h2⟩, rfl⟩

/-- A sheet without the rows `rs` and the columns `ks`. -/
def cut (s : Sheet) (rs ks : List ℕ) : DataFrame :=
  { (readSheet s) with
    index := (readSheet s).index.filter (fun p => p.1 ∉ nums rs)
    columns := (readSheet s).columns.filter (fun p => p.1 ∉ cols ks) }

/-- Dropping numbered rows and columns of a sheet. -/
theorem sheet_drop {s : Sheet} (hb : BlankHeader s) {g : DataFrame} {rs ks : List ℕ} :
    (readSheet s).drop (nums rs) (cols ks) = .ok g ↔
      ((∀ r ∈ rs, r + 2 ≤ s.height) ∧ ∀ k ∈ ks, k + 1 ≤ s.width) ∧ cut s rs ks = g := by
  rw [drop_iff]
  unfold nums cols
  simp only [List.forall_mem_map, pos_mem, unnamed_mem hb]
  rfl

theorem mem_nums {rs : List ℕ} {r : ℕ} : Key.pos r ∈ nums rs ↔ r ∈ rs := by
  simp [nums]

theorem mem_cols {ks : List ℕ} {k : ℕ} : Key.unnamed k ∈ cols ks ↔ k ∈ ks := by
  simp [cols]

/-- Dropping once more. -/
theorem cut_drop {s : Sheet} (hb : BlankHeader s) {g : DataFrame} {rs ks rs' ks' : List ℕ} :
    (cut s rs ks).drop (nums rs') (cols ks') = .ok g ↔
      ((∀ r ∈ rs', r + 2 ≤ s.height ∧ r ∉ rs) ∧ ∀ k ∈ ks', k + 1 ≤ s.width ∧ k ∉ ks) ∧
      cut s (rs ++ rs') (ks ++ ks') = g := by
  rw [drop_iff]
  have h1 : ∀ r ∈ rs', (Key.pos r ∈ (cut s rs ks).index.map Prod.fst ↔ r + 2 ≤ s.height ∧ r ∉ rs) := by
    intro r _
    unfold cut
    rw [filter_mem, pos_mem, mem_nums]
  have h2 : ∀ k ∈ ks', (Key.unnamed k ∈ (cut s rs ks).columns.map Prod.fst ↔ k + 1 ≤ s.width ∧ k ∉ ks) := by
    intro k _
    unfold cut
    rw [filter_mem, unnamed_mem hb, mem_cols]
  have h3 : { (cut s rs ks) with
      index := (cut s rs ks).index.filter (fun p => p.1 ∉ nums rs')
      columns := (cut s rs ks).columns.filter (fun p => p.1 ∉ cols ks') } =
      cut s (rs ++ rs') (ks ++ ks') := by
    unfold cut nums cols
    simp only [List.filter_filter, List.map_append, List.mem_append, not_or, DataFrame.mk.injEq, and_true]
    constructor
    · congr 1
      funext p
      simp [Bool.and_comm]
    · congr 1
      funext p
      simp [Bool.and_comm]
  rw [h3]
  have h1' : (∀ r ∈ nums rs', r ∈ (cut s rs ks).index.map Prod.fst) ↔
      ∀ r ∈ rs', r + 2 ≤ s.height ∧ r ∉ rs := by
    rw [show nums rs' = rs'.map Key.pos from rfl, List.forall_mem_map]
    exact forall₂_congr h1
  have h2' : (∀ k ∈ cols ks', k ∈ (cut s rs ks).columns.map Prod.fst) ↔
      ∀ k ∈ ks', k + 1 ≤ s.width ∧ k ∉ ks := by
    rw [show cols ks' = ks'.map Key.unnamed from rfl, List.forall_mem_map]
    exact forall₂_congr h2
  rw [h1', h2']

theorem cut_at {s : Sheet} (hb : BlankHeader s) {c r : ℕ} {v : Value} {ks : List ℕ} :
    at' (cut s [] ks) c r = .ok v ↔ (Fits s (c + 1) (r + 2) ∧ c ∉ ks) ∧ s.cell (r + 2) c = v := by
  have hi : (cut s [] ks).index.lookup (.pos r) = (readSheet s).index.lookup (.pos r) := by
    unfold cut
    rw [lookup_filter, if_neg (by simp [nums])]
  have hj : (cut s [] ks).columns.lookup (.unnamed c) =
      if c ∈ ks then none else (readSheet s).columns.lookup (.unnamed c) := by
    unfold cut
    rw [lookup_filter]
    simp only [mem_cols]
  have key : at' (cut s [] ks) c r = if c ∈ ks then .error .keyError else at' (readSheet s) c r := by
    unfold at' DataFrame.get
    rw [hi, hj]
    split_ifs <;> rfl
  rw [key]
  split_ifs with h
  · simp [h]
  · rw [at_iff hb]
    simp [h]

/-- Dropping columns of some of the rows. -/
theorem slice_drop {s : Sheet} (hb : BlankHeader s) {g : DataFrame} {a b : ℕ} {ks ks' : List ℕ} :
    ((cut s [] ks).iloc a b).drop [] (cols ks') = .ok g ↔
      (∀ k ∈ ks', k + 1 ≤ s.width ∧ k ∉ ks) ∧
      { ((cut s [] ks).iloc a b) with
        index := ((cut s [] ks).iloc a b).index.filter (fun p => p.1 ∉ ([] : List Key))
        columns := ((cut s [] ks).iloc a b).columns.filter (fun p => p.1 ∉ cols ks') } = g := by
  rw [drop_iff]
  have h2 : (∀ k ∈ cols ks', k ∈ ((cut s [] ks).iloc a b).columns.map Prod.fst) ↔
      ∀ k ∈ ks', k + 1 ≤ s.width ∧ k ∉ ks := by
    rw [show cols ks' = ks'.map Key.unnamed from rfl, List.forall_mem_map]
    refine forall₂_congr fun k _ => ?_
    unfold iloc cut
    dsimp only
    rw [filter_mem, unnamed_mem hb, mem_cols]
  rw [h2]
  simp only [List.not_mem_nil, false_implies, implies_true, true_and]

theorem cut_drop_rows {s : Sheet} (hb : BlankHeader s) {g : DataFrame} {rs ks rs' : List ℕ} :
    (cut s rs ks).drop (nums rs') [] = .ok g ↔
      (∀ r ∈ rs', r + 2 ≤ s.height ∧ r ∉ rs) ∧ cut s (rs ++ rs') (ks ++ []) = g := by
  have h := cut_drop (s := s) hb (g := g) (rs := rs) (ks := ks) (rs' := rs') (ks' := [])
  simp only [List.not_mem_nil, false_implies, implies_true, and_true] at h
  exact h

theorem sheet_drop_columns {s : Sheet} (hb : BlankHeader s) {g : DataFrame} {ks : List ℕ} :
    (readSheet s).drop [] (cols ks) = .ok g ↔ (∀ k ∈ ks, k + 1 ≤ s.width) ∧ cut s [] ks = g := by
  have h := sheet_drop (s := s) hb (g := g) (rs := []) (ks := ks)
  simp only [List.not_mem_nil, false_implies, implies_true, true_and] at h
  exact h

theorem number_mem {l : List (Key × ℕ)} {n k : ℕ} :
    Key.pos k ∈ (number n l).map Prod.fst ↔ n ≤ k ∧ k < n + l.length := by
  induction l generalizing n with
  | nil => simp [number]
  | cons p l ih =>
    rw [number, List.map_cons, List.mem_cons, ih, List.length_cons]
    simp only [Key.pos.injEq]
    omega

theorem ok_bind {α β : Type} {m : Except PyErr α} {k : α → Except PyErr β} :
    (∃ v, (m >>= k) = .ok v) ↔ ∃ a, m = .ok a ∧ ∃ v, k a = .ok v := by
  simp only [except_bind_ok]
  constructor
  · rintro ⟨v, a, h1, h2⟩
    exact ⟨a, h1, v, h2⟩
  · rintro ⟨a, h1, v, h2⟩
    exact ⟨v, a, h1, h2⟩

theorem ok_pure {α : Type} {a : α} : (∃ v, (pure a : Except PyErr α) = .ok v) ↔ True := by
  simp only [except_pure_ok, exists_eq']

theorem text_iff {v : Value} {a : String} : textOf v = .ok a ↔ v = some (.text a) := by
  unfold textOf
  split
  · simp
  · rename_i h
    constructor
    · intro h'
      cases h'
    · intro h'
      exact absurd h' (h a)

variable {s : Sheet}

theorem parametric_iff (hb : BlankHeader s) : (∃ d, parametric (readSheet s) = .ok d) ↔ Fits s 6 7 := by
  unfold parametric
  simp only [exists_eq', and_true, true_and, ok_bind, ok_pure, at_iff hb, and_assoc, exists_and_left, exists_eq_left', Fits]
  omega

theorem controller_iff (hb : BlankHeader s) : (∃ d, controller (readSheet s) = .ok d) ↔ Fits s 7 9 ∧
    (∃ a l, s.cell 8 3 = some (.text a) ∧ InputText.readOrder a.toList = .ok l) ∧
    (∃ a l, s.cell 9 3 = some (.text a) ∧ InputText.readOrder a.toList = .ok l) := by
  unfold controller
  simp only [exists_eq', and_true, true_and, ok_bind, ok_pure, at_iff hb, and_assoc, exists_and_left, exists_eq_left', Fits, text_iff]
  constructor
  · rintro ⟨h1, h2, h3, h4, h5, h6, h7, h8, h9, h10, h11, h12, a, ha, l, hl, h13, h14, b, hb, l', hl'⟩
    exact ⟨by omega, by omega, ⟨b, hb, l', hl'⟩, ⟨a, ha, l, hl⟩⟩
  · rintro ⟨h1, h2, ⟨b, hb, l', hl'⟩, ⟨a, ha, l, hl⟩⟩
    refine ⟨by omega, by omega, by omega, by omega, by omega, by omega, by omega, by omega, by omega,
      by omega, by omega, by omega, a, ha, l, hl, by omega, by omega, b, hb, l', hl'⟩

theorem resources_iff (hb : BlankHeader s) : (∃ d, resources (readSheet s) = .ok d) ↔ Fits s 15 5 := by
  unfold resources
  simp only [exists_eq', and_true, true_and, ok_bind, ok_pure, sheet_drop hb, and_assoc, exists_and_left, exists_eq_left', Fits,
    List.forall_mem_cons, List.not_mem_nil, false_implies, implies_true]
  omega

theorem demands_iff (hb : BlankHeader s) : (∃ d, demands (readSheet s) = .ok d) ↔ Fits s 8 37 := by
  unfold demands
  simp only [exists_eq', and_true, true_and, ok_bind, ok_pure, at_iff hb, sheet_drop hb, and_assoc,
    exists_and_left, exists_eq_left', Fits, List.forall_mem_cons, List.not_mem_nil, false_implies,
    implies_true]
  simp only [cut_drop_rows hb, exists_eq', and_true, exists_and_left, List.not_mem_nil, false_implies, implies_true,
    List.forall_mem_map, List.mem_range, List.mem_cons, or_false]
  constructor
  · rintro ⟨h1, h2, h3, h4, h5, h6, h7, h8, h9, h10, h11⟩
    have := (h11 21 (by omega)).1
    omega
  · rintro ⟨h1, h2⟩
    exact ⟨by omega, by omega, by omega, by omega, by omega, by omega, by omega, by omega, by omega,
      by omega, fun j hj => ⟨by omega, by omega⟩⟩

theorem demandInput_iff (hb : BlankHeader s) : (∃ d, demandInput (readSheet s) = .ok d) ↔ Fits s 9 8 := by
  unfold demandInput
  simp only [exists_eq', and_true, true_and, ok_bind, ok_pure, at_iff hb, sheet_drop hb, and_assoc, exists_and_left, exists_eq_left', Fits,
    List.forall_mem_cons, List.not_mem_nil, false_implies, implies_true]
  omega

theorem pv_iff (hb : BlankHeader s) :
    ((∃ d, pvLocation (readSheet s) = .ok d) ∧ ∃ d, pvSpec (readSheet s) = .ok d) ↔ Fits s 8 20 := by
  unfold pvLocation pvSpec
  simp only [exists_eq', and_true, true_and, ok_bind, ok_pure, sheet_drop hb, and_assoc, exists_and_left, exists_eq_left', Fits,
    List.forall_mem_cons, List.not_mem_nil, false_implies, implies_true]
  omega

theorem wind_iff (hb : BlankHeader s) :
    ((∃ d, windDatabase (readSheet s) = .ok d) ∧ (∃ d, windUser (readSheet s) = .ok d) ∧
      ∃ d, powerCurve (readSheet s) = .ok d) ↔ Fits s 7 23 := by
  unfold windDatabase windUser powerCurve
  simp only [exists_eq', and_true, true_and, ok_bind, ok_pure, sheet_drop hb, and_assoc, exists_and_left, exists_eq_left', Fits,
    List.forall_mem_cons, List.not_mem_nil, false_implies, implies_true]
  omega

theorem windFarm_iff (hb : BlankHeader s) : (∃ d, windFarm (readSheet s) = .ok d) ↔ Fits s 7 19 := by
  unfold windFarm
  simp only [exists_eq', and_true, true_and, ok_bind, ok_pure, at_iff hb, sheet_drop hb, and_assoc, exists_and_left, exists_eq_left', Fits,
    List.forall_mem_cons, List.not_mem_nil, false_implies, implies_true, List.mem_range]
  constructor
  · rintro ⟨h1, h2, h3, h4, h5, h6, h7, h8, h9, h10, h11, -⟩
    have := h11 17 (by omega)
    omega
  · rintro ⟨h1, h2⟩
    refine ⟨by omega, by omega, by omega, by omega, by omega, by omega, by omega, by omega, by omega,
      by omega, fun r hr => by omega, by omega, by omega⟩

theorem electricalStorage_iff (hb : BlankHeader s) :
    (∃ d, electricalStorage (readSheet s) = .ok d) ↔ Fits s 2 5 := by
  unfold electricalStorage
  simp only [exists_eq', and_true, true_and, ok_bind, ok_pure, sheet_drop hb, and_assoc, exists_and_left, exists_eq_left', Fits,
    List.forall_mem_cons, List.not_mem_nil, false_implies, implies_true]
  omega

theorem fuelOf_iff {v : Value} : (∃ x, fuelOf v = .ok x) ↔
    ∃ a x, v = some (.text a) ∧ fromValue Fuel a.toUpper = .ok x := by
  unfold fuelOf
  simp only [ok_bind, text_iff, exists_and_left]

theorem fuelEntry_iff (hb : BlankHeader s) {r : ℕ} : (∃ d, fuelEntry (readSheet s) r = .ok d) ↔
    Fits s 5 (r + 2) ∧ ∃ x, fuelOf (s.cell (r + 2) 2) = .ok x := by
  unfold fuelEntry
  simp only [exists_eq', and_true, true_and, ok_bind, ok_pure, at_iff hb, and_assoc, exists_and_left,
    exists_eq_left', Fits, exists_and_right]
  constructor
  · rintro ⟨h1, h2, h3, h4, h5, h6, h7⟩
    exact ⟨by omega, by omega, h3⟩
  · rintro ⟨h1, h2, h3⟩
    exact ⟨by omega, by omega, h3, by omega, by omega, by omega, by omega⟩

theorem aux_iff (hb : BlankHeader s) : (∃ d, aux (readSheet s) = .ok d) ↔ Fits s 5 11 ∧
    (∃ x, fuelOf (s.cell 6 2) = .ok x) ∧ (∃ x, fuelOf (s.cell 9 2) = .ok x) ∧
    (∃ x, fuelOf (s.cell 10 2) = .ok x) ∧ (∃ x, fuelOf (s.cell 11 2) = .ok x) := by
  unfold aux
  simp only [exists_eq', and_true, true_and, ok_bind, ok_pure, at_iff hb, and_assoc, exists_and_left,
    exists_eq_left', exists_and_right, fuelEntry_iff hb]
  unfold Fits
  constructor
  · rintro ⟨h1, h2, h3, h4, h5, h6, h7, h8, h9⟩
    exact ⟨by omega, h2, h5, h7, h9⟩
  · rintro ⟨h1, h2, h3, h4, h5⟩
    exact ⟨by omega, h2, by omega, by omega, h3, by omega, h4, by omega, h5⟩

theorem gridSeries_iff (hb : BlankHeader s) {ks ks' : List ℕ} {k : ℕ} {name : String} :
    (∃ g, gridSeries (cut s [] ks) ks' k name = .ok g) ↔ ∀ k ∈ ks', k + 1 ≤ s.width ∧ k ∉ ks := by
  unfold gridSeries
  simp only [ok_bind, ok_pure, and_true, slice_drop hb, exists_and_left, exists_eq']

theorem grid_iff (hb : BlankHeader s) : (∃ d, grid (readSheet s) = .ok d) ↔ Fits s 23 42 := by
  unfold grid
  simp only [ok_bind, ok_pure, at_iff hb, sheet_drop_columns hb, and_assoc, exists_and_left,
    exists_eq_left']
  simp only [cut_drop hb, and_assoc, exists_and_left, exists_eq_left', List.nil_append]
  simp only [cut_drop_rows hb, cut_at hb, and_assoc, exists_and_left, exists_eq_left', exists_eq',
    exists_and_right, slice_drop hb, gridSeries_iff hb, and_true]
  simp only [List.forall_mem_cons, List.not_mem_nil, false_implies, implies_true, and_true]
  simp only [List.mem_cons, List.not_mem_nil, or_false, not_or, not_false_eq_true, and_true]
  unfold Fits
  omega

theorem thermalStorage_iff (hb : BlankHeader s) :
    (∃ d, thermalStorage (readSheet s) = .ok d) ↔ Fits s 14 21 := by
  unfold thermalStorage
  simp only [ok_bind, ok_pure, and_true]
  rw [exists_congr (fun g => drop_iff)]
  simp only [exists_eq', and_true, exists_and_left, nums, List.forall_mem_map, resetIndex, transpose,
    number_mem, pos_mem, List.forall_mem_cons, List.not_mem_nil, false_implies, implies_true, Nat.zero_le,
    true_and, Nat.zero_add, Fits, readSheet_columns hb, List.length_map, List.length_range]
  omega

/-- The rows `a` to `b - 1` of a sheet, transposed and numbered. -/
theorem transposed_drop (hb : BlankHeader s) {g : DataFrame} {a b : ℕ} {rs : List ℕ} :
    ((readSheet s).iloc a b).transpose.resetIndex.drop (nums rs) [] = .ok g ↔
      (∀ r ∈ rs, r + 1 ≤ s.width) ∧
      { ((readSheet s).iloc a b).transpose.resetIndex with
        index := (((readSheet s).iloc a b).transpose.resetIndex).index.filter (fun p => p.1 ∉ nums rs)
        columns := (((readSheet s).iloc a b).transpose.resetIndex).columns.filter
          (fun p => p.1 ∉ ([] : List Key)) } = g := by
  rw [drop_iff]
  simp only [nums, List.forall_mem_map, List.not_mem_nil, false_implies, implies_true, and_true]
  have : ∀ r, (Key.pos r ∈ (((readSheet s).iloc a b).transpose.resetIndex).index.map Prod.fst ↔
      r + 1 ≤ s.width) := by
    intro r
    simp only [resetIndex, transpose, iloc, number_mem, readSheet_columns hb, List.length_map,
      List.length_range]
    omega
  simp only [this]

theorem hpBasics_iff (hb : BlankHeader s) : (∃ d, hpBasics (readSheet s) = .ok d) ↔ 11 ≤ s.width := by
  unfold hpBasics
  simp only [ok_bind, ok_pure, transposed_drop hb, and_true, exists_and_left, exists_eq',
    List.forall_mem_cons, List.not_mem_nil, false_implies, implies_true]
  omega

theorem rhi_iff (hb : BlankHeader s) : (∃ d, rhi (readSheet s) = .ok d) ↔ Fits s 14 9 := by
  unfold rhi
  simp only [exists_eq', and_true, true_and, ok_bind, ok_pure, at_iff hb, and_assoc, exists_and_left,
    exists_eq_left', Fits]
  omega

theorem readSheet_index_get (i : ℕ) :
    (readSheet s).index[i]? = if i < s.height - 1 then some (.pos i, i + 2) else none := by
  unfold readSheet
  dsimp only
  rw [List.getElem?_map]
  by_cases h : i < s.height - 1
  · rw [List.getElem?_range h, if_pos h]; rfl
  · rw [if_neg h, List.getElem?_eq_none (by simpa using h)]; rfl

/-- The labels of the rows `a` to `b - 1`. -/
theorem iloc_mem {a b r : ℕ} : Key.pos r ∈ ((readSheet s).iloc a b).index.map Prod.fst ↔
    a ≤ r ∧ r < b ∧ r + 2 ≤ s.height := by
  unfold iloc
  dsimp only
  rw [List.mem_map]
  constructor
  · rintro ⟨p, hp, hpr⟩
    obtain ⟨i, hi⟩ := List.mem_iff_getElem?.mp hp
    rw [List.getElem?_take] at hi
    split at hi
    · rw [List.getElem?_drop, readSheet_index_get] at hi
      split at hi
      · cases Option.some.inj hi
        simp only [Key.pos.injEq] at hpr
        omega
      · cases hi
    · cases hi
  · rintro ⟨h1, h2, h3⟩
    refine ⟨(.pos r, r + 2), ?_, rfl⟩
    apply List.mem_iff_getElem?.mpr
    refine ⟨r - a, ?_⟩
    rw [List.getElem?_take, if_pos (by omega), List.getElem?_drop, readSheet_index_get,
      show a + (r - a) = r by omega, if_pos (by omega)]

theorem lookup_isSome {l : List (Key × ℕ)} {k : Key} : (∃ i, l.lookup k = some i) ↔ k ∈ l.map Prod.fst := by
  induction l with
  | nil => simp
  | cons p l ih =>
    obtain ⟨a, b⟩ := p
    rw [List.lookup_cons, List.map_cons, List.mem_cons]
    by_cases h : k = a
    · simp [h]
    · rw [beq_eq_false_iff_ne.mpr h]
      simp only [h, false_or]
      exact ih

theorem hpSimple_iff (hb : BlankHeader s) : (∃ d, hpSimple (readSheet s) = .ok d) ↔ Fits s 4 12 := by
  unfold hpSimple at'
  constructor
  · rintro ⟨v, hv⟩
    obtain ⟨i, j, hj, hi, -⟩ := get_ok hv
    have h1 := iloc_mem.mp (lookup_isSome.mp ⟨i, hi⟩)
    have h2 := (unnamed_mem hb 3).mp (lookup_isSome.mp ⟨j, hj⟩)
    exact ⟨by omega, by omega⟩
  · rintro ⟨h1, h2⟩
    obtain ⟨i, hi⟩ := lookup_isSome.mpr ((iloc_mem (s := s) (a := 9) (b := 11) (r := 10)).mpr
      ⟨by omega, by omega, by omega⟩)
    obtain ⟨j, hj⟩ := lookup_isSome.mpr ((unnamed_mem hb 3).mpr (by omega))
    exact ⟨_, get_eq (f := (readSheet s).iloc 9 11) hj hi⟩

theorem lorentz_iff (hb : BlankHeader s) : (∃ d, lorentz (readSheet s) = .ok d) ↔ 19 ≤ s.width := by
  unfold lorentz
  simp only [ok_bind, ok_pure, transposed_drop hb, and_true, exists_and_left, exists_eq']
  constructor
  · intro h
    exact h 18 (by decide)
  · intro h r hr
    have := (List.mem_filter.mp hr).1
    rw [List.mem_range] at this
    omega

theorem regressionTempLower_iff (hb : BlankHeader s) {k : ℕ} (hk : k ≠ 18) :
    (∃ d, regressionTempLower (readSheet s) k = .ok d) ↔ 19 ≤ s.width := by
  unfold regressionTempLower
  simp only [ok_bind, ok_pure, transposed_drop hb, and_true, exists_and_left, exists_eq']
  constructor
  · intro h
    exact h 18 (by simp [allBut, hk.symm])
  · intro h r hr
    have := (List.mem_filter.mp hr).1
    rw [List.mem_range] at this
    omega

theorem regressionTempUpper_iff (hb : BlankHeader s) {k : ℕ} (hk : k ≠ 18) :
    (∃ d, regressionTempUpper (readSheet s) k = .ok d) ↔ Fits s 19 26 := by
  unfold regressionTempUpper
  simp only [ok_bind, ok_pure, transposed_drop hb, and_true, and_assoc, exists_and_left, exists_eq_left']
  simp only [drop_iff, exists_and_left, exists_eq', and_true, List.not_mem_nil, false_implies, implies_true,
    true_and, not_false_eq_true, decide_true, List.filter_true]
  unfold nums
  simp only [List.forall_mem_map]
  have h : ∀ r, (Key.pos r ∈ ((readSheet s).iloc 21 25).transpose.resetIndex.columns.map Prod.fst ↔
      21 ≤ r ∧ r < 25 ∧ r + 2 ≤ s.height) := fun r => iloc_mem
  simp only [h, List.forall_mem_cons, List.not_mem_nil, false_implies, implies_true, and_true]
  unfold Fits
  constructor
  · rintro ⟨h1, h2⟩
    have := h1 18 (by simp [allBut, hk.symm])
    omega
  · rintro ⟨h1, h2⟩
    refine ⟨fun r hr => ?_, by omega⟩
    have := (List.mem_filter.mp hr).1
    rw [List.mem_range] at this
    omega

theorem regressionUpper_iff (hb : BlankHeader s) {drops : List ℕ} {m : List (ℕ × String)} :
    (∃ d, regressionUpper (readSheet s) drops m = .ok d) ↔
      26 ≤ s.height ∧ ∀ k ∈ drops, k + 1 ≤ s.width := by
  unfold regressionUpper
  simp only [ok_bind, ok_pure, and_true, drop_iff, and_assoc, exists_and_left, exists_eq_left', exists_eq']
  have h1 : (∀ k ∈ cols drops, k ∈ ((readSheet s).iloc 23 33).columns.map Prod.fst) ↔
      ∀ k ∈ drops, k + 1 ≤ s.width := by
    rw [show cols drops = drops.map Key.unnamed from rfl, List.forall_mem_map]
    exact forall₂_congr fun k _ => unnamed_mem hb k
  rw [h1]
  unfold rename
  dsimp only
  simp only [List.not_mem_nil, false_implies, implies_true, true_and, not_false_eq_true, decide_true,
    List.filter_true, and_true]
  rw [show nums [23, 24] = [23, 24].map Key.pos from rfl, List.forall_mem_map]
  simp only [iloc_mem, List.forall_mem_cons, List.not_mem_nil, false_implies, implies_true, and_true]
  constructor
  · rintro ⟨h1, h2⟩
    exact ⟨by omega, h1⟩
  · rintro ⟨h1, h2⟩
    exact ⟨h2, by omega⟩

theorem regressionLower_iff (hb : BlankHeader s) {drops : List ℕ} {m : List (ℕ × String)} :
    (∃ d, regressionLower (readSheet s) drops m = .ok d) ↔ ∀ k ∈ drops, k + 1 ≤ s.width := by
  unfold regressionLower
  simp only [ok_bind, ok_pure, and_true, drop_iff, and_assoc, exists_and_left, exists_eq']
  have h1 : (∀ k ∈ cols drops, k ∈ ((readSheet s).iloc 39 46).columns.map Prod.fst) ↔
      ∀ k ∈ drops, k + 1 ≤ s.width := by
    rw [show cols drops = drops.map Key.unnamed from rfl, List.forall_mem_map]
    exact forall₂_congr fun k _ => unnamed_mem hb k
  rw [h1]
  simp only [List.not_mem_nil, false_implies, implies_true, true_and]

theorem leftDrops_iff {w : ℕ} : (∀ k ∈ leftDrops, k + 1 ≤ w) ↔ 19 ≤ w := by
  unfold leftDrops
  simp only [List.forall_mem_cons, List.not_mem_nil, false_implies, implies_true, and_true]
  omega

theorem rightDrops_iff {w : ℕ} : (∀ k ∈ rightDrops, k + 1 ≤ w) ↔ 19 ≤ w := by
  unfold rightDrops
  simp only [List.forall_mem_cons, List.not_mem_nil, false_implies, implies_true, and_true]
  omega

theorem heatPump_iff (hb : BlankHeader s) : (∃ d, heatPump (readSheet s) = .ok d) ↔ Fits s 19 26 := by
  unfold heatPump
  simp only [ok_bind, ok_pure, and_true, exists_and_right, hpBasics_iff hb, rhi_iff hb, hpSimple_iff hb,
    lorentz_iff hb, regressionTempUpper_iff hb (show 3 ≠ 18 by decide),
    regressionTempUpper_iff hb (show 7 ≠ 18 by decide), regressionTempLower_iff hb (show 3 ≠ 18 by decide),
    regressionTempLower_iff hb (show 7 ≠ 18 by decide), regressionUpper_iff hb, regressionLower_iff hb,
    leftDrops_iff, rightDrops_iff]
  unfold Fits
  omega

/-- Reading the workbook succeeds when every method does. -/
theorem readInputs_iff {wb : Pandas.Workbook} : (∃ c, readInputs wb = .ok c) ↔
    (∃ s, wb "Parametric" = some s ∧ ∃ d, parametric (readSheet s) = .ok d) ∧
    (∃ s, wb "Controller" = some s ∧ ∃ d, controller (readSheet s) = .ok d) ∧
    (∃ s, wb "Weather resources" = some s ∧ ∃ d, resources (readSheet s) = .ok d) ∧
    (∃ s, wb "Demand gen" = some s ∧ ∃ d, demands (readSheet s) = .ok d) ∧
    (∃ s, wb "Demand input" = some s ∧ ∃ d, demandInput (readSheet s) = .ok d) ∧
    (∃ s, wb "PV inputs" = some s ∧ (∃ d, pvLocation (readSheet s) = .ok d) ∧
      ∃ d, pvSpec (readSheet s) = .ok d) ∧
    (∃ s, wb "Wind inputs" = some s ∧ (∃ d, windDatabase (readSheet s) = .ok d) ∧
      (∃ d, windUser (readSheet s) = .ok d) ∧ ∃ d, powerCurve (readSheet s) = .ok d) ∧
    (∃ s, wb "Wind farm" = some s ∧ ∃ d, windFarm (readSheet s) = .ok d) ∧
    (∃ s, wb "Electrical storage" = some s ∧ ∃ d, electricalStorage (readSheet s) = .ok d) ∧
    (∃ s, wb "Grid" = some s ∧ ∃ d, grid (readSheet s) = .ok d) ∧
    (∃ s, wb "Aux heat" = some s ∧ ∃ d, aux (readSheet s) = .ok d) ∧
    (∃ s, wb "Thermal storage" = some s ∧ ∃ d, thermalStorage (readSheet s) = .ok d) ∧
    (∃ s, wb "Heat pump" = some s ∧ ∃ d, heatPump (readSheet s) = .ok d) := by
  constructor
  · rintro ⟨c, hc⟩
    obtain ⟨⟨s1, w1, h1⟩, ⟨s2, w2, h2⟩, ⟨s3, w3, h3⟩, ⟨s4, w4, h4⟩, ⟨s5, w5, h5⟩, ⟨s6, w6, h6, h6'⟩,
      ⟨s7, w7, h7, h7', h7''⟩, ⟨s8, w8, h8⟩, ⟨s9, w9, h9⟩, ⟨s10, w10, h10⟩, ⟨s11, w11, h11⟩,
      ⟨s12, w12, h12⟩, ⟨s13, w13, h13⟩⟩ := readInputs_ok hc
    exact ⟨⟨s1, w1, _, h1⟩, ⟨s2, w2, _, h2⟩, ⟨s3, w3, _, h3⟩, ⟨s4, w4, _, h4⟩, ⟨s5, w5, _, h5⟩,
      ⟨s6, w6, ⟨_, h6⟩, _, h6'⟩, ⟨s7, w7, ⟨_, h7⟩, ⟨_, h7'⟩, _, h7''⟩, ⟨s8, w8, _, h8⟩, ⟨s9, w9, _, h9⟩,
      ⟨s10, w10, _, h10⟩, ⟨s11, w11, _, h11⟩, ⟨s12, w12, _, h12⟩, ⟨s13, w13, _, h13⟩⟩
  · rintro ⟨⟨s1, w1, _, h1⟩, ⟨s2, w2, _, h2⟩, ⟨s3, w3, _, h3⟩, ⟨s4, w4, ⟨_, _⟩, h4⟩,
      ⟨s5, w5, ⟨_, _⟩, h5⟩, ⟨s6, w6, ⟨_, h6⟩, _, h6'⟩, ⟨s7, w7, ⟨_, h7⟩, ⟨_, h7'⟩, _, h7''⟩,
      ⟨s8, w8, ⟨_, _⟩, h8⟩, ⟨s9, w9, _, h9⟩, ⟨s10, w10, _, h10⟩, ⟨s11, w11, ⟨_, _, _⟩, h11⟩,
      ⟨s12, w12, _, h12⟩, ⟨s13, w13, _, h13⟩⟩
    unfold readInputs
    have sheet : ∀ {n s}, wb n = some s → sheetOf wb n = .ok (readSheet s) := by
      intro n s h
      unfold sheetOf
      rw [h]
    rw [sheet w1, sheet w2, sheet w3, sheet w4, sheet w5, sheet w6, sheet w7, sheet w8, sheet w9, sheet w10,
      sheet w11, sheet w12, sheet w13]
    simp only [ok_bind, ok_pure, Except.ok.injEq, exists_eq_left', h1, h2, h3, h4, h5, h6, h6',
      h7, h7', h7'', h8, h9, h10, h11, h12, h13]

end Workbook
end Verif
