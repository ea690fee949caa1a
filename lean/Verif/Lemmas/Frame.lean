import Verif.Model.Workbook
import Mathlib.Data.List.Basic

/-! # Lemmas about data frames -/

set_option autoImplicit false

namespace Verif
namespace Pandas
open DataFrame

/-! ## Looking up labels -/

theorem lookup_filter (l : List (Key × ℕ)) (ks : List Key) (k : Key) :
    (l.filter (fun p => p.1 ∉ ks)).lookup k = if k ∈ ks then none else l.lookup k := by
  induction l with
  | nil => simp
  | cons p l ih =>
    obtain ⟨a, b⟩ := p
    by_cases ha : a ∈ ks
    · rw [List.filter_cons_of_neg (by simpa using ha), ih]
      by_cases hk : k ∈ ks
      · simp [hk]
      · have : k ≠ a := fun h => hk (h ▸ ha)
        simp [hk, List.lookup_cons, beq_eq_false_iff_ne.mpr this]
    · rw [List.filter_cons_of_pos (by simpa using ha), List.lookup_cons, List.lookup_cons, ih]
      by_cases hk : k = a
      · subst hk
        simp [ha]
      · simp [beq_eq_false_iff_ne.mpr hk]

theorem lookup_mem {l : List (Key × ℕ)} {k : Key} {j : ℕ} (h : l.lookup k = some j) : (k, j) ∈ l := by
  induction l with
  | nil => simp at h
  | cons p l ih =>
    obtain ⟨a, b⟩ := p
    rw [List.lookup_cons] at h
    by_cases hk : k = a
    · subst hk
      simp at h
      simp [h]
    · rw [beq_eq_false_iff_ne.mpr hk] at h
      exact List.mem_cons_of_mem _ (ih h)

/-- A renamed column is found under its new name. -/
theorem lookup_relabel {m : List (Key × String)} {k : Key} {s : String} (l : List (Key × ℕ))
    (hm : m.lookup k = some s) (hu : ∀ p ∈ m, p.2 = s → p.1 = k) (hn : ∀ p ∈ l, p.1 ≠ .named s) :
    (l.map (fun p => (relabel m p.1, p.2))).lookup (.named s) = l.lookup k := by
  have hkey : ∀ a : Key, a ≠ .named s → (relabel m a = .named s ↔ a = k) := by
    intro a ha
    unfold relabel
    constructor
    · intro h
      cases hl : m.lookup a with
      | none => rw [hl] at h; exact absurd h ha
      | some t =>
        rw [hl] at h
        simp only [Key.named.injEq] at h
        subst h
        have hmem : (a, t) ∈ m := by
          clear hn hm hu
          induction m with
          | nil => simp at hl
          | cons p m ih =>
            obtain ⟨x, y⟩ := p
            rw [List.lookup_cons] at hl
            by_cases hx : a = x
            · subst hx
              simp at hl
              simp [hl]
            · rw [beq_eq_false_iff_ne.mpr hx] at hl
              exact List.mem_cons_of_mem _ (ih hl)
        exact hu _ hmem rfl
    · rintro rfl
      rw [hm]
  induction l with
  | nil => rfl
  | cons p l ih =>
    obtain ⟨a, b⟩ := p
    rw [List.map_cons, List.lookup_cons, List.lookup_cons,
      ih (fun q hq => hn q (List.mem_cons_of_mem _ hq))]
    have ha : a ≠ .named s := hn (a, b) (List.mem_cons_self ..)
    by_cases hk : a = k
    · have h1 := (hkey a ha).mpr hk
      rw [h1, ← hk]
      simp
    · have h1 : ¬ relabel m a = .named s := fun h => hk ((hkey a ha).mp h)
      rw [beq_eq_false_iff_ne.mpr (fun h => h1 h.symm), beq_eq_false_iff_ne.mpr (fun h => hk h.symm)]

theorem number_length (n : ℕ) (l : List (Key × ℕ)) : (number n l).length = l.length := by
  induction l generalizing n with
  | nil => rfl
  | cons p l ih => simp [number, ih]

theorem number_map_snd (n : ℕ) (l : List (Key × ℕ)) : (number n l).map Prod.snd = l.map Prod.snd := by
  induction l generalizing n with
  | nil => rfl
  | cons p l ih => simp [number, ih]

theorem lookup_number (l : List (Key × ℕ)) (n i : ℕ) :
    (number n l).lookup (.pos (n + i)) = (l[i]?).map Prod.snd := by
  induction l generalizing n i with
  | nil => rfl
  | cons p l ih =>
    rw [number, List.lookup_cons]
    cases i with
    | zero => simp
    | succ i =>
      have : (Key.pos (n + (i + 1)) == Key.pos n) = false := by
        rw [beq_eq_false_iff_ne]
        simp
      rw [this]
      have h2 : n + (i + 1) = (n + 1) + i := by omega
      rw [h2]
      simpa using ih (n + 1) i

theorem lookup_number_zero (l : List (Key × ℕ)) (i : ℕ) :
    (number 0 l).lookup (.pos i) = (l[i]?).map Prod.snd := by
  simpa using lookup_number l 0 i

theorem number_getElem? (l : List (Key × ℕ)) (n i : ℕ) :
    (number n l)[i]? = (l[i]?).map (fun p => (.pos (n + i), p.2)) := by
  induction l generalizing n i with
  | nil => simp [number]
  | cons p l ih =>
    cases i with
    | zero => simp [number]
    | succ i =>
      simp only [number, List.getElem?_cons_succ, ih]
      have : n + 1 + i = n + (i + 1) := by omega
      rw [this]

/-! ## A sheet just read -/

/-- Looking up in a list of labelled positions made from a range. -/
theorem lookup_range (n : ℕ) (key : ℕ → Key) (val : ℕ → ℕ) (hinj : ∀ i j, key i = key j → i = j) (i : ℕ) :
    ((List.range n).map (fun i => (key i, val i))).lookup (key i) = if i < n then some (val i) else none := by
  induction n with
  | zero => simp
  | succ n ih =>
    rw [List.range_succ, List.map_append, List.lookup_append, ih]
    by_cases h : i < n
    · simp [h, Nat.lt_succ_of_lt h]
    · by_cases hn : i = n
      · subst hn
        simp
      · have h2 : ¬ i < n + 1 := by omega
        have h3 : (key i == key n) = false := by
          rw [beq_eq_false_iff_ne]
          exact fun e => hn (hinj _ _ e)
        simp [h, h2, h3, List.lookup_cons]

theorem readSheet_index (s : Sheet) (i : ℕ) :
    (readSheet s).index.lookup (.pos i) = if i < s.height - 1 then some (i + 2) else none :=
  lookup_range _ (fun i => Key.pos i) (fun i => i + 2) (by intro i j h; simpa using h) i

/-- A column found under the label of an empty header cell is that column. -/
theorem readSheet_column {s : Sheet} {k j : ℕ} (h : (readSheet s).columns.lookup (.unnamed k) = some j) :
    j = k := by
  have hm := lookup_mem h
  simp only [readSheet, List.mem_map, Prod.mk.injEq] at hm
  obtain ⟨a, _, hk, rfl⟩ := hm
  unfold headerKey at hk
  split at hk
  · simpa using hk
  · cases hk
  · cases hk

/-- The row above the data is empty. -/
def BlankHeader (s : Sheet) : Prop := ∀ k, s.cell 1 k = none

theorem readSheet_columns {s : Sheet} (h : BlankHeader s) :
    (readSheet s).columns = (List.range s.width).map (fun k => (.unnamed k, k)) := by
  unfold readSheet
  dsimp only
  apply List.map_congr_left
  intro k _
  rw [h k]
  rfl

theorem readSheet_lookup {s : Sheet} (h : BlankHeader s) (k : ℕ) :
    (readSheet s).columns.lookup (.unnamed k) = if k < s.width then some k else none := by
  rw [readSheet_columns h]
  exact lookup_range _ (fun i => Key.unnamed i) (fun i => i) (by intro i j h; simpa using h) k

/-- Labels that are not text. -/
def Plain (l : List (Key × ℕ)) : Prop := ∀ p ∈ l, ∀ s, p.1 ≠ .named s

theorem Plain.filter {l : List (Key × ℕ)} (h : Plain l) (q : Key × ℕ → Bool) : Plain (l.filter q) :=
  fun p hp => h p (List.mem_filter.mp hp).1

theorem plain_number (n : ℕ) (l : List (Key × ℕ)) : Plain (number n l) := by
  induction l generalizing n with
  | nil => intro p hp; cases hp
  | cons q l ih =>
    intro p hp s
    rw [number, List.mem_cons] at hp
    rcases hp with rfl | hp
    · simp
    · exact ih (n + 1) p hp s

theorem plain_columns {s : Sheet} (h : BlankHeader s) : Plain (readSheet s).columns := by
  rw [readSheet_columns h]
  intro p hp s
  simp only [List.mem_map] at hp
  obtain ⟨a, _, rfl⟩ := hp
  simp

theorem plain_index (s : Sheet) : Plain (readSheet s).index := by
  intro p hp t
  simp only [readSheet, List.mem_map] at hp
  obtain ⟨a, _, rfl⟩ := hp
  simp

theorem plain_take_drop {l : List (Key × ℕ)} (h : Plain l) (a b : ℕ) : Plain ((l.drop a).take b) :=
  fun p hp => h p (List.mem_of_mem_drop (List.mem_of_mem_take hp))

/-! ## Single cells -/

theorem get_ok {f : DataFrame} {c r : Key} {v : Value} (h : f.get c r = .ok v) :
    ∃ i j, f.columns.lookup c = some j ∧ f.index.lookup r = some i ∧ v = f.cell i j := by
  unfold DataFrame.get at h
  split at h
  · cases h
  · rename_i j hj
    split at h
    · cases h
    · rename_i i hi
      exact ⟨i, j, hj, hi, (Except.ok.inj h).symm⟩

theorem get_eq {f : DataFrame} {c r : Key} {i j : ℕ} (hc : f.columns.lookup c = some j)
    (hr : f.index.lookup r = some i) : f.get c r = .ok (f.cell i j) := by
  unfold DataFrame.get
  rw [hc]
  dsimp only
  rw [hr]

/-- `df['Unnamed: c'][r]` of a sheet is the cell in column `c`, two rows below `r`. -/
theorem at_ok {s : Sheet} {c r : ℕ} {v : Value} (h : Workbook.at' (readSheet s) c r = .ok v) :
    v = s.cell (r + 2) c := by
  obtain ⟨i, j, hj, hi, rfl⟩ := get_ok h
  rw [readSheet_index] at hi
  split at hi
  · cases Option.some.inj hi
    rw [readSheet_column hj]
    rfl
  · cases hi

theorem at_total {s : Sheet} (hb : BlankHeader s) {c r : ℕ} (hc : c < s.width) (hr : r < s.height - 1) :
    Workbook.at' (readSheet s) c r = .ok (s.cell (r + 2) c) := by
  unfold Workbook.at'
  rw [get_eq (j := c) (i := r + 2) (by rw [readSheet_lookup hb, if_pos hc])
    (by rw [readSheet_index, if_pos hr])]
  rfl

theorem drop_ok {f g : DataFrame} {rows cols : List Key} (h : f.drop rows cols = .ok g) :
    g.index = f.index.filter (fun p => p.1 ∉ rows) ∧
    g.columns = f.columns.filter (fun p => p.1 ∉ cols) ∧ g.cell = f.cell ∧
    (∀ r ∈ rows, r ∈ f.index.map Prod.fst) ∧ (∀ c ∈ cols, c ∈ f.columns.map Prod.fst) := by
  unfold DataFrame.drop at h
  split at h
  · rename_i hh
    cases Except.ok.inj h
    exact ⟨rfl, rfl, rfl, hh.1, hh.2⟩
  · cases h

/-- The first entry that is kept. -/
theorem filter_head {l : List (Key × ℕ)} {q : Key × ℕ → Bool} {k : ℕ} {p : Key × ℕ}
    (hk : l[k]? = some p) (hp : q p = true) (hj : ∀ j < k, ∀ x, l[j]? = some x → q x = false) :
    (l.filter q)[0]? = some p := by
  induction l generalizing k with
  | nil => simp at hk
  | cons a l ih =>
    cases k with
    | zero =>
      simp only [List.getElem?_cons_zero, Option.some.injEq] at hk
      subst hk
      rw [List.filter_cons_of_pos hp]
      rfl
    | succ k =>
      have ha : q a = false := hj 0 (Nat.succ_pos k) a rfl
      rw [List.filter_cons_of_neg (by simp [ha])]
      refine ih (k := k) (by simpa using hk) ?_
      intro j hjk x hx
      exact hj (j + 1) (Nat.succ_lt_succ hjk) x (by simpa using hx)

/-- Rows left after the first `m` are dropped, by position. -/
theorem filter_prefix (n m : ℕ) (key : ℕ → Key) (val : ℕ → ℕ) (ks : List Key)
    (hks : ∀ i < n, (key i ∈ ks ↔ i < m)) :
    ((List.range n).map (fun i => (key i, val i))).filter (fun p => p.1 ∉ ks) =
      (List.range (n - m)).map (fun i => (key (i + m), val (i + m))) := by
  induction n with
  | zero => simp
  | succ n ih =>
    rw [List.range_succ, List.map_append, List.filter_append, ih (fun i hi => hks i (by omega))]
    by_cases hm : n < m
    · have h1 : key n ∈ ks := (hks n (by omega)).mpr hm
      have h2 : n + 1 - m = 0 := by omega
      have h3 : n - m = 0 := by omega
      simp [h1, h2, h3]
    · have h1 : key n ∉ ks := fun h => hm ((hks n (by omega)).mp h)
      have h2 : n + 1 - m = (n - m) + 1 := by omega
      have h3 : n - m + m = n := by omega
      rw [h2, List.range_succ, List.map_append]
      simp [h1, h3]

end Pandas
end Verif
