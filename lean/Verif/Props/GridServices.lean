import Verif.Props.Workbook
import Verif.Lemmas.Sample

/-! # The table of grid services (C91, continued) -/

set_option autoImplicit false

namespace Verif
open Pandas DataFrame Workbook Simulation InputReader FixedOrder Spec

/-- In row `row` of the sheet the columns H, I and J are filled, and so is every column from X on. -/
def Spec.ServicesFilled (s : Sheet) (row : ℕ) : Prop :=
  ∀ k, k < s.width → k ∈ [7, 8, 9] ∨ 23 ≤ k → s.cell row k ≠ none

theorem lookup_keep (l : List (Key × ℕ)) (q : Key × ℕ → Bool) (k : Key) (i : ℕ) (hu : ∀ p ∈ l, p.1 = k → p.2 = i) :
    (l.filter q).lookup k = if q (k, i) then l.lookup k else none := by
  induction l with
  | nil => simp
  | cons p l ih =>
    obtain ⟨a, b⟩ := p
    have ih := ih fun p hp => hu p (List.mem_cons_of_mem _ hp)
    by_cases hk : k = a
    · have hb : b = i := hu (a, b) (List.mem_cons_self ..) hk.symm
      subst hk hb
      by_cases hq : q (k, b) = true
      · rw [List.filter_cons_of_pos hq, if_pos hq, List.lookup_cons, List.lookup_cons]
        simp
      · rw [List.filter_cons_of_neg hq, ih, if_neg hq, if_neg hq]
    · have hne := beq_eq_false_iff_ne.mpr hk
      by_cases hq : q (a, b) = true
      · rw [List.filter_cons_of_pos hq, List.lookup_cons, List.lookup_cons, hne, ih]
      · rw [List.filter_cons_of_neg hq, List.lookup_cons, hne, ih]

/-- C91, grid services: the entries of rows 12 to 14 of the columns H, I and J of the sheet "Grid" are found under the
names of the service and of the entry if the row is filled; if it is not, there is no such row. -/
theorem C91_grid_services {wb : Pandas.Workbook} {c : Container} {s : Sheet} (ht : TopRowsEmpty wb)
    (h : readInputs wb = .ok c) (hw : wb "Grid" = some s) {service entry : String} {letter : Char} {row : ℕ}
    (hs : (service, letter) ∈ [("STOR", 'H'), ("FFR", 'I'), ("capacity_market", 'J')])
    (he : (entry, row) ∈ [("notice_period", 12), ("payment", 13), ("frequency", 14)]) :
    (ServicesFilled s row →
      c.grid.gridServicesSeries.get (.named service) (.named entry) = .ok (excel wb "Grid" letter row)) ∧
    (¬ ServicesFilled s row → c.grid.gridServicesSeries.get (.named service) (.named entry) = .error .keyError) := by
  obtain ⟨s', hw', hf⟩ := (readInputs_ok h).grid
  cases Option.some.inj (hw.symm.trans hw')
  have hb : BlankHeader s := ht _ _ hw
  rw [excel_eq hw]
  generalize c.grid = g at hf ⊢
  unfold Workbook.grid at hf
  simp only [except_bind_ok, except_pure_ok] at hf
  obtain ⟨v1, h1, v2, h2, v3, h3, v4, h4, f, hf, s1, hs1, s2, hs2, v5, h5, v6, h6, p, hp, v7, h7, wm, hwm,
    bm, hbm, pp, hpp, v8, h8, v9, h9, v10, h10, v11, h11, v12, h12, v13, h13, rfl⟩ := hf
  dsimp only
  obtain ⟨i1, c1, e1, -, d1⟩ := drop_ok hf
  obtain ⟨i2, c2, e2, -, -⟩ := drop_ok hs1
  obtain ⟨i3, c3, e3, d3, -⟩ := drop_ok hs2
  -- how far the sheet goes
  have hwidth : 22 < s.width := by
    have := d1 (.unnamed 22) (by decide)
    rw [readSheet_columns hb] at this
    simpa using this
  have hheight : 39 < s.height - 1 := by
    have := d3 (.pos 39) (by decide)
    rw [i2, i1] at this
    simp only [readSheet, List.mem_map, List.mem_filter, List.mem_range, Prod.exists] at this
    obtain ⟨a, b, ⟨⟨⟨i, hi, e⟩, -⟩, -⟩, rfl⟩ := this
    cases e
    exact hi
  -- the columns
  have hcols : ∀ k, k ∈ [7, 8, 9] ∨ 23 ≤ k → s2.columns.lookup (.unnamed k) = if k < s.width then some k else none := by
    intro k hk
    rw [c3, lookup_filter, if_neg (by simp), c2, lookup_filter, if_neg, c1, lookup_filter, if_neg, readSheet_lookup hb]
    · simp only [cols, List.map_cons, List.map_nil, List.mem_cons, List.not_mem_nil, or_false, Key.unnamed.injEq] at hk ⊢
      omega
    · simp only [cols, List.map_cons, List.map_nil, List.mem_cons, List.not_mem_nil, or_false, Key.unnamed.injEq] at hk ⊢
      omega
  have hplain : Plain s2.columns := by
    rw [c3, c2, c1]
    exact ((plain_columns hb).filter _ |>.filter _).filter _
  have hmem : ∀ p ∈ s2.columns, p.2 < s.width ∧ (p.2 ∈ [7, 8, 9] ∨ 23 ≤ p.2) := by
    intro p hp
    rw [c3, c2, c1, readSheet_columns hb] at hp
    simp only [List.mem_map, List.mem_filter, List.mem_range, cols, List.map_cons, List.map_nil, List.mem_cons,
      List.not_mem_nil, or_false, decide_eq_true_eq, not_or] at hp
    obtain ⟨⟨⟨⟨k, hk, rfl⟩, q1⟩, q2⟩, -⟩ := hp
    simp only [Key.unnamed.injEq] at q1 q2
    refine ⟨hk, ?_⟩
    simp only [List.mem_cons, List.not_mem_nil, or_false]
    omega
  -- the rows
  have hrow : ∀ r, r ∈ [10, 11, 12] → s2.index.lookup (.pos r) = some (r + 2) := by
    intro r hr
    rw [i3, lookup_filter, if_neg, i2, lookup_filter, if_neg, i1, lookup_filter, if_neg (by simp), readSheet_index, if_pos]
    all_goals
      simp only [nums, List.map_cons, List.map_nil, List.mem_cons, List.not_mem_nil, or_false, Key.pos.injEq] at hr ⊢
      omega
  have huni : ∀ r, ∀ p ∈ s2.index, p.1 = .pos r → p.2 = r + 2 := by
    intro r p hp e
    rw [i3, i2, i1] at hp
    have hp := (List.mem_filter.mp (List.mem_filter.mp (List.mem_filter.mp hp).1).1).1
    simp only [readSheet, List.mem_map] at hp
    obtain ⟨i, -, rfl⟩ := hp
    cases e
    rfl
  have hplainI : Plain s2.index := by
    rw [i3, i2, i1]
    exact ((plain_index s).filter _ |>.filter _).filter _
  have hcell : s2.cell = s.cell := by rw [e3, e2, e1]; rfl
  have hfull : ∀ r, (s2.columns.all fun c => (s2.cell (r + 2) c.2).isSome) = true ↔ ServicesFilled s (r + 2) := by
    intro r
    rw [List.all_eq_true, hcell]
    constructor
    · intro q k k1 k2
      have := q _ (lookup_mem ((hcols k k2).trans (if_pos k1)))
      exact Option.isSome_iff_ne_none.mp this
    · intro q p hp
      obtain ⟨k1, k2⟩ := hmem p hp
      exact Option.isSome_iff_ne_none.mpr (q p.2 k1 k2)
  have hC : ((s2.dropnaRows.rename (names [(7, "STOR"), (8, "FFR"), (9, "capacity_market")])).renameIndex
      (posNames [(10, "notice_period"), (11, "payment"), (12, "frequency")])).columns.lookup (.named service) =
      some (letter.toNat - 'A'.toNat) := by
    show (s2.columns.map _).lookup _ = _
    simp only [List.mem_cons, List.not_mem_nil, or_false, Prod.mk.injEq] at hs
    rcases hs with ⟨rfl, rfl⟩ | ⟨rfl, rfl⟩ | ⟨rfl, rfl⟩
    · rw [lookup_relabel (k := .unnamed 7) _ (by decide) (by decide) (fun p hp => hplain p hp _), hcols 7 (by decide), if_pos (by omega)]
      rfl
    · rw [lookup_relabel (k := .unnamed 8) _ (by decide) (by decide) (fun p hp => hplain p hp _), hcols 8 (by decide), if_pos (by omega)]
      rfl
    · rw [lookup_relabel (k := .unnamed 9) _ (by decide) (by decide) (fun p hp => hplain p hp _), hcols 9 (by decide), if_pos (by omega)]
      rfl
  have hI : ∀ r, r ∈ [10, 11, 12] → s2.dropnaRows.index.lookup (.pos r) =
      if (s2.columns.all fun c => (s2.cell (r + 2) c.2).isSome) = true then some (r + 2) else none := by
    intro r hr
    show (s2.index.filter _).lookup _ = _
    rw [lookup_keep _ _ _ (r + 2) (huni r), hrow r hr]
  have hR : ((s2.dropnaRows.rename (names [(7, "STOR"), (8, "FFR"), (9, "capacity_market")])).renameIndex
      (posNames [(10, "notice_period"), (11, "payment"), (12, "frequency")])).index.lookup (.named entry) =
      if (s2.columns.all fun c => (s2.cell row c.2).isSome) = true then some row else none := by
    show (s2.dropnaRows.index.map _).lookup _ = _
    have hq : Plain s2.dropnaRows.index := hplainI.filter _
    simp only [List.mem_cons, List.not_mem_nil, or_false, Prod.mk.injEq] at he
    rcases he with ⟨rfl, rfl⟩ | ⟨rfl, rfl⟩ | ⟨rfl, rfl⟩
    · rw [lookup_relabel (k := .pos 10) _ (by decide) (by decide) (fun p hp => hq p hp _)]
      exact hI 10 (by decide)
    · rw [lookup_relabel (k := .pos 11) _ (by decide) (by decide) (fun p hp => hq p hp _)]
      exact hI 11 (by decide)
    · rw [lookup_relabel (k := .pos 12) _ (by decide) (by decide) (fun p hp => hq p hp _)]
      exact hI 12 (by decide)
  have hfull' : (s2.columns.all fun c => (s2.cell row c.2).isSome) = true ↔ ServicesFilled s row := by
    simp only [List.mem_cons, List.not_mem_nil, or_false, Prod.mk.injEq] at he
    rcases he with ⟨-, rfl⟩ | ⟨-, rfl⟩ | ⟨-, rfl⟩
    · exact hfull 10
    · exact hfull 11
    · exact hfull 12
  unfold DataFrame.get
  rw [hC, hR]
  constructor
  · intro q
    rw [if_pos (hfull'.mpr q)]
    show Except.ok (s2.cell row _) = _
    rw [hcell]
  · intro q
    rw [if_neg (fun c => q (hfull'.mp c))]

example : ∃ c, readInputs (Sample.book "Simple") = .ok c ∧
    c.grid.gridServicesSeries.get (.named "FFR") (.named "payment") = .ok (some (.num 3)) := by
  obtain ⟨c, hc⟩ := (C92_readable (Sample.top "Simple")).mpr (Sample.readable "Simple")
  refine ⟨c, hc, ?_⟩
  have hw : Sample.book "Simple" "Grid" =
      some (Sample.sheet 23 42 (Sample.put (Sample.all 3) [((5, 3), Sample.text "Flat rates")])) := rfl
  rw [(C91_grid_services (letter := 'I') (row := 13) (Sample.top "Simple") hc hw (by decide) (by decide)).1 (by
    intro k _ _ e
    have : Sample.put (Sample.all 3) [((5, 3), Sample.text "Flat rates")] 13 k = some (.num 3) := by
      unfold Sample.put
      rw [List.lookup_cons, beq_eq_false_iff_ne.mpr (by intro q; cases q)]
      rfl
    rw [show (Sample.sheet 23 42 (Sample.put (Sample.all 3) [((5, 3), Sample.text "Flat rates")])).cell 13 k =
      Sample.put (Sample.all 3) [((5, 3), Sample.text "Flat rates")] 13 k from rfl, this] at e
    cases e)]
  rfl

end Verif
