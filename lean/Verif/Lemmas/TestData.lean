import Verif.Lemmas.Simulation
import Mathlib.Tactic.IntervalCases

/-! # Lemmas about the test data of the heat pump -/

set_option autoImplicit false

namespace Verif
namespace Simulation
open Pandas DataFrame Workbook InputReader FixedOrder Enums

/-- The labels of a test table. -/
def tableKeys : List Key :=
  [.named "ambient_temp", .named "COSP", .named "duty", .named "capacity_percentage"]

/-- The columns of the sheet beyond the nineteen of the template. -/
def extra (s : Sheet) : List (Key × ℕ) := (List.range (s.width - 19)).map (fun j => (.unnamed (19 + j), 19 + j))

theorem extra_nil {s : Sheet} (hw : s.width = 19) : extra s = [] := by
  unfold extra
  rw [hw]
  rfl

/-- A test table: four columns from `k`, then whatever the sheet has beyond its nineteen columns, and `n`
rows from `a`. -/
structure TableAt (s : Sheet) (f : DataFrame) (k a n : ℕ) : Prop where
  columns : f.columns = [(.named "ambient_temp", k), (.named "COSP", k + 1), (.named "duty", k + 2),
    (.named "capacity_percentage", k + 3)] ++ extra s
  rows : f.index.map Prod.snd = (List.range n).map (· + a)
  cell : f.cell = s.cell

theorem sheet_columns {s : Sheet} (hb : BlankHeader s) (hw : 19 ≤ s.width) :
    (readSheet s).columns = (List.range 19).map (fun k => (.unnamed k, k)) ++ extra s := by
  rw [readSheet_columns hb]
  conv_lhs => rw [← Nat.add_sub_cancel' hw, List.range_add, List.map_append, List.map_map]
  rfl

/-- Dropping and renaming among the first nineteen columns leaves the others alone. -/
theorem extra_kept {s : Sheet} {drops : List ℕ} {m : List (ℕ × String)} (hd : ∀ d ∈ drops, d < 19)
    (hm : ∀ p ∈ m, p.1 < 19) :
    ((extra s).filter (fun p => p.1 ∉ cols drops)).map (fun p => (relabel (names m) p.1, p.2)) = extra s := by
  have h1 : (extra s).filter (fun p => p.1 ∉ cols drops) = extra s := by
    apply List.filter_eq_self.mpr
    intro p hp
    obtain ⟨j, _, rfl⟩ := List.mem_map.mp hp
    simp only [decide_eq_true_eq]
    intro hmem
    obtain ⟨d, hdm, hde⟩ := List.mem_map.mp hmem
    have := hd d hdm
    cases hde
    omega
  rw [h1]
  conv_rhs => rw [← List.map_id (extra s)]
  apply List.map_congr_left
  intro p hp
  obtain ⟨j, _, rfl⟩ := List.mem_map.mp hp
  have hl : (names m).lookup (Key.unnamed (19 + j)) = none := by
    rw [List.lookup_eq_none_iff]
    intro q hq
    obtain ⟨i, hi, rfl⟩ := List.mem_map.mp hq
    have := hm i hi
    simp only [bne_iff_ne, ne_eq, Key.unnamed.injEq]
    omega
  unfold relabel
  rw [hl]
  rfl

theorem table_columns {s : Sheet} {drops : List ℕ} {m : List (ℕ × String)} {l : List (Key × ℕ)}
    (hb : BlankHeader s) (hw : 19 ≤ s.width) (hd : ∀ d ∈ drops, d < 19) (hm : ∀ p ∈ m, p.1 < 19)
    (hcols : (((List.range 19).map (fun k => (Key.unnamed k, k))).filter (fun p => p.1 ∉ cols drops)).map
      (fun p => (relabel (names m) p.1, p.2)) = l) :
    ((readSheet s).columns.filter (fun p => p.1 ∉ cols drops)).map (fun p => (relabel (names m) p.1, p.2)) =
      l ++ extra s := by
  rw [sheet_columns hb hw, List.filter_append, List.map_append, hcols, extra_kept hd hm]

theorem upper_table {s : Sheet} {f : DataFrame} {drops : List ℕ} {m : List (ℕ × String)} (k : ℕ)
    (hb : BlankHeader s) (hw : 19 ≤ s.width) (hh : 26 ≤ s.height) (hd : ∀ d ∈ drops, d < 19)
    (hm : ∀ p ∈ m, p.1 < 19)
    (hcols : (((List.range 19).map (fun k => (Key.unnamed k, k))).filter (fun p => p.1 ∉ cols drops)).map
      (fun p => (relabel (names m) p.1, p.2)) =
      [(.named "ambient_temp", k), (.named "COSP", k + 1), (.named "duty", k + 2),
        (.named "capacity_percentage", k + 3)])
    (h : regressionUpper (readSheet s) drops m = .ok f) : TableAt s f k 27 (min 8 (s.height - 26)) := by
  unfold regressionUpper at h
  simp only [except_bind_ok, except_pure_ok] at h
  obtain ⟨g, hg, g', hg', rfl⟩ := h
  obtain ⟨hi, hc, hcell, _, _⟩ := drop_ok hg
  obtain ⟨hi', hc', hcell', _, _⟩ := drop_ok hg'
  refine ⟨?_, ?_, ?_⟩
  · rw [← table_columns hb hw hd hm hcols]
    show g'.columns = _
    rw [hc']
    simp only [List.not_mem_nil, not_false_eq_true, decide_true, List.filter_true]
    show g.columns.map _ = _
    rw [hc]
    rfl
  · show (number 0 g'.index).map Prod.snd = _
    rw [number_map_snd, hi']
    show (g.index.filter _).map Prod.snd = _
    rw [hi]
    simp only [List.not_mem_nil, not_false_eq_true, decide_true, List.filter_true]
    rw [iloc_index]
    have e1 : min (33 - 23) (s.height - 1 - 23) = min 8 (s.height - 26) + 2 := by omega
    rw [e1]
    have e2 : min 8 (s.height - 26) ≤ 8 := Nat.min_le_left _ _
    generalize min 8 (s.height - 26) = n at e2 ⊢
    interval_cases n <;> decide
  · show g'.cell = _
    rw [hcell']
    show g.cell = _
    rw [hcell]
    rfl

theorem lower_table {s : Sheet} {f : DataFrame} {drops : List ℕ} {m : List (ℕ × String)} (k : ℕ)
    (hb : BlankHeader s) (hw : 19 ≤ s.width) (hd : ∀ d ∈ drops, d < 19) (hm : ∀ p ∈ m, p.1 < 19)
    (hcols : (((List.range 19).map (fun k => (Key.unnamed k, k))).filter (fun p => p.1 ∉ cols drops)).map
      (fun p => (relabel (names m) p.1, p.2)) =
      [(.named "ambient_temp", k), (.named "COSP", k + 1), (.named "duty", k + 2),
        (.named "capacity_percentage", k + 3)])
    (h : regressionLower (readSheet s) drops m = .ok f) : TableAt s f k 41 (min 7 (s.height - 40)) := by
  unfold regressionLower at h
  simp only [except_bind_ok, except_pure_ok] at h
  obtain ⟨g, hg, rfl⟩ := h
  obtain ⟨hi, hc, hcell, _, _⟩ := drop_ok hg
  refine ⟨?_, ?_, ?_⟩
  · rw [← table_columns hb hw hd hm hcols]
    show g.columns.map _ = _
    rw [hc]
    rfl
  · show (number 0 g.index).map Prod.snd = _
    rw [number_map_snd, hi]
    simp only [List.not_mem_nil, not_false_eq_true, decide_true, List.filter_true]
    rw [iloc_index]
    have e1 : min (46 - 39) (s.height - 1 - 39) = min 7 (s.height - 40) := by omega
    rw [e1]
    have e2 : min 7 (s.height - 40) ≤ 7 := Nat.min_le_left _ _
    generalize min 7 (s.height - 40) = n at e2 ⊢
    interval_cases n <;> decide
  · show g.cell = _
    rw [hcell]
    rfl

/-- The four tables of the sheet. -/
theorem tables {s : Sheet} {f1 f2 f3 f4 : DataFrame} (hb : BlankHeader s) (hw : 19 ≤ s.width)
    (hh : 26 ≤ s.height) (u1 : regressionUpper (readSheet s) leftDrops leftNames = .ok f1)
    (u2 : regressionUpper (readSheet s) rightDrops rightNames = .ok f2)
    (u3 : regressionLower (readSheet s) leftDrops leftNames = .ok f3)
    (u4 : regressionLower (readSheet s) rightDrops rightNames = .ok f4) :
    TableAt s f1 2 27 (min 8 (s.height - 26)) ∧ TableAt s f2 6 27 (min 8 (s.height - 26)) ∧
      TableAt s f3 2 41 (min 7 (s.height - 40)) ∧ TableAt s f4 6 41 (min 7 (s.height - 40)) :=
  ⟨upper_table 2 hb hw hh (by decide) (by decide) (by decide) u1,
    upper_table 6 hb hw hh (by decide) (by decide) (by decide) u2,
    lower_table 2 hb hw (by decide) (by decide) (by decide) u3,
    lower_table 6 hb hw (by decide) (by decide) (by decide) u4⟩

/-! ## Flow temperatures -/

theorem upper_temp {s : Sheet} {f : DataFrame} {k : ℕ} {v : Value} (hk : k = 3 ∨ k = 7)
    (h : regressionTempUpper (readSheet s) k = .ok f) (hv : zero f "flow_temp" = .ok v) :
    v = s.cell 23 k := by
  unfold regressionTempUpper at h
  simp only [except_bind_ok, except_pure_ok] at h
  obtain ⟨g, hg, g', hg', rfl⟩ := h
  obtain ⟨hi', hc', hcell', _, _⟩ := drop_ok hg'
  have hrow : (number 0 g.index).lookup (.pos 0) = some k := by
    rcases hk with rfl | rfl
    · exact transposed_zero 3 4 hg (readSheet_positions s) (by decide) (by decide) (by decide) (by decide)
    · exact transposed_zero 7 8 hg (readSheet_positions s) (by decide) (by decide) (by decide) (by decide)
  obtain ⟨_, hc, hcell, _, _⟩ := drop_ok hg
  obtain ⟨i, j, hj, hi, rfl⟩ := get_ok hv
  simp only [resetIndex, DataFrame.rename] at hi hj
  have hgi : g'.index = g.index := by rw [hi']; simp
  rw [hgi, hrow] at hi
  cases Option.some.inj hi
  have hplain : Plain g.columns := by
    rw [hc]
    exact Plain.filter (l := ((readSheet s).iloc 21 25).index) (plain_iloc s 21 25) _
  rw [hc', renamed_column _ (.pos 21) "flow_temp" hplain (by decide) (by decide) (by decide), hc] at hj
  simp only [List.not_mem_nil, not_false_eq_true, decide_true, List.filter_true] at hj
  have := (iloc_lookup (s := s) (a := 21) (b := 25) (r := 21) hj).1
  subst this
  show g'.cell _ _ = _
  rw [hcell', hcell]
  rfl

theorem lower_temp {s : Sheet} {f : DataFrame} {k : ℕ} {v : Value} (hk : k = 3 ∨ k = 7)
    (h : regressionTempLower (readSheet s) k = .ok f) (hv : zero f "flow_temp" = .ok v) :
    v = s.cell 36 k := by
  unfold regressionTempLower at h
  simp only [except_bind_ok, except_pure_ok] at h
  obtain ⟨g, hg, rfl⟩ := h
  have hrow : (number 0 g.index).lookup (.pos 0) = some k := by
    rcases hk with rfl | rfl
    · exact transposed_zero 3 4 hg (readSheet_positions s) (by decide) (by decide) (by decide) (by decide)
    · exact transposed_zero 7 8 hg (readSheet_positions s) (by decide) (by decide) (by decide) (by decide)
  obtain ⟨_, _, hcell, _, _⟩ := drop_ok hg
  obtain ⟨i, j, hj, hi, rfl⟩ := get_ok hv
  simp only [resetIndex, DataFrame.rename] at hi
  rw [hrow] at hi
  cases Option.some.inj hi
  cases slice_entry 34 hg (by decide) (by decide) (by decide) hj
  show g.cell _ _ = _
  rw [hcell]
  rfl

/-! ## Scaled duties -/

theorem scaleDuty_ok {s : Sheet} {f f' : DataFrame} {k a n : ℕ} {r : ℚ} (hf : TableAt s f k a n)
    (h : scaleDuty f r = .ok f') :
    f'.index = f.index ∧ f'.columns = f.columns ∧
      f'.cell = fun i j => if j = k + 2 then scaled r (s.cell i j) else s.cell i j := by
  unfold scaleDuty at h
  simp only [except_bind_ok] at h
  obtain ⟨xs, _, h⟩ := h
  split at h
  · unfold mapColumn at h
    have hl : f.columns.lookup (.named "duty") = some (k + 2) := by rw [hf.columns]; rfl
    rw [hl] at h
    cases Except.ok.inj h
    refine ⟨rfl, rfl, ?_⟩
    dsimp only
    rw [hf.cell]
  · cases h

/-! ## The tables put together -/

/-- The point in a row of the combined table. -/
def rowPoint (row : Key → Value) : Option Standard.Point :=
  match row (.named "ambient_temp"), row (.named "COSP"), row (.named "duty"),
    row (.named "capacity_percentage"), row (.named "flow_temp") with
  | some (.num a), some (.num p), some (.num d), some _, some (.num f) => some ⟨a, f, p, d⟩
  | _, _, _, _, _ => none

/-- The labels of the combined table. -/
def dataKeys : List Key := tableKeys ++ [.named "flow_temp"]

theorem part_columns {f temp : DataFrame} {k : ℕ} {l : List (Key × ℕ)} {t : Table}
    (hc : f.columns = [(.named "ambient_temp", k), (.named "COSP", k + 1), (.named "duty", k + 2),
      (.named "capacity_percentage", k + 3)] ++ l)
    (h : regressionPart f temp = .ok t) :
    t.columns = tableKeys ++ (l.map Prod.fst ++ [.named "flow_temp"]) := by
  unfold regressionPart at h
  simp only [except_bind_ok, except_pure_ok] at h
  obtain ⟨v, hv, rfl⟩ := h
  show (f.columns.map Prod.fst) ++ [Key.named "flow_temp"] = _
  rw [hc, List.map_append, List.append_assoc]
  rfl

/-- The points of one table. -/
theorem part_points {s : Sheet} {f f' temp : DataFrame} {k a n : ℕ} {r : ℚ} {v : Value} {t : Table}
    (hf : TableAt s f k a n) (hn : n ≤ 8) (hx : extra s = []) (hs : scaleDuty f r = .ok f')
    (hv : zero temp "flow_temp" = .ok v) (h : regressionPart f' temp = .ok t) :
    t.columns = dataKeys ∧
      t.rows.filterMap rowPoint = ((List.range n).map (· + a)).filterMap (Spec.testPoint s r v k) := by
  obtain ⟨hi, hc, hcell⟩ := scaleDuty_ok hf hs
  refine ⟨(part_columns (hc.trans hf.columns) h).trans (by rw [hx]; rfl), ?_⟩
  unfold regressionPart at h
  simp only [except_bind_ok, except_pure_ok] at h
  obtain ⟨v', hv', rfl⟩ := h
  rw [hv] at hv'
  cases Except.ok.inj hv'
  have hlen : f'.index.length = n := by
    rw [hi]
    have := congrArg List.length hf.rows
    simpa using this
  have hpos : ∀ i < n, f'.index[i]?.map Prod.snd = some (i + a) := by
    intro i hin
    have := congrArg (fun l => l[i]?) hf.rows
    simp only [List.getElem?_map, List.getElem?_range hin, Option.map_some] at this
    rw [hi]
    exact this
  have hrows : ((Table.ofFrame f').addColumn "flow_temp" (List.replicate 8 v)).rows =
      (List.range 8).map (fun i key => if key = .named "flow_temp" then
        ((List.replicate 8 v)[i]?).getD none else
        match (Table.ofFrame f').rows[i]? with
        | none => none
        | some row => row key) := by
    unfold Table.addColumn
    dsimp only
    have : max (Table.ofFrame f').rows.length (List.replicate 8 v).length = 8 := by
      show max ((f'.index.map _).length) _ = 8
      rw [List.length_map, hlen, List.length_replicate]
      omega
    rw [this]
    rfl
  rw [hrows, List.filterMap_map, List.filterMap_map]
  have hsplit : List.range 8 = List.range n ++ (List.range (8 - n)).map (n + ·) := by
    rw [← List.range_add, Nat.add_sub_cancel' hn]
  rw [hsplit, List.filterMap_append]
  have h2 : ∀ i, i ∈ (List.range (8 - n)).map (n + ·) → (Table.ofFrame f').rows[i]? = none := by
    intro i hmem
    obtain ⟨j, _, rfl⟩ := List.mem_map.mp hmem
    apply List.getElem?_eq_none
    show (f'.index.map _).length ≤ _
    rw [List.length_map, hlen]
    omega
  have htail : List.filterMap (rowPoint ∘ fun i key => if key = .named "flow_temp" then
        ((List.replicate 8 v)[i]?).getD none else
        match (Table.ofFrame f').rows[i]? with
        | none => none
        | some row => row key) ((List.range (8 - n)).map (n + ·)) = [] := by
    rw [List.filterMap_eq_nil_iff]
    intro i hmem
    simp only [Function.comp, rowPoint]
    rw [h2 i hmem]
    rfl
  rw [htail, List.append_nil]
  apply List.filterMap_congr
  intro i hmem
  have hin : i < n := List.mem_range.mp hmem
  have hrow : (Table.ofFrame f').rows[i]? = some (fun key => match f'.columns.lookup key with
      | none => none
      | some j => f'.cell (i + a) j) := by
    show (f'.index.map _)[i]? = _
    rw [List.getElem?_map]
    have := hpos i hin
    cases hl : f'.index[i]? with
    | none => rw [hl] at this; cases this
    | some p =>
      rw [hl] at this
      have := Option.some.inj this
      simp only [Option.map_some, this]
      rfl
  have hflow : ((List.replicate 8 v)[i]?).getD none = v := by
    rw [List.getElem?_replicate, if_pos (by omega)]
    rfl
  simp only [Function.comp, rowPoint]
  rw [hrow, hflow]
  simp only [Key.named.injEq, String.reduceEq, reduceIte]
  have l1 : f'.columns.lookup (.named "ambient_temp") = some k := by rw [hc, hf.columns]; rfl
  have l2 : f'.columns.lookup (.named "COSP") = some (k + 1) := by rw [hc, hf.columns]; rfl
  have l3 : f'.columns.lookup (.named "duty") = some (k + 2) := by rw [hc, hf.columns]; rfl
  have l4 : f'.columns.lookup (.named "capacity_percentage") = some (k + 3) := by
    rw [hc, hf.columns]; rfl
  rw [l1, l2, l3, l4]
  dsimp only
  have c1 : f'.cell (i + a) k = s.cell (i + a) k := by
    rw [hcell]; dsimp only; rw [if_neg (by omega)]
  have c2 : f'.cell (i + a) (k + 1) = s.cell (i + a) (k + 1) := by
    rw [hcell]; dsimp only; rw [if_neg (by omega)]
  have c3 : f'.cell (i + a) (k + 2) = scaled r (s.cell (i + a) (k + 2)) := by
    rw [hcell]; dsimp only; rw [if_pos rfl]
  have c4 : f'.cell (i + a) (k + 3) = s.cell (i + a) (k + 3) := by
    rw [hcell]; dsimp only; rw [if_neg (by omega)]
  rw [c1, c2, c3, c4]
  unfold Spec.testPoint scaled
  rcases s.cell (i + a) k with _ | ⟨_ | _⟩ <;> rcases s.cell (i + a) (k + 1) with _ | ⟨_ | _⟩ <;>
    rcases s.cell (i + a) (k + 2) with _ | ⟨_ | _⟩ <;> rcases s.cell (i + a) (k + 3) with _ | ⟨_ | _⟩ <;>
    rcases v with _ | ⟨_ | _⟩ <;> rfl

/-- The points of the complete rows. -/
theorem points_filter {rows : List (Key → Value)} {x cosp duty : Table} {pts : List Standard.Point}
    (hx : x.columns = [.named "ambient_temp", .named "flow_temp"]) (hc : cosp.columns = [.named "COSP"])
    (hd : duty.columns = [.named "duty"])
    (h : (rows.filter (fun row => dataKeys.all (fun c => (row c).isSome))).mapM (pointOf x cosp duty) =
      .ok pts) : pts = rows.filterMap rowPoint := by
  induction rows generalizing pts with
  | nil => exact (Except.ok.inj h).symm
  | cons row rows ih =>
    by_cases hall : dataKeys.all (fun c => (row c).isSome) = true
    · rw [List.filter_cons, if_pos hall, List.mapM_cons] at h
      simp only [except_bind_ok, except_pure_ok] at h
      obtain ⟨p, hp, ps, hps, rfl⟩ := h
      unfold pointOf at hp
      rw [hx, hc, hd] at hp
      simp only [except_bind_ok, except_pure_ok, numOf_ok] at hp
      obtain ⟨a, ha, f, hf, c, hc', d, hd', rfl⟩ := hp
      have hcap : (row (.named "capacity_percentage")).isSome = true :=
        List.all_eq_true.mp hall _ (by decide)
      obtain ⟨q, hq⟩ := Option.isSome_iff_exists.mp hcap
      have hr : rowPoint row = some ⟨a, f, c, d⟩ := by
        unfold rowPoint
        rw [ha, hf, hc', hd', hq]
      rw [List.filterMap_cons_some hr, ih hps]
    · rw [List.filter_cons, if_neg hall] at h
      have hr : rowPoint row = none := by
        unfold rowPoint
        by_contra hne
        apply hall
        split at hne
        · rename_i e1 e2 e3 e4 e5
          simp [dataKeys, tableKeys, e1, e2, e3, e4, e5]
        · exact absurd rfl hne
      rw [List.filterMap_cons_none hr]
      exact ih h

theorem concat_columns {a b c d : Table} (ha : a.columns = dataKeys) (hb : b.columns = dataKeys)
    (hc : c.columns = dataKeys) (hd : d.columns = dataKeys) :
    (Table.concat [a, b, c, d]).columns = dataKeys ∧
      (Table.concat [a, b, c, d]).rows = a.rows ++ (b.rows ++ (c.rows ++ (d.rows ++ []))) := by
  refine ⟨?_, rfl⟩
  show a.columns ++ (b.columns ++ (c.columns ++ (d.columns ++ [].filter _).filter _).filter _).filter _ = _
  rw [ha, hb, hc, hd]
  decide

/-- The frames of the heat pump sheet after the duties were scaled. -/
structure Scaled (s : Sheet) (r : ℚ) (h : HeatPumpPart) : Prop where
  reg1 : ∃ f, regressionUpper (readSheet s) leftDrops leftNames = .ok f ∧ scaleDuty f r = .ok h.reg1
  reg2 : ∃ f, regressionUpper (readSheet s) rightDrops rightNames = .ok f ∧ scaleDuty f r = .ok h.reg2
  reg3 : ∃ f, regressionLower (readSheet s) leftDrops leftNames = .ok f ∧ scaleDuty f r = .ok h.reg3
  reg4 : ∃ f, regressionLower (readSheet s) rightDrops rightNames = .ok f ∧ scaleDuty f r = .ok h.reg4
  temp1 : regressionTempUpper (readSheet s) 3 = .ok h.temp1
  temp2 : regressionTempUpper (readSheet s) 7 = .ok h.temp2
  temp3 : regressionTempLower (readSheet s) 3 = .ok h.temp3
  temp4 : regressionTempLower (readSheet s) 7 = .ok h.temp4

theorem part_temp {f temp : DataFrame} {t : Table} (h : regressionPart f temp = .ok t) :
    ∃ v, zero temp "flow_temp" = .ok v := by
  unfold regressionPart at h
  simp only [except_bind_ok] at h
  obtain ⟨v, hv, _⟩ := h
  exact ⟨v, hv⟩

/-- The columns of the temperatures given to the heat pump: one for each column beyond the nineteen, besides
the two of the template. -/
theorem temperature_columns {s : Sheet} {r : ℚ} {c : Container} {x cosp duty : Table} (hb : BlankHeader s)
    (hw : 19 ≤ s.width) (hh : 26 ≤ s.height) (hs : Scaled s r c.heatPump)
    (h : heatpumpStandard c = .ok (x, cosp, duty)) : s.width - 19 + 2 ≤ x.columns.length := by
  obtain ⟨f1, u1, s1⟩ := hs.reg1
  have t1 := upper_table 2 hb hw hh (by decide) (by decide) (by decide) u1
  unfold heatpumpStandard regressionData at h
  simp only [except_bind_ok, except_pure_ok] at h
  obtain ⟨d, ⟨d1, p1, d2, p2, d3, p3, d4, p4, rfl⟩, x', hx, cosp', hc, duty', hdu, h⟩ := h
  cases h
  have k1 := part_columns ((scaleDuty_ok t1 s1).2.1.trans t1.columns) p1
  unfold Table.drop at hx
  split at hx
  · cases Except.ok.inj hx
    show _ ≤ (List.filter _ (d1.columns ++ _)).length
    rw [List.filter_append, List.length_append, k1]
    refine le_trans ?_ (Nat.le_add_right _ _)
    rw [List.filter_append, List.filter_append, List.length_append, List.length_append]
    have e1 : (extra s).map Prod.fst = ((extra s).map Prod.fst).filter
        (fun c => c ∉ [Key.named "duty", .named "capacity_percentage", .named "COSP"]) := by
      symm
      apply List.filter_eq_self.mpr
      intro k hk
      obtain ⟨p, hp, rfl⟩ := List.mem_map.mp hk
      obtain ⟨j, _, rfl⟩ := List.mem_map.mp hp
      simp
    rw [← e1]
    have e2 : ((extra s).map Prod.fst).length = s.width - 19 := by
      unfold extra
      simp
    rw [e2]
    have e3 : (tableKeys.filter (fun c => c ∉ [Key.named "duty", .named "capacity_percentage",
      .named "COSP"])).length = 1 := by decide
    have e4 : ([Key.named "flow_temp"].filter (fun c => c ∉ [Key.named "duty",
      .named "capacity_percentage", .named "COSP"])).length = 1 := by decide
    rw [e3, e4]
    omega
  · cases hx

/-- A heat pump described by test data can only be trained from a sheet of nineteen columns. -/
theorem standard_width {s : Sheet} {r : ℚ} {c : Container} {x cosp duty : Table} {data : TestData}
    (hb : BlankHeader s) (hw : 19 ≤ s.width) (hh : 26 ≤ s.height) (hs : Scaled s r c.heatPump)
    (h : heatpumpStandard c = .ok (x, cosp, duty)) (hd : testData x cosp duty = .ok data)
    (hc : Standard.trainCheck data.xShape data.copShape data.dutyShape = .ok ()) : s.width = 19 := by
  have hx := temperature_columns hb hw hh hs h
  unfold testData at hd
  simp only [except_bind_ok, except_pure_ok] at hd
  obtain ⟨pts, hp, rfl⟩ := hd
  unfold Standard.trainCheck at hc
  dsimp only at hc
  split at hc
  · cases hc
  · omega

/-- Rows below the used range hold no test point. -/
theorem points_padded {s : Sheet} {r : ℚ} {v : Value} {k a n m : ℕ} (hm : n ≤ m)
    (he : ∀ i, n ≤ i → i < m → s.cell (i + a) k = none) :
    ((List.range n).map (· + a)).filterMap (Spec.testPoint s r v k) =
      ((List.range m).map (· + a)).filterMap (Spec.testPoint s r v k) := by
  rw [← Nat.add_sub_cancel' hm, List.range_add, List.map_append, List.filterMap_append]
  have : List.filterMap (Spec.testPoint s r v k)
      (((List.range (m - n)).map (n + ·)).map (· + a)) = [] := by
    rw [List.filterMap_eq_nil_iff]
    intro i hmem
    obtain ⟨j, hj, rfl⟩ := List.mem_map.mp hmem
    obtain ⟨l, hl, rfl⟩ := List.mem_map.mp hj
    have := List.mem_range.mp hl
    unfold Spec.testPoint
    rw [he (n + l) (by omega) (by omega)]
  rw [this, List.append_nil]

theorem test_points {s : Sheet} {r : ℚ} {c : Container} {x cosp duty : Table} {data : TestData}
    (hb : BlankHeader s) (hw : s.width = 19) (hh : 26 ≤ s.height) (he : Spec.EndsEmpty s)
    (hs : Scaled s r c.heatPump) (h : heatpumpStandard c = .ok (x, cosp, duty))
    (hd : testData x cosp duty = .ok data) :
    data.points = Spec.testPoints s r := by
  obtain ⟨f1, u1, s1⟩ := hs.reg1
  obtain ⟨f2, u2, s2⟩ := hs.reg2
  obtain ⟨f3, u3, s3⟩ := hs.reg3
  obtain ⟨f4, u4, s4⟩ := hs.reg4
  obtain ⟨t1, t2, t3, t4⟩ := tables hb hw.ge hh u1 u2 u3 u4
  have hx' := extra_nil hw
  unfold heatpumpStandard regressionData at h
  simp only [except_bind_ok, except_pure_ok] at h
  obtain ⟨d, ⟨d1, p1, d2, p2, d3, p3, d4, p4, rfl⟩, x', hx, cosp', hc, duty', hdu, h⟩ := h
  cases h
  obtain ⟨v1, z1⟩ := part_temp p1
  obtain ⟨v2, z2⟩ := part_temp p2
  obtain ⟨v3, z3⟩ := part_temp p3
  obtain ⟨v4, z4⟩ := part_temp p4
  obtain ⟨k1, r1⟩ := part_points t1 (by omega) hx' s1 z1 p1
  obtain ⟨k2, r2⟩ := part_points t2 (by omega) hx' s2 z2 p2
  obtain ⟨k3, r3⟩ := part_points t3 (by omega) hx' s3 z3 p3
  obtain ⟨k4, r4⟩ := part_points t4 (by omega) hx' s4 z4 p4
  cases upper_temp (.inl rfl) hs.temp1 z1
  cases upper_temp (.inr rfl) hs.temp2 z2
  cases lower_temp (.inl rfl) hs.temp3 z3
  cases lower_temp (.inr rfl) hs.temp4 z4
  obtain ⟨kc, kr⟩ := concat_columns k1 k2 k3 k4
  have hdrop : ∀ (ks : List Key) (t : Table),
      (Table.concat [d1, d2, d3, d4]).dropna.drop ks = .ok t →
      t.columns = dataKeys.filter (fun c => c ∉ ks) ∧
        t.rows = (Table.concat [d1, d2, d3, d4]).rows.filter
          (fun row => dataKeys.all (fun c => (row c).isSome)) := by
    intro ks t ht
    unfold Table.drop at ht
    split at ht
    · cases Except.ok.inj ht
      refine ⟨?_, ?_⟩
      · show List.filter _ (Table.concat [d1, d2, d3, d4]).columns = _
        rw [kc]
      · show List.filter _ _ = _
        rw [kc]
    · cases ht
  obtain ⟨xc, xr⟩ := hdrop _ _ hx
  obtain ⟨cc, _⟩ := hdrop _ _ hc
  obtain ⟨dc, _⟩ := hdrop _ _ hdu
  unfold testData at hd
  simp only [except_bind_ok, except_pure_ok] at hd
  obtain ⟨pts, hp, rfl⟩ := hd
  rw [xr] at hp
  have := points_filter (xc.trans (by decide)) (cc.trans (by decide)) (dc.trans (by decide)) hp
  show pts = _
  rw [this, kr, List.append_nil, List.filterMap_append, List.filterMap_append, List.filterMap_append,
    r1, r2, r3, r4,
    points_padded (m := 8) (k := 2) (a := 27) (Nat.min_le_left _ _) (fun i _ _ => he _ _ (by omega) (by omega)),
    points_padded (m := 8) (k := 6) (a := 27) (Nat.min_le_left _ _) (fun i _ _ => he _ _ (by omega) (by omega)),
    points_padded (m := 7) (k := 2) (a := 41) (Nat.min_le_left _ _) (fun i _ _ => he _ _ (by omega) (by omega)),
    points_padded (m := 7) (k := 6) (a := 41) (Nat.min_le_left _ _) (fun i _ _ => he _ _ (by omega) (by omega))]
  unfold Spec.testPoints
  simp only [List.append_assoc]

end Simulation
end Verif
