import Verif.Lemmas.Filled

/-! # Lemmas for the workbooks from which the heat pump can be made -/

set_option autoImplicit false

namespace Verif
namespace Simulation
open Pandas DataFrame Workbook InputReader FixedOrder Enums Tariff HpConfig

/-! ## Flow temperatures of the test tables -/

theorem upper_temp_total {s : Pandas.Sheet} {f : DataFrame} {k : ℕ} (hk : k = 3 ∨ k = 7)
    (h : regressionTempUpper (readSheet s) k = .ok f) (hh : 24 ≤ s.height) :
    zero f "flow_temp" = .ok (s.cell 23 k) := by
  have : ∃ v, zero f "flow_temp" = .ok v := by
    unfold regressionTempUpper at h
    simp only [except_bind_ok, except_pure_ok] at h
    obtain ⟨g, hg, g', hg', rfl⟩ := h
    obtain ⟨hi', hc', hcell', _, _⟩ := drop_ok hg'
    have hrow : (number 0 g.index).lookup (.pos 0) = some k := by
      rcases hk with rfl | rfl
      · exact transposed_zero 3 4 hg (readSheet_positions s) (by decide) (by decide) (by decide) (by decide)
      · exact transposed_zero 7 8 hg (readSheet_positions s) (by decide) (by decide) (by decide) (by decide)
    obtain ⟨_, hc, hcell, _, _⟩ := drop_ok hg
    have hplain : Plain g.columns := by
      rw [hc]
      exact Plain.filter (l := ((readSheet s).iloc 21 25).index) (plain_iloc s 21 25) _
    have hm' : Key.pos 21 ∈ ((readSheet s).iloc 21 25).index.map Prod.fst := by
      rw [iloc_index]
      simp only [List.map_map, List.mem_map, List.mem_range, Function.comp, Key.pos.injEq]
      exact ⟨0, by omega, by omega⟩
    obtain ⟨i, hi⟩ := lookup_isSome.mpr hm'
    have hcol : (g'.rename (posNames [(21, "flow_temp"), (22, "return_temp")])).resetIndex.columns.lookup
        (.named "flow_temp") = some i := by
      simp only [resetIndex, DataFrame.rename]
      rw [hc', renamed_column _ (.pos 21) "flow_temp" hplain (by decide) (by decide) (by decide), hc]
      simp only [List.not_mem_nil, not_false_eq_true, decide_true, List.filter_true]
      exact hi
    have hgi : g'.index = g.index := by rw [hi']; simp
    have hidx : (g'.rename (posNames [(21, "flow_temp"), (22, "return_temp")])).resetIndex.index.lookup
        (.pos 0) = some k := by
      simp only [resetIndex, DataFrame.rename]
      rw [hgi, hrow]
    unfold zero
    rw [get_eq hcol hidx]
    exact ⟨_, rfl⟩
  obtain ⟨v, hv⟩ := this
  rw [hv, upper_temp hk h hv]

theorem lower_temp_total {s : Pandas.Sheet} {f : DataFrame} {k : ℕ} (hk : k = 3 ∨ k = 7)
    (h : regressionTempLower (readSheet s) k = .ok f) (hh : 36 ≤ s.height) :
    zero f "flow_temp" = .ok (s.cell 36 k) := by
  have : ∃ v, zero f "flow_temp" = .ok v := by
    unfold regressionTempLower at h
    simp only [except_bind_ok, except_pure_ok] at h
    obtain ⟨g, hg, rfl⟩ := h
    have hrow : (number 0 g.index).lookup (.pos 0) = some k := by
      rcases hk with rfl | rfl
      · exact transposed_zero 3 4 hg (readSheet_positions s) (by decide) (by decide) (by decide) (by decide)
      · exact transposed_zero 7 8 hg (readSheet_positions s) (by decide) (by decide) (by decide) (by decide)
    have hcol : (g.rename (posNames [(34, "flow_temp"), (35, "return_temp")])).resetIndex.columns.lookup
        (.named "flow_temp") = some 36 :=
      slice_entry_eq 34 hg (by decide) (by decide) (by decide) (by omega) (by omega) (by omega)
    unfold zero
    rw [get_eq hcol (i := k)]
    · exact ⟨_, rfl⟩
    · exact hrow
  obtain ⟨v, hv⟩ := this
  rw [hv, lower_temp hk h hv]

/-! ## Test data -/

theorem part_total {f temp : DataFrame} {v : Value} (hv : zero temp "flow_temp" = .ok v) :
    regressionPart f temp = .ok ((Table.ofFrame f).addColumn "flow_temp" (List.replicate 8 v)) := by
  unfold regressionPart
  rw [hv]
  rfl

/-- A row of a combined table is row `i` of the sheet. -/
structure RowIs (s : Pandas.Sheet) (r : ℚ) (v : Value) (k i : ℕ) (row : Key → Value) : Prop where
  ambient : row (.named "ambient_temp") = s.cell i k
  cosp : row (.named "COSP") = s.cell i (k + 1)
  duty : row (.named "duty") = scaled r (s.cell i (k + 2))
  percentage : row (.named "capacity_percentage") = s.cell i (k + 3)
  flow : row (.named "flow_temp") = v

theorem part_rows {s : Pandas.Sheet} {f f' : DataFrame} {k a n : ℕ} {r : ℚ} {v : Value}
    (hf : TableAt s f k a n) (hn : n ≤ 8) (hs : scaleDuty f r = .ok f') :
    (∀ i < n, ∃ row ∈ ((Table.ofFrame f').addColumn "flow_temp" (List.replicate 8 v)).rows,
      RowIs s r v k (i + a) row) ∧
    (∀ row ∈ ((Table.ofFrame f').addColumn "flow_temp" (List.replicate 8 v)).rows,
      row (.named "ambient_temp") = none ∨ ∃ i < n, RowIs s r v k (i + a) row) := by
  obtain ⟨hi, hc, hcell⟩ := scaleDuty_ok hf hs
  have hlen : f'.index.length = n := by
    rw [hi]
    have := congrArg List.length hf.rows
    simpa using this
  have hpos : ∀ i < n, f'.index[i]?.map Prod.snd = some (i + a) := by
    intro i hin
    have := congrArg (fun l => l[i]?) hf.rows
    simp only [List.getElem?_map, List.getElem?_range hin, Option.map_some] at this
    rw [hi]
    exact this
  have hrows : ((Table.ofFrame f').addColumn "flow_temp" (List.replicate 8 v)).rows =
      (List.range 8).map (fun i key => if key = .named "flow_temp" then
        ((List.replicate 8 v)[i]?).getD none else
        match (Table.ofFrame f').rows[i]? with
        | none => none
        | some row => row key) := by
    unfold Table.addColumn
    dsimp only
    have : max (Table.ofFrame f').rows.length (List.replicate 8 v).length = 8 := by
      show max ((f'.index.map _).length) _ = 8
      rw [List.length_map, hlen, List.length_replicate]
      omega
    rw [this]
    rfl
  have l1 : f'.columns.lookup (.named "ambient_temp") = some k := by rw [hc, hf.columns]; rfl
  have l2 : f'.columns.lookup (.named "COSP") = some (k + 1) := by rw [hc, hf.columns]; rfl
  have l3 : f'.columns.lookup (.named "duty") = some (k + 2) := by rw [hc, hf.columns]; rfl
  have l4 : f'.columns.lookup (.named "capacity_percentage") = some (k + 3) := by
    rw [hc, hf.columns]; rfl
  have hone : ∀ i < n, RowIs s r v k (i + a) (fun key => if key = .named "flow_temp" then
        ((List.replicate 8 v)[i]?).getD none else
        match (Table.ofFrame f').rows[i]? with
        | none => none
        | some row => row key) := by
    intro i hin
    have hrow : (Table.ofFrame f').rows[i]? = some (fun key => match f'.columns.lookup key with
        | none => none
        | some j => f'.cell (i + a) j) := by
      show (f'.index.map _)[i]? = _
      rw [List.getElem?_map]
      have := hpos i hin
      cases hl : f'.index[i]? with
      | none => rw [hl] at this; cases this
      | some p =>
        rw [hl] at this
        have := Option.some.inj this
        simp only [Option.map_some, this]
        rfl
    have hflow : ((List.replicate 8 v)[i]?).getD none = v := by
      rw [List.getElem?_replicate, if_pos (by omega)]
      rfl
    constructor <;> (rw [hrow]; simp only [Key.named.injEq, String.reduceEq, reduceIte, l1, l2, l3, l4])
    · rw [hcell]; dsimp only; rw [if_neg (by omega)]
    · rw [hcell]; dsimp only; rw [if_neg (by omega)]
    · rw [hcell]; dsimp only; rw [if_pos rfl]
    · rw [hcell]; dsimp only; rw [if_neg (by omega)]
    · exact hflow
  rw [hrows]
  constructor
  · intro i hin
    exact ⟨_, List.mem_map.mpr ⟨i, List.mem_range.mpr (by omega), rfl⟩, hone i hin⟩
  · intro row hrow
    obtain ⟨i, -, rfl⟩ := List.mem_map.mp hrow
    by_cases hin : i < n
    · exact .inr ⟨i, hin, hone i hin⟩
    · left
      have : (Table.ofFrame f').rows[i]? = none := by
        apply List.getElem?_eq_none
        show (f'.index.map _).length ≤ _
        rw [List.length_map, hlen]
        omega
      simp only [Key.named.injEq, String.reduceEq, reduceIte, this]

/-- If the row of a test table is filled in, its entries are numbers. -/
def NumericRow (s : Pandas.Sheet) (v : Value) (k i : ℕ) : Prop :=
  (s.cell i k).isSome → (s.cell i (k + 1)).isSome → (s.cell i (k + 2)).isSome →
    (s.cell i (k + 3)).isSome → v.isSome →
    IsNum (s.cell i k) ∧ IsNum (s.cell i (k + 1)) ∧ IsNum (s.cell i (k + 2)) ∧ IsNum v

/-- In a complete row of a combined table, the four entries used are numbers. -/
def NumericIfFull (row : Key → Value) : Prop :=
  dataKeys.all (fun c => (row c).isSome) = true →
    IsNum (row (.named "ambient_temp")) ∧ IsNum (row (.named "COSP")) ∧ IsNum (row (.named "duty")) ∧
      IsNum (row (.named "flow_temp"))

theorem scaled_isNum (r : ℚ) (v : Value) : IsNum (scaled r v) ↔ IsNum v := by
  unfold IsNum scaled
  match v with
  | none => simp
  | some (.num x) => simp
  | some (.text t) => simp

theorem scaled_isSome (r : ℚ) (v : Value) : (scaled r v).isSome = v.isSome := by
  unfold scaled
  match v with
  | none => rfl
  | some (.num x) => rfl
  | some (.text t) => rfl

theorem rowIs_numeric {s : Pandas.Sheet} {r : ℚ} {v : Value} {k i : ℕ} {row : Key → Value}
    (h : RowIs s r v k i row) : NumericIfFull row ↔ NumericRow s v k i := by
  unfold NumericIfFull NumericRow
  simp only [dataKeys, tableKeys, List.cons_append, List.nil_append, List.all_cons, List.all_nil,
    Bool.and_true, Bool.and_eq_true, h.ambient, h.cosp, h.duty, h.percentage, h.flow, scaled_isNum,
    scaled_isSome]
  tauto

theorem part_numeric {s : Pandas.Sheet} {f f' : DataFrame} {k a n : ℕ} {r : ℚ} {v : Value}
    (hf : TableAt s f k a n) (hn : n ≤ 8) (hs : scaleDuty f r = .ok f') :
    (∀ row ∈ ((Table.ofFrame f').addColumn "flow_temp" (List.replicate 8 v)).rows, NumericIfFull row) ↔
      ∀ i < n, NumericRow s v k (i + a) := by
  obtain ⟨h1, h2⟩ := part_rows (v := v) hf hn hs
  constructor
  · intro h i hi
    obtain ⟨row, hrow, hr⟩ := h1 i hi
    exact (rowIs_numeric hr).mp (h row hrow)
  · intro h row hrow
    rcases h2 row hrow with hnone | ⟨i, hi, hr⟩
    · intro hall
      have := List.all_eq_true.mp hall (.named "ambient_temp") (by decide)
      rw [hnone] at this
      cases this
    · exact (rowIs_numeric hr).mpr (h i hi)

/-- The filled in rows of the test tables of a heat pump sheet hold numbers. -/
structure PlainTables (s : Pandas.Sheet) : Prop where
  left : ∀ i < 8, NumericRow s (s.cell 23 3) 2 (i + 27)
  right : ∀ i < 8, NumericRow s (s.cell 23 7) 6 (i + 27)
  lowerLeft : ∀ i < 7, NumericRow s (s.cell 36 3) 2 (i + 41)
  lowerRight : ∀ i < 7, NumericRow s (s.cell 36 7) 6 (i + 41)

theorem testData_eq {x cosp duty : Table} {pts : List Standard.Point}
    (h : x.rows.mapM (pointOf x cosp duty) = .ok pts) :
    testData x cosp duty = .ok { xShape := [x.rows.length, x.columns.length], copShape := [cosp.rows.length, cosp.columns.length], dutyShape := [duty.rows.length, duty.columns.length], points := pts } := by
  unfold testData
  rw [h]
  rfl

theorem lower_temp_height {s : Pandas.Sheet} {f : DataFrame} {k : ℕ} {v : Value}
    (h : regressionTempLower (readSheet s) k = .ok f) (hv : zero f "flow_temp" = .ok v) : 36 ≤ s.height := by
  unfold regressionTempLower at h
  simp only [except_bind_ok, except_pure_ok] at h
  obtain ⟨g, hg, rfl⟩ := h
  obtain ⟨_, hc, _, _, _⟩ := drop_ok hg
  obtain ⟨i, j, hj, -, -⟩ := get_ok hv
  simp only [resetIndex, DataFrame.rename, hc] at hj
  rw [renamed_column _ (.pos 34) "flow_temp" (l := ((readSheet s).iloc 34 36).transpose.columns)
    (plain_iloc s 34 36) (by decide) (by decide) (by decide)] at hj
  have hm := lookup_mem (l := ((readSheet s).iloc 34 36).index) hj
  rw [iloc_index] at hm
  simp only [List.mem_map, List.mem_range, Prod.mk.injEq, Key.pos.injEq] at hm
  obtain ⟨j, hj, hj', -⟩ := hm
  omega

theorem standard_total {s : Pandas.Sheet} {r : ℚ} {c : Container} (hb : BlankHeader s)
    (hw : s.width = 19) (hh : 36 ≤ s.height) (he : Spec.EndsEmpty s) (hs : Scaled s r c.heatPump)
    (hp : PlainTables s) (hne : Spec.testPoints s r ≠ []) :
    ∃ x cosp duty data, heatpumpStandard c = .ok (x, cosp, duty) ∧ testData x cosp duty = .ok data ∧
      Standard.trainCheck data.xShape data.copShape data.dutyShape = .ok () := by
  obtain ⟨f1, u1, s1⟩ := hs.reg1
  obtain ⟨f2, u2, s2⟩ := hs.reg2
  obtain ⟨f3, u3, s3⟩ := hs.reg3
  obtain ⟨f4, u4, s4⟩ := hs.reg4
  obtain ⟨t1, t2, t3, t4⟩ := tables hb hw.ge (by omega) u1 u2 u3 u4
  have hx := extra_nil hw
  have z1 := upper_temp_total (.inl rfl) hs.temp1 (by omega)
  have z2 := upper_temp_total (.inr rfl) hs.temp2 (by omega)
  have z3 := lower_temp_total (.inl rfl) hs.temp3 (by omega)
  have z4 := lower_temp_total (.inr rfl) hs.temp4 (by omega)
  have p1 := part_total (f := c.heatPump.reg1) z1
  have p2 := part_total (f := c.heatPump.reg2) z2
  have p3 := part_total (f := c.heatPump.reg3) z3
  have p4 := part_total (f := c.heatPump.reg4) z4
  have n1 := (part_numeric t1 (by omega) s1).mpr (fun i hi => hp.left i (by omega))
  have n2 := (part_numeric t2 (by omega) s2).mpr (fun i hi => hp.right i (by omega))
  have n3 := (part_numeric t3 (by omega) s3).mpr (fun i hi => hp.lowerLeft i (by omega))
  have n4 := (part_numeric t4 (by omega) s4).mpr (fun i hi => hp.lowerRight i (by omega))
  have k1 := (part_columns ((scaleDuty_ok t1 s1).2.1.trans t1.columns) p1).trans (show _ = dataKeys by rw [hx]; rfl)
  have k2 := (part_columns ((scaleDuty_ok t2 s2).2.1.trans t2.columns) p2).trans (show _ = dataKeys by rw [hx]; rfl)
  have k3 := (part_columns ((scaleDuty_ok t3 s3).2.1.trans t3.columns) p3).trans (show _ = dataKeys by rw [hx]; rfl)
  have k4 := (part_columns ((scaleDuty_ok t4 s4).2.1.trans t4.columns) p4).trans (show _ = dataKeys by rw [hx]; rfl)
  generalize (Table.ofFrame c.heatPump.reg1).addColumn "flow_temp" (List.replicate 8 (s.cell 23 3)) = d1
    at p1 n1 k1
  generalize (Table.ofFrame c.heatPump.reg2).addColumn "flow_temp" (List.replicate 8 (s.cell 23 7)) = d2
    at p2 n2 k2
  generalize (Table.ofFrame c.heatPump.reg3).addColumn "flow_temp" (List.replicate 8 (s.cell 36 3)) = d3
    at p3 n3 k3
  generalize (Table.ofFrame c.heatPump.reg4).addColumn "flow_temp" (List.replicate 8 (s.cell 36 7)) = d4
    at p4 n4 k4
  obtain ⟨kc, kr⟩ := concat_columns k1 k2 k3 k4
  generalize hrows : (Table.concat [d1, d2, d3, d4]).rows.filter
    (fun row => dataKeys.all (fun c => (row c).isSome)) = rows
  have hdrop : ∀ ks : List Key, (∀ k ∈ ks, k ∈ dataKeys) →
      (Table.concat [d1, d2, d3, d4]).dropna.drop ks =
        .ok ⟨dataKeys.filter (fun c => c ∉ ks), rows⟩ := by
    intro ks hks
    unfold Table.drop
    have hcol : (Table.concat [d1, d2, d3, d4]).dropna.columns = dataKeys := kc
    rw [if_pos (by rw [hcol]; exact hks)]
    have hr : (Table.concat [d1, d2, d3, d4]).dropna.rows = rows := by
      show List.filter _ _ = _
      rw [kc, hrows]
    rw [← hr, hcol]
  have hstd : heatpumpStandard c = .ok
      (⟨dataKeys.filter (fun c => c ∉ [Key.named "duty", .named "capacity_percentage", .named "COSP"]), rows⟩,
       ⟨dataKeys.filter (fun c => c ∉ [Key.named "duty", .named "capacity_percentage", .named "flow_temp",
          .named "ambient_temp"]), rows⟩,
       ⟨dataKeys.filter (fun c => c ∉ [Key.named "COSP", .named "capacity_percentage", .named "flow_temp",
          .named "ambient_temp"]), rows⟩) := by
    unfold heatpumpStandard regressionData
    simp only [p1, p2, p3, p4, okBind]
    show ((Table.concat [d1, d2, d3, d4]).dropna.drop _ >>= _) = _
    rw [hdrop _ (by decide), okBind, hdrop _ (by decide), okBind, hdrop _ (by decide)]
    rfl
  have hpts : ∃ pts, rows.mapM (pointOf
      ⟨dataKeys.filter (fun c => c ∉ [Key.named "duty", .named "capacity_percentage", .named "COSP"]), rows⟩
      ⟨dataKeys.filter (fun c => c ∉ [Key.named "duty", .named "capacity_percentage", .named "flow_temp",
          .named "ambient_temp"]), rows⟩
      ⟨dataKeys.filter (fun c => c ∉ [Key.named "COSP", .named "capacity_percentage", .named "flow_temp",
          .named "ambient_temp"]), rows⟩) = .ok pts := by
    apply mapM_total
    intro row hrow
    rw [← hrows, List.mem_filter, kr] at hrow
    obtain ⟨hmem, hall⟩ := hrow
    have hnum : NumericIfFull row := by
      simp only [List.mem_append, List.not_mem_nil, or_false] at hmem
      rcases hmem with h | h | h | h
      · exact n1 row h
      · exact n2 row h
      · exact n3 row h
      · exact n4 row h
    obtain ⟨⟨a, ha⟩, ⟨p, hp⟩, ⟨d, hd⟩, ⟨f, hf⟩⟩ := hnum hall
    have e1 : dataKeys.filter (fun c => c ∉ [Key.named "duty", .named "capacity_percentage",
      .named "COSP"]) = [.named "ambient_temp", .named "flow_temp"] := by decide
    have e2 : dataKeys.filter (fun c => c ∉ [Key.named "duty", .named "capacity_percentage",
      .named "flow_temp", .named "ambient_temp"]) = [.named "COSP"] := by decide
    have e3 : dataKeys.filter (fun c => c ∉ [Key.named "COSP", .named "capacity_percentage",
      .named "flow_temp", .named "ambient_temp"]) = [.named "duty"] := by decide
    unfold pointOf
    rw [e1, e2, e3]
    dsimp only
    rw [ha, hp, hd, hf]
    exact ⟨_, rfl⟩
  obtain ⟨pts, hpts⟩ := hpts
  have hdata := testData_eq hpts
  refine ⟨_, _, _, _, hstd, hdata, ?_⟩
  have htp := test_points hb hw (by omega) he hs hstd hdata
  dsimp only at htp
  have hlen : rows.length ≠ 0 := by
    intro h0
    have : rows = [] := List.length_eq_zero_iff.mp h0
    rw [this] at hpts
    have : pts = [] := (Except.ok.inj hpts).symm
    exact hne (htp ▸ this)
  show Standard.trainCheck [rows.length, 2] [rows.length, 1] [rows.length, 1] = _
  unfold Standard.trainCheck
  simp [hlen]

theorem points_numeric {rows : List (Key → Value)} {x cosp duty : Table} {pts : List Standard.Point}
    (hx : x.columns = [.named "ambient_temp", .named "flow_temp"]) (hc : cosp.columns = [.named "COSP"])
    (hd : duty.columns = [.named "duty"])
    (h : (rows.filter (fun row => dataKeys.all (fun c => (row c).isSome))).mapM (pointOf x cosp duty) =
      .ok pts) : ∀ row ∈ rows, NumericIfFull row := by
  induction rows generalizing pts with
  | nil => intro row hrow; cases hrow
  | cons row rows ih =>
    intro row' hrow'
    by_cases hall : dataKeys.all (fun c => (row c).isSome) = true
    · rw [List.filter_cons, if_pos hall, List.mapM_cons] at h
      simp only [except_bind_ok, except_pure_ok] at h
      obtain ⟨p, hp, ps, hps, rfl⟩ := h
      rcases List.mem_cons.mp hrow' with rfl | hmem
      · unfold pointOf at hp
        rw [hx, hc, hd] at hp
        simp only [except_bind_ok, except_pure_ok, numOf_ok] at hp
        obtain ⟨a, ha, f, hf, c, hc', d, hd', rfl⟩ := hp
        exact fun _ => ⟨⟨a, ha⟩, ⟨c, hc'⟩, ⟨d, hd'⟩, ⟨f, hf⟩⟩
      · exact ih hps row' hmem
    · rw [List.filter_cons, if_neg hall] at h
      rcases List.mem_cons.mp hrow' with rfl | hmem
      · exact fun h => absurd h hall
      · exact ih h row' hmem

/-- Rows below the used range have nothing that could fail to be a number. -/
theorem numeric_padded {s : Pandas.Sheet} {v : Value} {k a n m : ℕ} (h : ∀ i < n, NumericRow s v k (i + a))
    (he : ∀ i, n ≤ i → i < m → s.cell (i + a) k = none) : ∀ i < m, NumericRow s v k (i + a) := by
  intro i hi
  by_cases hn : i < n
  · exact h i hn
  · intro h1
    rw [he i (by omega) hi] at h1
    cases h1

theorem standard_numeric {s : Pandas.Sheet} {r : ℚ} {c : Container} {x cosp duty : Table} {data : TestData}
    (hb : BlankHeader s) (hw : s.width = 19) (hh : 26 ≤ s.height) (he : Spec.EndsEmpty s)
    (hs : Scaled s r c.heatPump) (h : heatpumpStandard c = .ok (x, cosp, duty))
    (hd : testData x cosp duty = .ok data) : PlainTables s ∧ 36 ≤ s.height := by
  obtain ⟨f1, u1, s1⟩ := hs.reg1
  obtain ⟨f2, u2, s2⟩ := hs.reg2
  obtain ⟨f3, u3, s3⟩ := hs.reg3
  obtain ⟨f4, u4, s4⟩ := hs.reg4
  obtain ⟨t1, t2, t3, t4⟩ := tables hb hw.ge hh u1 u2 u3 u4
  have hx' := extra_nil hw
  unfold heatpumpStandard regressionData at h
  simp only [except_bind_ok, except_pure_ok] at h
  obtain ⟨d, ⟨d1, p1, d2, p2, d3, p3, d4, p4, rfl⟩, x', hx, cosp', hc, duty', hdu, h⟩ := h
  cases h
  have k1 := (part_columns ((scaleDuty_ok t1 s1).2.1.trans t1.columns) p1).trans (show _ = dataKeys by rw [hx']; rfl)
  have k2 := (part_columns ((scaleDuty_ok t2 s2).2.1.trans t2.columns) p2).trans (show _ = dataKeys by rw [hx']; rfl)
  have k3 := (part_columns ((scaleDuty_ok t3 s3).2.1.trans t3.columns) p3).trans (show _ = dataKeys by rw [hx']; rfl)
  have k4 := (part_columns ((scaleDuty_ok t4 s4).2.1.trans t4.columns) p4).trans (show _ = dataKeys by rw [hx']; rfl)
  obtain ⟨kc, kr⟩ := concat_columns k1 k2 k3 k4
  have hdrop : ∀ (ks : List Key) (t : Table),
      (Table.concat [d1, d2, d3, d4]).dropna.drop ks = .ok t →
      t.columns = dataKeys.filter (fun c => c ∉ ks) ∧
        t.rows = (Table.concat [d1, d2, d3, d4]).rows.filter
          (fun row => dataKeys.all (fun c => (row c).isSome)) := by
    intro ks t ht
    unfold Table.drop at ht
    split at ht
    · cases Except.ok.inj ht
      refine ⟨?_, ?_⟩
      · show List.filter _ (Table.concat [d1, d2, d3, d4]).columns = _
        rw [kc]
      · show List.filter _ _ = _
        rw [kc]
    · cases ht
  obtain ⟨xc, xr⟩ := hdrop _ _ hx
  obtain ⟨cc, _⟩ := hdrop _ _ hc
  obtain ⟨dc, _⟩ := hdrop _ _ hdu
  unfold testData at hd
  simp only [except_bind_ok, except_pure_ok] at hd
  obtain ⟨pts, hp, rfl⟩ := hd
  rw [xr] at hp
  have hn := points_numeric (xc.trans (by decide)) (cc.trans (by decide)) (dc.trans (by decide)) hp
  rw [kr] at hn
  obtain ⟨v3, z3'⟩ := part_temp p3
  have hh' := lower_temp_height hs.temp3 z3'
  have z1 := upper_temp_total (.inl rfl) hs.temp1 (by omega)
  have z2 := upper_temp_total (.inr rfl) hs.temp2 (by omega)
  have z3 := lower_temp_total (.inl rfl) hs.temp3 (by omega)
  have z4 := lower_temp_total (.inr rfl) hs.temp4 (by omega)
  cases Except.ok.inj (p1.symm.trans (part_total z1))
  cases Except.ok.inj (p2.symm.trans (part_total z2))
  cases Except.ok.inj (p3.symm.trans (part_total z3))
  cases Except.ok.inj (p4.symm.trans (part_total z4))
  have n1 := (part_numeric (v := s.cell 23 3) t1 (by omega) s1).mp (fun row hrow => hn row (by
    simp only [List.mem_append]; tauto))
  have n2 := (part_numeric (v := s.cell 23 7) t2 (by omega) s2).mp (fun row hrow => hn row (by
    simp only [List.mem_append]; tauto))
  have n3 := (part_numeric (v := s.cell 36 3) t3 (by omega) s3).mp (fun row hrow => hn row (by
    simp only [List.mem_append]; tauto))
  have n4 := (part_numeric (v := s.cell 36 7) t4 (by omega) s4).mp (fun row hrow => hn row (by
    simp only [List.mem_append]; tauto))
  refine ⟨⟨numeric_padded n1 ?_, numeric_padded n2 ?_, numeric_padded n3 ?_, numeric_padded n4 ?_⟩, hh'⟩ <;>
  · intro i h1 h2
    exact he _ _ (by omega) (by omega)

/-! ## The heat pump -/

theorem construct_total {a : HpArgs} {t : HPType} {d : DataInput} {xs : List ℚ} {x : ℚ} {m : PerfModel}
    (h1 : a.hpType = .member t) (h2 : a.dataInput = .member d) (h3 : a.flow = .series xs)
    (h4 : a.ret = .scalar x) (h5 : xs.length = 8760) (h6 : a.ambient.length = 8760)
    (h7 : buildModel a = .ok m) : ∃ o, construct a = .ok o := by
  have e1 : checkType a.hpType = .ok () := by
    rw [h1]
    cases t <;> rfl
  have e2 : checkData a.dataInput = .ok () := by
    rw [h2]
    cases d <;> rfl
  have e3 : checkFullYear a.flow = .ok (.series xs) := by
    rw [h3]
    show (if xs.length ≠ 8760 then _ else _) = _
    rw [if_neg (not_not.mpr h5)]
  have e4 : checkFullYear a.ret = .ok (.array (List.replicate 8760 x)) := by
    rw [h4]
    rfl
  have e5 : checkAmbient a.ambient = .ok () := by
    show (if a.ambient.length ≠ 8760 then _ else _) = _
    rw [if_neg (not_not.mpr h6)]
  unfold construct
  simp only [e1, e2, e3, e4, e5, h7, okBind]
  exact ⟨_, rfl⟩

/-- The entries of the chosen model. -/
structure ModelCells (s : Pandas.Sheet) (r : ℚ) (m : ModelName) : Prop where
  notGeneric : m ≠ .generic
  simple : m = .simple → IsNum (s.cell 12 3)
  lorentz : m = .lorentz → ∀ k ∈ [15, 16, 17, 18, 19, 20], IsNum (s.cell k 3)
  standard : m = .standard → s.width = 19 ∧ 36 ≤ s.height ∧ PlainTables s ∧ Spec.testPoints s r ≠ []

theorem hp_total {s : Pandas.Sheet} {r : ℚ} {c : Container} {w : Columns} {b : HpBasics} {static : Dict}
    {series : Columns} {cap adt ret : ℚ} {v1 v2 v3 : List Value} {source air water : List ℚ}
    (hb : BlankHeader s) (hh : 26 ≤ s.height) (he : Spec.EndsEmpty s) (hs : Scaled s r c.heatPump)
    (hsi : hpSimple (readSheet s) = .ok c.heatPump.simple)
    (hlo : Workbook.lorentz (readSheet s) = .ok c.heatPump.lorentz)
    (hd : InputReader.demands c = .ok (static, series)) (h1 : series.get "source_temp" = .ok v1)
    (h1' : numbers v1 = .ok source) (h2 : Dict.get static "return_temp_DH" = .ok (some (.num ret)))
    (h3 : w.get "air_temperature" = .ok v2) (h3' : numbers v2 = .ok air)
    (h4 : w.get "water_temperature" = .ok v3) (h4' : numbers v3 = .ok water)
    (h5 : b.capacity = some (.num cap)) (h6 : b.ambientDeltaT = some (.num adt))
    (l1 : source.length = 8760) (l2 : air.length = 8760) (l3 : water.length = 8760)
    (hm : ModelCells s r b.approach) : ∃ a, hpArgs c w b = .ok a ∧ ∃ o, construct a = .ok o := by
  have hl : (air.zip water).length = 8760 := by
    rw [List.length_zip, l2, l3, Nat.min_self]
  have hsi' := simple_cell hsi
  unfold hpArgs
  simp only [hd, okBind, h5, h6, numOf, h1, h1', h2, h3, h3', h4, h4']
  cases ha : b.approach with
  | simple =>
    obtain ⟨x, hx⟩ := hm.simple ha
    rw [hsi', hx]
    refine ⟨_, rfl, construct_total rfl rfl rfl rfl l1 hl (m := .simple x cap) rfl⟩
  | lorentz =>
    have hk := hm.lorentz ha
    simp only [List.forall_mem_cons, List.not_mem_nil, false_implies, implies_true, and_true] at hk
    obtain ⟨⟨x1, e1⟩, ⟨x2, e2⟩, ⟨x3, e3⟩, ⟨x4, e4⟩, ⟨x5, e5⟩, ⟨x6, e6⟩⟩ := hk
    dsimp only
    rw [lorentz_total hlo (by omega), e1, e2, e3, e4, e5, e6]
    refine ⟨_, rfl, construct_total rfl rfl rfl rfl l1 hl (m := .lorentz ⟨x1, x2, x3, x4, x5, x6⟩) rfl⟩
  | generic => exact absurd ha hm.notGeneric
  | standard =>
    obtain ⟨hw, hh', hp, hne⟩ := hm.standard ha
    obtain ⟨x, cosp, duty, data, hst, hdata, htr⟩ := standard_total hb hw hh' he hs hp hne
    simp only [hst, hdata, okBind]
    refine ⟨_, rfl, construct_total rfl rfl rfl rfl l1 hl (m := .standard data) ?_⟩
    show (match Standard.trainCheck data.xShape data.copShape data.dutyShape with
      | .error e => Except.error e
      | .ok _ => Except.ok (PerfModel.standard data)) = _
    rw [htr]

end Simulation
end Verif
