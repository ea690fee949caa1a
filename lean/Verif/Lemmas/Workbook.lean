import Verif.Lemmas.Frame
import Verif.Lemmas.Run
import Verif.Model.Inputs
import Verif.Spec.Workbook

/-! # Lemmas about reading the workbook -/

set_option autoImplicit false

namespace Verif
namespace Workbook
open Pandas DataFrame InputReader FixedOrder

/-- What a successful reading went through, sheet by sheet. -/
structure Read (wb : Pandas.Workbook) (c : Container) : Prop where
  parametric : ∃ s, wb "Parametric" = some s ∧ parametric (readSheet s) = .ok c.parametric
  controller : ∃ s, wb "Controller" = some s ∧ controller (readSheet s) = .ok c.controller
  resources : ∃ s, wb "Weather resources" = some s ∧ resources (readSheet s) = .ok c.resources
  demands : ∃ s, wb "Demand gen" = some s ∧ demands (readSheet s) = .ok (c.hotWater, c.heating)
  demandInput : ∃ s, wb "Demand input" = some s ∧
    demandInput (readSheet s) = .ok (c.demandStatic, c.demandVariable)
  pv : ∃ s, wb "PV inputs" = some s ∧ pvLocation (readSheet s) = .ok c.pvLocation ∧
    pvSpec (readSheet s) = .ok c.pvSpec
  wind : ∃ s, wb "Wind inputs" = some s ∧ windDatabase (readSheet s) = .ok c.windDatabase ∧
    windUser (readSheet s) = .ok c.windUser ∧ powerCurve (readSheet s) = .ok c.powerCurve
  windFarm : ∃ s, wb "Wind farm" = some s ∧
    windFarm (readSheet s) = .ok (c.windFarm, c.windFarmResources)
  electricalStorage : ∃ s, wb "Electrical storage" = some s ∧
    electricalStorage (readSheet s) = .ok c.electricalStorage
  grid : ∃ s, wb "Grid" = some s ∧ grid (readSheet s) = .ok c.grid
  aux : ∃ s, wb "Aux heat" = some s ∧
    aux (readSheet s) = .ok (c.auxFuel, c.auxEfficiency, c.fuelInfo)
  thermalStorage : ∃ s, wb "Thermal storage" = some s ∧
    thermalStorage (readSheet s) = .ok c.thermalStorage
  heatPump : ∃ s, wb "Heat pump" = some s ∧ heatPump (readSheet s) = .ok c.heatPump

theorem sheetOf_ok {wb : Pandas.Workbook} {n : String} {f : DataFrame} (h : sheetOf wb n = .ok f) :
    ∃ s, wb n = some s ∧ f = readSheet s := by
  unfold sheetOf at h
  split at h
  · cases h
  · rename_i s hs
    exact ⟨s, hs, (Except.ok.inj h).symm⟩

theorem readInputs_ok {wb : Pandas.Workbook} {c : Container} (h : readInputs wb = .ok c) : Read wb c := by
  unfold readInputs at h
  simp only [except_bind_ok, except_pure_ok] at h
  obtain ⟨f1, h1, _, p1, f2, h2, _, p2, f3, h3, _, p3, f4, h4, ⟨_, _⟩, p4, f5, h5, ⟨_, _⟩, p5, f6, h6, _, p6,
    _, p7, f8, h8, _, p8, _, p9, _, p10, f11, h11, ⟨_, _⟩, p11, f12, h12, _, p12, f13, h13, _, p13,
    f14, h14, ⟨_, _, _⟩, p14, f15, h15, _, p15, f16, h16, _, p16, rfl⟩ := h
  obtain ⟨s1, w1, rfl⟩ := sheetOf_ok h1
  obtain ⟨s2, w2, rfl⟩ := sheetOf_ok h2
  obtain ⟨s3, w3, rfl⟩ := sheetOf_ok h3
  obtain ⟨s4, w4, rfl⟩ := sheetOf_ok h4
  obtain ⟨s5, w5, rfl⟩ := sheetOf_ok h5
  obtain ⟨s6, w6, rfl⟩ := sheetOf_ok h6
  obtain ⟨s8, w8, rfl⟩ := sheetOf_ok h8
  obtain ⟨s11, w11, rfl⟩ := sheetOf_ok h11
  obtain ⟨s12, w12, rfl⟩ := sheetOf_ok h12
  obtain ⟨s13, w13, rfl⟩ := sheetOf_ok h13
  obtain ⟨s14, w14, rfl⟩ := sheetOf_ok h14
  obtain ⟨s15, w15, rfl⟩ := sheetOf_ok h15
  obtain ⟨s16, w16, rfl⟩ := sheetOf_ok h16
  exact ⟨⟨s1, w1, p1⟩, ⟨s2, w2, p2⟩, ⟨s3, w3, p3⟩, ⟨s4, w4, p4⟩, ⟨s5, w5, p5⟩, ⟨s6, w6, p6, p7⟩,
    ⟨s8, w8, p8, p9, p10⟩, ⟨s11, w11, p11⟩, ⟨s12, w12, p12⟩, ⟨s13, w13, p13⟩, ⟨s14, w14, p14⟩,
    ⟨s15, w15, p15⟩, ⟨s16, w16, p16⟩⟩

/-- A cell of a sheet that exists, by its Excel name. -/
theorem excel_eq {wb : Pandas.Workbook} {name : String} {s : Sheet} (h : wb name = some s) (c : Char)
    (r : ℕ) : Spec.excel wb name c r = s.cell r (c.toNat - 'A'.toNat) := by
  unfold Spec.excel
  rw [h]

/-! ## Transposed frames -/

/-- The first row of a transposed frame from which rows were dropped is the first one kept. -/
theorem transposed_zero {f g : DataFrame} {rows cols : List Key} (k K : ℕ)
    (h : f.transpose.resetIndex.drop rows cols = .ok g)
    (hpos : ∀ (i : ℕ) (p : Key × ℕ), f.columns[i]? = some p → p.2 = i) (hK : Key.pos K ∈ rows) (hkK : k < K)
    (hk : Key.pos k ∉ rows) (hj : ∀ j < k, Key.pos j ∈ rows) :
    (number 0 g.index).lookup (.pos 0) = some k := by
  obtain ⟨hi, _, _, hr, _⟩ := drop_ok h
  have hlen : K < f.columns.length := by
    have := hr _ hK
    simp only [resetIndex, transpose, List.mem_map] at this
    obtain ⟨p, hp, hpK⟩ := this
    obtain ⟨i, hi'⟩ := List.mem_iff_getElem?.mp hp
    rw [number_getElem?] at hi'
    cases hl : f.columns[i]? with
    | none => rw [hl] at hi'; cases hi'
    | some q =>
      rw [hl] at hi'
      simp only [Option.map_some, Option.some.injEq] at hi'
      subst hi'
      simp only [Nat.zero_add, Key.pos.injEq] at hpK
      subst hpK
      exact (List.getElem?_eq_some_iff.mp hl).1
  rw [lookup_number_zero, hi]
  have hkl : k < f.columns.length := lt_trans hkK hlen
  have hget : f.columns[k]? = some f.columns[k] := List.getElem?_eq_getElem hkl
  rw [filter_head (k := k) (p := (.pos k, k))]
  · rfl
  · simp only [resetIndex, transpose]
    rw [number_getElem?, hget]
    simp only [Option.map_some, Nat.zero_add, Option.some.injEq, Prod.mk.injEq, true_and]
    exact hpos _ _ hget
  · simpa using hk
  · intro j hjk x hx
    simp only [resetIndex, transpose] at hx
    rw [number_getElem?] at hx
    cases hl : f.columns[j]? with
    | none => rw [hl] at hx; cases hx
    | some q =>
      rw [hl] at hx
      simp only [Option.map_some, Option.some.injEq] at hx
      subst hx
      simpa using hj j hjk

theorem readSheet_positions (s : Sheet) (i : ℕ) (p : Key × ℕ) (h : (readSheet s).columns[i]? = some p) :
    p.2 = i := by
  simp only [readSheet, List.getElem?_map] at h
  cases hr : (List.range s.width)[i]? with
  | none => rw [hr] at h; cases h
  | some k =>
    rw [hr] at h
    simp only [Option.map_some, Option.some.injEq] at h
    subst h
    have := List.getElem?_eq_some_iff.mp hr
    obtain ⟨hl, hk⟩ := this
    rw [List.getElem_range] at hk
    exact hk.symm

/-! ## Pieces of a sheet -/

/-- A renamed column of a piece of a frame without named columns is the column it was. -/
theorem renamed_column {l : List (Key × ℕ)} {cs : List Key} (m : List (Key × String)) (k : Key)
    (name : String) (hp : Plain l) (hk : k ∉ cs) (hm : m.lookup k = some name)
    (hu : ∀ p ∈ m, p.2 = name → p.1 = k) :
    ((l.filter (fun p => p.1 ∉ cs)).map (fun p => (relabel m p.1, p.2))).lookup (.named name) =
      l.lookup k := by
  rw [lookup_relabel _ hm hu (fun p hq => hp.filter _ p hq name), lookup_filter, if_neg hk]

theorem range_filter_head {n : ℕ} {g : ℕ → Key × ℕ} {q : Key × ℕ → Bool} {p : Key × ℕ}
    (h : (((List.range n).map g).filter q)[0]? = some p) :
    ∃ i < n, p = g i ∧ q (g i) = true ∧ ∀ j < i, q (g j) = false := by
  rw [← List.head?_eq_getElem?, List.head?_filter, List.find?_map] at h
  cases hf : (List.range n).find? (q ∘ g) with
  | none => rw [hf] at h; cases h
  | some i =>
    rw [hf] at h
    rw [List.find?_range_eq_some] at hf
    obtain ⟨h1, h2, h3⟩ := hf
    refine ⟨i, List.mem_range.mp h2, (Option.some.inj h).symm, h1, fun j hj => ?_⟩
    simpa using h3 j hj

theorem dropna_complete {s : Sheet} {g : DataFrame} {rows cs : List ℕ} (hb : BlankHeader s)
    (h : (readSheet s).drop (nums rows) (cols cs) = .ok g) (r : Key × ℕ) :
    g.columns.all (fun c => (g.cell r.2 c.2).isSome) = true ↔ Spec.FullRow s cs r.2 := by
  obtain ⟨hi, hc, hcell, _, _⟩ := drop_ok h
  rw [hc, hcell, readSheet_columns hb, List.all_eq_true]
  constructor
  · intro hall k hk hks
    refine hall (.unnamed k, k) (List.mem_filter.mpr ⟨List.mem_map.mpr ⟨k, List.mem_range.mpr hk, rfl⟩, ?_⟩)
    simpa [cols] using hks
  · intro hall c hcm
    obtain ⟨hm, hne⟩ := List.mem_filter.mp hcm
    obtain ⟨k, hk, rfl⟩ := List.mem_map.mp hm
    exact hall k (List.mem_range.mp hk) (by simpa [cols] using hne)

/-- The first row kept by `dropna` is the first complete one. -/
theorem dropna_head {s : Sheet} {g : DataFrame} {rows cs : List ℕ} {p : Key × ℕ} (hb : BlankHeader s)
    (h : (readSheet s).drop (nums rows) (cols cs) = .ok g) (hp : g.dropnaRows.index[0]? = some p) :
    Spec.FirstComplete s (rows.map (· + 2)) cs p.2 := by
  obtain ⟨hi, hc, hcell, _, _⟩ := drop_ok h
  have hq := dropna_complete hb h
  unfold dropnaRows at hp
  dsimp only at hp
  rw [hi, List.filter_filter] at hp
  unfold readSheet at hp
  dsimp only at hp
  obtain ⟨i, hin, rfl, hi1, hi2⟩ := range_filter_head hp
  rw [Bool.and_eq_true] at hi1
  refine ⟨⟨by omega, by dsimp only; omega⟩, ?_, (hq (.pos i, i + 2)).mp hi1.1, ?_⟩
  · simpa [nums] using hi1.2
  · intro r' h1 h2 h3 hcomp
    dsimp only at h2
    have := hi2 (r' - 2) (by omega)
    have he : r' - 2 + 2 = r' := by omega
    rw [he] at this
    have h4 := (hq (.pos (r' - 2), r')).mpr hcomp
    rw [Bool.and_eq_false_iff] at this
    rcases this with h5 | h5
    · rw [h4] at h5; cases h5
    · simp only [nums, List.mem_map, Key.pos.injEq, exists_eq_right, decide_eq_false_iff_not,
        not_not] at h5
      exact h3 (List.mem_map.mpr ⟨r' - 2, h5, he⟩)

/-- An hourly series of a sheet with its first rows dropped. -/
theorem series_column {s : Sheet} {g : DataFrame} {m : ℕ} {cs : List Key} {ren : List (Key × String)}
    {k : ℕ} {name : String} {xs : List Value} (hb : BlankHeader s)
    (h : (readSheet s).drop (nums (List.range m)) cs = .ok g)
    (hk : .unnamed k ∉ cs) (hm : ren.lookup (.unnamed k) = some name)
    (hu : ∀ p ∈ ren, p.2 = name → p.1 = .unnamed k)
    (hx : (g.rename ren).resetIndex.column (.named name) = .ok xs) :
    k < s.width ∧ xs = (List.range (s.height - 1 - m)).map (fun t => s.cell (t + m + 2) k) := by
  obtain ⟨hi, hc, hcell, _, _⟩ := drop_ok h
  unfold DataFrame.column at hx
  simp only [resetIndex, DataFrame.rename, hc] at hx
  rw [renamed_column ren (.unnamed k) name (plain_columns hb) hk hm hu, readSheet_lookup hb] at hx
  by_cases hw : k < s.width
  · rw [if_pos hw] at hx
    refine ⟨hw, ?_⟩
    dsimp only at hx
    have hx := Except.ok.inj hx
    have hpre : g.index = (List.range (s.height - 1 - m)).map (fun i => (Key.pos (i + m), i + m + 2)) := by
      rw [hi]
      exact filter_prefix (s.height - 1) m (fun i => .pos i) (fun i => i + 2) _
        (fun i _ => by simp [nums])
    rw [← hx, hcell]
    show (number 0 g.index).map ((fun r => (readSheet s).cell r k) ∘ Prod.snd) = _
    rw [← List.map_map, number_map_snd, hpre, List.map_map, List.map_map]
    rfl
  · rw [if_neg hw] at hx
    cases hx

/-! ## Slices of rows -/

theorem slice_range (n a c : ℕ) (g : ℕ → Key × ℕ) :
    (((List.range n).map g).drop a).take c = (List.range (min c (n - a))).map (fun i => g (i + a)) := by
  apply List.ext_getElem?
  intro i
  rw [List.getElem?_take, List.getElem?_map]
  by_cases hi : i < c
  · rw [if_pos hi, List.getElem?_drop, List.getElem?_map]
    by_cases hn : i < n - a
    · rw [List.getElem?_range (by omega), List.getElem?_range (by omega)]
      simp [Nat.add_comm]
    · rw [List.getElem?_eq_none (by simp; omega), List.getElem?_eq_none (by simp; omega)]
      rfl
  · rw [if_neg hi, List.getElem?_eq_none (by simp; omega)]
    rfl

theorem iloc_index (s : Sheet) (a b : ℕ) :
    ((readSheet s).iloc a b).index =
      (List.range (min (b - a) (s.height - 1 - a))).map (fun i => (.pos (i + a), i + a + 2)) :=
  slice_range _ _ _ _

theorem iloc_lookup {s : Sheet} {a b r i : ℕ}
    (h : ((readSheet s).iloc a b).index.lookup (.pos r) = some i) : i = r + 2 ∧ a ≤ r ∧ r < b := by
  have hm := lookup_mem h
  rw [iloc_index] at hm
  simp only [List.mem_map, List.mem_range, Prod.mk.injEq, Key.pos.injEq] at hm
  obtain ⟨j, hj, rfl, rfl⟩ := hm
  omega

theorem readSheet_index_some {s : Sheet} {r i : ℕ} (h : (readSheet s).index.lookup (.pos r) = some i) :
    i = r + 2 := by
  rw [readSheet_index] at h
  split at h
  · exact (Option.some.inj h).symm
  · cases h

theorem plain_iloc (s : Sheet) (a b : ℕ) : Plain ((readSheet s).iloc a b).index :=
  plain_take_drop (plain_index s) _ _

/-! ## Cells of transposed frames -/

/-- The first row of a transposed, cut and renamed frame. -/
theorem transposed_row {f g : DataFrame} {rows cs : List Key} (k K : ℕ) (ren : List (Key × String))
    (h : f.transpose.resetIndex.drop rows cs = .ok g)
    (hpos : ∀ (i : ℕ) (p : Key × ℕ), f.columns[i]? = some p → p.2 = i)
    (hK : Key.pos K ∈ rows) (hkK : k < K) (hk : Key.pos k ∉ rows) (hj : ∀ j < k, Key.pos j ∈ rows) :
    (g.rename ren).resetIndex.index.lookup (.pos 0) = some k ∧
      (g.rename ren).resetIndex.cell = fun i j => f.cell j i := by
  obtain ⟨_, _, hcell, _, _⟩ := drop_ok h
  have h0 := transposed_zero k K h hpos hK hkK hk hj
  refine ⟨h0, ?_⟩
  simp only [resetIndex, DataFrame.rename, hcell]
  rfl

theorem drop_nothing (f : DataFrame) : f.drop [] [] = .ok f := by
  unfold DataFrame.drop
  rw [if_pos ⟨by simp, by simp⟩]
  simp

/-! ## Replaced entries -/

theorem setCell_ok {f f' : DataFrame} {r c : Key} {v : Value} (h : f.setCell r c v = .ok f') :
    ∃ i j, f.index.lookup r = some i ∧ f.columns.lookup c = some j ∧ f'.index = f.index ∧
      f'.columns = f.columns ∧
      f'.cell = fun i' j' => if i' = i ∧ j' = j then v else f.cell i' j' := by
  unfold DataFrame.setCell at h
  split at h
  · cases h
  · rename_i i hi
    split at h
    · cases h
    · rename_i j hj
      cases Except.ok.inj h
      exact ⟨i, j, hi, hj, rfl, rfl, rfl⟩

end Workbook
end Verif
