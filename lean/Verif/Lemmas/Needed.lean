import Verif.Lemmas.FilledHp

/-! # Lemmas for what a workbook must hold if the objects were made -/

set_option autoImplicit false

namespace Verif
namespace Simulation
open Pandas DataFrame Workbook InputReader FixedOrder Enums Tariff HpConfig

theorem battery_width {s : Pandas.Sheet} {c : Container} {b : Battery} (hb : BlankHeader s)
    (hf : Workbook.electricalStorage (readSheet s) = .ok c.electricalStorage)
    (h : makeBattery c = .ok b) : 9 ≤ s.width := by
  obtain ⟨-, -, -, -, -, -, h7⟩ := makeBattery_ok h
  unfold Workbook.electricalStorage at hf
  simp only [except_bind_ok, except_pure_ok] at hf
  obtain ⟨g, hg, hf⟩ := hf
  rw [← hf] at h7
  obtain ⟨i, j, hj, -, -⟩ := get_ok h7
  obtain ⟨_, hc, _⟩ := drop_ok hg
  simp only [resetIndex, DataFrame.rename, dropnaRows] at hj
  rw [hc, renamed_column _ (.unnamed 8) "self discharge" (plain_columns hb) (by decide) (by decide)
    (by decide), readSheet_lookup hb] at hj
  by_contra hlt
  rw [if_neg (by omega)] at hj
  cases hj

theorem thermal_height {s : Pandas.Sheet} {c : Container} {f : DataFrame} {x : Value} {t : TankInputs}
    (hf : thermalStorage (readSheet s) = .ok f)
    (hset : f.setCell (.pos 0) (.named "capacity") x = .ok c.thermalStorage)
    (ht : hotWaterTank c = .ok t) : 23 ≤ s.height := by
  unfold hotWaterTank at ht
  simp only [except_bind_ok] at ht
  obtain ⟨v1, _, v2, _, v3, _, v4, _, v5, _, v6, _, v7, _, v8, _, v9, _, v10, _, v11, _, v12, _, v13, _,
    v14, _, v15, h15, _⟩ := ht
  obtain ⟨i, j, hj, -, -⟩ := get_ok h15
  have hcols : c.thermalStorage.columns = f.columns := by
    unfold setCell at hset
    split at hset
    · cases hset
    · split at hset
      · cases hset
      · rw [← Except.ok.inj hset]
  rw [hcols] at hj
  unfold thermalStorage at hf
  simp only [except_bind_ok, except_pure_ok] at hf
  obtain ⟨g, hg, hf⟩ := hf
  rw [← hf] at hj
  obtain ⟨_, hc, _⟩ := drop_ok hg
  simp only [resetIndex, DataFrame.rename, hc] at hj
  rw [renamed_column _ (.pos 21) "overall_factor" (l := (readSheet s).transpose.columns) (plain_index s)
    (by decide) (by decide) (by decide)] at hj
  have hj' : (readSheet s).index.lookup (.pos 21) = some j := hj
  rw [readSheet_index] at hj'
  by_contra hlt
  rw [if_neg (by omega)] at hj'
  cases hj'

theorem floats_noText {vs xs : List Value} (h : floats vs = .ok xs) : ∀ v ∈ vs, NoText v := by
  unfold floats at h
  split at h
  · rename_i ha
    intro v hv t ht
    have := List.all_eq_true.mp ha v hv
    rw [ht] at this
    cases this
  · cases h

theorem curve_noText {s : Pandas.Sheet} {c : Container} {u : Dict} {curve : List (Value × Value)}
    (hb : BlankHeader s) (hp : powerCurve (readSheet s) = .ok c.powerCurve)
    (h : windturbineUser c = .ok (u, curve)) :
    ∀ r ∈ Spec.completeRows s [14, 15, 19, 20, 23] [0, 1, 4, 5, 6],
      NoText (s.cell r 2) ∧ NoText (s.cell r 3) := by
  unfold windturbineUser at h
  simp only [except_bind_ok, except_pure_ok] at h
  obtain ⟨vs, k1, vs', k2, ws, k3, ws', k4, -⟩ := h
  unfold powerCurve at hp
  simp only [except_bind_ok, except_pure_ok] at hp
  obtain ⟨g', hg', hp⟩ := hp
  rw [← hp] at k1 k3
  have e1 := dropna_column 2 hb hg' (by decide) (by decide) (by decide) k1
  have e2 := dropna_column 3 hb hg' (by decide) (by decide) (by decide) k3
  have n1 := floats_noText k2
  have n2 := floats_noText k4
  rw [e1] at n1
  rw [e2] at n2
  intro r hr
  exact ⟨n1 _ (List.mem_map.mpr ⟨r, hr, rfl⟩), n2 _ (List.mem_map.mpr ⟨r, hr, rfl⟩)⟩

theorem pv_inverter {s : Pandas.Sheet} {c : Container} {L : Libs} {d : Dict} {w : Columns} {o : PvObj}
    (hb : BlankHeader s) (hs : pvSpec (readSheet s) = .ok c.pvSpec) (hd : pvModel c = .ok d)
    (h : makePv L d w = .ok o) :
    ∃ row i, Spec.FirstComplete s [19] [0, 1] row ∧ s.cell row 3 = some (.text i) := by
  unfold pvModel at hd
  simp only [except_bind_ok, except_pure_ok] at hd
  obtain ⟨v1, h1, v2, h2, v3, h3, v4, h4, v5, h5, v6, h6, v7, h7, v8, h8, v9, h9, v10, h10, rfl⟩ := hd
  unfold makePv at h
  simp only [except_bind_ok, dict_cons, reduceIte, String.reduceEq, Except.ok.injEq, exists_eq_left',
    textOf_ok] at h
  obtain ⟨m, rfl, i, rfl, -⟩ := h
  unfold pvSpec at hs
  simp only [except_bind_ok, except_pure_ok] at hs
  obtain ⟨g, hg, hs⟩ := hs
  rw [← hs] at h2
  obtain ⟨r, f, e⟩ := dropna_first 3 hb hg (by decide) (by decide) (by decide) h2
  exact ⟨r, i, f, e.symm⟩

theorem scaleDuty_noText {s : Pandas.Sheet} {f f' : DataFrame} {k a n : ℕ} {r : ℚ} (hf : TableAt s f k a n)
    (h : scaleDuty f r = .ok f') : ∀ i < n, NoText (s.cell (i + a) (k + 2)) := by
  have hl : f.columns.lookup (.named "duty") = some (k + 2) := by rw [hf.columns]; rfl
  unfold scaleDuty DataFrame.column at h
  rw [hl] at h
  simp only [okBind] at h
  split at h
  · rename_i ha
    intro i hi t ht
    have hm : i + a ∈ f.index.map Prod.snd := by
      rw [hf.rows]
      exact List.mem_map.mpr ⟨i, List.mem_range.mpr hi, rfl⟩
    obtain ⟨p, hp, hpi⟩ := List.mem_map.mp hm
    have := List.all_eq_true.mp ha _ (List.mem_map.mpr ⟨p, hp, rfl⟩)
    rw [hf.cell, hpi, ht] at this
    cases this
  · cases h

theorem standard_some {s : Pandas.Sheet} {r : ℚ} {c : Container} {x cosp duty : Table} {data : TestData}
    (hb : BlankHeader s) (hw : s.width = 19) (hh : 26 ≤ s.height) (he : Spec.EndsEmpty s) (hs : Scaled s r c.heatPump)
    (h : heatpumpStandard c = .ok (x, cosp, duty)) (hd : testData x cosp duty = .ok data)
    (hc : Standard.trainCheck data.xShape data.copShape data.dutyShape = .ok ()) :
    Spec.testPoints s r ≠ [] := by
  rw [← test_points hb hw hh he hs h hd]
  unfold testData at hd
  simp only [except_bind_ok, except_pure_ok] at hd
  obtain ⟨pts, hp, rfl⟩ := hd
  have hlen := mapM_length hp
  intro h0
  have h0' : pts = [] := h0
  rw [h0'] at hlen
  unfold Standard.trainCheck at hc
  dsimp only at hc
  split at hc
  · cases hc
  · split at hc
    · cases hc
    · rw [if_pos (Or.inl (by simpa using hlen.symm))] at hc
      cases hc

theorem built_standard {a : HpArgs} {o : HpObj} {d : TestData} (h : construct a = .ok o)
    (hn : a.approach = .member .standard) (hd : a.standard = some d) :
    Standard.trainCheck d.xShape d.copShape d.dutyShape = .ok () := by
  obtain ⟨-, -, -, -, -, hm, -⟩ := construct_ok h
  unfold buildModel at hm
  rw [hn, hd] at hm
  rw [if_neg (by decide), if_neg (by decide), if_neg (by decide), if_pos (by decide)] at hm
  dsimp only at hm
  cases hc : Standard.trainCheck d.xShape d.copShape d.dutyShape with
  | ok u => rfl
  | error e => rw [hc] at hm; cases hm

end Simulation
end Verif
