import Verif.Model.Findhorn
import Verif.Props.Grid

/-! # The tariff for Findhorn (C136) -/

set_option autoImplicit false

namespace Verif
open Tariff Spec FixedOrder

theorem findhorn_bind {α β : Type} (a : α) (k : α → Except PyErr β) : (Except.ok a >>= k) = k a := rfl

theorem findhorn_rows {g : Grid} {rows : List (ℚ × ℚ)} {vp : List ℚ} (hp : variablePeriodsSeries g = .ok vp) :
    findhornTariff g (some rows) = (List.range 8760).mapM (findhornHour vp (rows.map fun r => r.2 - r.1)) := by
  unfold findhornTariff
  rw [hp, findhorn_bind]

/-- **Every hour has its price**: 30 if the site exports at least 50 more than it imports, otherwise the price of the
period. The prices are those of the year's 8760 hours, and the file has a row for each of them. -/
theorem C136_prices {g : Grid} {rows : List (ℚ × ℚ)} {vp xs : List ℚ} (hp : variablePeriodsSeries g = .ok vp)
    (h : findhornTariff g (some rows) = .ok xs) :
    xs.length = 8760 ∧ ∀ t, t < 8760 → ∃ imported exported, rows[t]? = some (imported, exported) ∧
      (imported + 50 ≤ exported → xs[t]? = some 30) ∧ (exported < imported + 50 → xs[t]? = vp[t]?) := by
  rw [findhorn_rows hp] at h
  refine ⟨by rw [mapM_length h, List.length_range], fun t ht => ?_⟩
  obtain ⟨y, h1, h2⟩ := mapM_range_get h ht
  unfold findhornHour column at h2
  rw [List.getElem?_map] at h2
  cases hr : rows[t]? with
  | none => rw [hr] at h2; cases h2
  | some r =>
    obtain ⟨a, b⟩ := r
    rw [hr] at h2
    change (if b - a ≥ 50 then _ else _) = _ at h2
    refine ⟨a, b, rfl, fun c => ?_, fun c => ?_⟩
    · rw [if_pos (by linarith)] at h2
      rw [h1, ← Except.ok.inj h2]
    · rw [if_neg (by linarith)] at h2
      unfold position at h2
      cases hv : vp[t]? with
      | none => rw [hv] at h2; cases h2
      | some v =>
        rw [hv] at h2
        rw [h1, ← Except.ok.inj h2]

/-- **With the file at hand the prices can be made**: exactly if the file has a row for every hour of the year. -/
theorem C136_file_needed {g : Grid} {vp : List ℚ} (hp : variablePeriodsSeries g = .ok vp) (csv : Option (List (ℚ × ℚ))) :
    (∃ xs, findhornTariff g csv = .ok xs) ↔ ∃ rows, csv = some rows ∧ 8760 ≤ rows.length := by
  constructor
  · rintro ⟨xs, h⟩
    cases csv with
    | none =>
      unfold findhornTariff at h
      rw [hp] at h
      cases h
    | some rows =>
      refine ⟨rows, rfl, ?_⟩
      obtain ⟨a, b, hr, -⟩ := (C136_prices hp h).2 8759 (by omega)
      have := (List.getElem?_eq_some_iff.mp hr).1
      omega
  · rintro ⟨rows, rfl, hl⟩
    obtain ⟨_, _, -, -, -, -, hv, -⟩ := variablePeriods_ok hp
    rw [findhorn_rows hp]
    apply mapM_total
    intro t ht
    rw [List.mem_range] at ht
    have hr : rows[t]? = some rows[t] := List.getElem?_eq_getElem (by omega)
    have hw : vp[t]? = some vp[t] := List.getElem?_eq_getElem (by omega)
    unfold findhornHour column position
    rw [List.getElem?_map, hr, hw]
    change ∃ y, (if rows[t].2 - rows[t].1 ≥ 50 then _ else _) = _
    split_ifs
    · exact ⟨_, rfl⟩
    · exact ⟨_, rfl⟩

/-- **As shipped it never works**: the file is not part of the package, so every call fails, whatever the grid. If the
periods are in order, the error is `FileNotFoundError`. -/
theorem C136_not_shipped (g : Grid) :
    (∀ xs, findhornTariff g none ≠ .ok xs) ∧
    (∀ vp, variablePeriodsSeries g = .ok vp → findhornTariff g none = .error .fileNotFoundError) := by
  refine ⟨fun xs h => ?_, fun vp hp => ?_⟩
  · unfold findhornTariff at h
    simp only [except_bind_ok] at h
    obtain ⟨_, -, h⟩ := h
    cases h
  · unfold findhornTariff
    rw [hp]
    rfl

/-- **The price falls with a surplus if the periods cost at least 30**: it is never above the price of the period. -/
theorem C136_never_dearer_partial {g : Grid} {rows : List (ℚ × ℚ)} {vp xs : List ℚ} (hp : variablePeriodsSeries g = .ok vp)
    (h : findhornTariff g (some rows) = .ok xs) (h30 : ∀ v ∈ vp, 30 ≤ v) {t : ℕ} {x v : ℚ} (hx : xs[t]? = some x)
    (hv : vp[t]? = some v) : x ≤ v := by
  obtain ⟨hl, key⟩ := C136_prices hp h
  have ht : t < 8760 := by have := (List.getElem?_eq_some_iff.mp hx).1; omega
  obtain ⟨a, b, -, k1, k2⟩ := key t ht
  rcases le_or_gt (a + 50) b with c | c
  · rw [k1 c] at hx
    rw [← Option.some.inj hx]
    exact h30 v (List.mem_of_getElem? hv)
  · rw [k2 c, hv] at hx
    exact (Option.some.inj hx).ge

/-- The table with one price for every hour of the week. -/
def onePrice (p : ℚ) : Grid :=
  { tariff := "Variable periods", year := some 2021, periods := some fun _ => List.replicate 24 p }

theorem onePrice_series (p : ℚ) : ∃ vp, variablePeriodsSeries (onePrice p) = .ok vp ∧ vp[12]? = some p := by
  obtain ⟨vp, hv⟩ := variablePeriods_total (g := onePrice p) rfl rfl (by decide) (by decide)
    (fun _ => List.length_replicate)
  refine ⟨vp, hv, ?_⟩
  obtain ⟨year, table, hy, hp, y1, y2, -, hw, -⟩ := variablePeriods_ok hv
  obtain ⟨w, hd⟩ := dayName_total y1 y2 1 (0 % 7 + 1)
  have e := hw 0 12 (by decide) (by decide) w hd
  rw [← Option.some.inj hp] at e
  exact e

/-- **A surplus can make electricity dearer**: with a price of 10 in every period an hour with a surplus costs 30. -/
theorem C136_surplus_dearer : ∃ (g : Grid) (rows : List (ℚ × ℚ)) (vp xs : List ℚ), variablePeriodsSeries g = .ok vp ∧
    findhornTariff g (some rows) = .ok xs ∧ rows[12]? = some (0, 60) ∧ vp[12]? = some 10 ∧ xs[12]? = some 30 := by
  obtain ⟨vp, hp, h12⟩ := onePrice_series 10
  have hr : (List.replicate 8760 ((0 : ℚ), (60 : ℚ)))[12]? = some (0, 60) := by
    rw [List.getElem?_replicate, if_pos (by decide)]
  obtain ⟨xs, hx⟩ := (C136_file_needed hp (some (List.replicate 8760 (0, 60)))).mpr ⟨_, rfl, List.length_replicate.ge⟩
  refine ⟨onePrice 10, _, vp, xs, hp, hx, hr, h12, ?_⟩
  obtain ⟨a, b, e, k, -⟩ := (C136_prices hp hx).2 12 (by decide)
  rw [hr] at e
  cases e
  exact k (by norm_num)

example : ∃ xs, findhornTariff (onePrice 120) (some (List.replicate 8760 (20, 60))) = .ok xs ∧ xs[12]? = some 120 := by
  obtain ⟨vp, hp, h12⟩ := onePrice_series 120
  have hr : (List.replicate 8760 ((20 : ℚ), (60 : ℚ)))[12]? = some (20, 60) := by
    rw [List.getElem?_replicate, if_pos (by decide)]
  obtain ⟨xs, hx⟩ := (C136_file_needed hp (some (List.replicate 8760 (20, 60)))).mpr ⟨_, rfl, List.length_replicate.ge⟩
  refine ⟨xs, hx, ?_⟩
  obtain ⟨a, b, e, -, k⟩ := (C136_prices hp hx).2 12 (by decide)
  rw [hr] at e
  cases e
  rw [k (by norm_num), h12]

end Verif
