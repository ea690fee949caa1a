import Verif.Lemmas.Total

/-! # Lemmas for the workbooks from which the objects can be made: sizes, heat pump, heater, grid -/

set_option autoImplicit false

namespace Verif
namespace Simulation
open Pandas DataFrame Workbook InputReader FixedOrder Enums Tariff

/-! ## The sizes of a combination -/

theorem scaleDuty_total {s : Sheet} {f : DataFrame} {k a n : ℕ} (hf : TableAt s f k a n)
    (ht : ∀ i < n, NoText (s.cell (i + a) (k + 2))) (r : ℚ) : ∃ f', scaleDuty f r = .ok f' := by
  have hl : f.columns.lookup (.named "duty") = some (k + 2) := by rw [hf.columns]; rfl
  unfold scaleDuty DataFrame.column
  rw [hl]
  simp only [okBind]
  rw [if_pos]
  · unfold mapColumn
    rw [hl]
    exact ⟨_, rfl⟩
  · rw [List.all_eq_true]
    intro v hv
    obtain ⟨p, hp, rfl⟩ := List.mem_map.mp hv
    have hp2 : p.2 ∈ f.index.map Prod.snd := List.mem_map_of_mem hp
    rw [hf.rows] at hp2
    obtain ⟨i, hi, hip⟩ := List.mem_map.mp hp2
    have := ht i (List.mem_range.mp hi)
    rw [hf.cell, ← hip]
    generalize s.cell (i + a) (k + 2) = w at this
    match w, this with
    | none, _ => rfl
    | some (.num _), _ => rfl
    | some (.text t), h => exact absurd rfl (h t)

theorem resize_total {s s' : Sheet} {b : Container} (size : ℤ × ℤ) (hb : BlankHeader s)
    (hf : heatPump (readSheet s) = .ok b.heatPump)
    (hf' : thermalStorage (readSheet s') = .ok b.thermalStorage) (hw : 19 ≤ s.width)
    (hh : 26 ≤ s.height) (hh' : 23 ≤ s'.height) (hcap : IsNum (s.cell 5 3))
    (hu : ∀ i < 8, NoText (s.cell (i + 27) 4) ∧ NoText (s.cell (i + 27) 8))
    (hl : ∀ i < 7, NoText (s.cell (i + 41) 4) ∧ NoText (s.cell (i + 41) 8)) :
    ∃ c, resizeContainer size b = .ok c := by
  obtain ⟨hb1, -, -, -, -, -, -, -, g1, g2, g3, g4⟩ := heatPump_ok hf
  obtain ⟨t1, t2, t3, t4⟩ := tables hb hw hh g1 g2 g3 g4
  have B := basics_at hb1
  have C := basics_columns hb1 (by omega)
  have T := thermal_at hf'
  have D := thermal_columns hf' hh'
  obtain ⟨x, hx⟩ := hcap
  have c5 := C ("capacity", 5) (by simp)
  have d5 := D ("capacity", 5) (by simp)
  have hz : zero b.heatPump.basics "capacity" = .ok (some (.num x)) := by
    unfold zero
    rw [get_eq c5 B.row, B.cell]
    exact congrArg Except.ok hx
  obtain ⟨basics, hs1, -⟩ := set_eq (x := some (.num size.1)) B.row c5 B.cell
  obtain ⟨ts, hs2, -⟩ := set_eq (x := some (.num size.2)) T.row d5 T.cell
  obtain ⟨r1, k1⟩ := scaleDuty_total t1 (fun i hi => (hu i (by omega)).1) (Para.ratio size.1 x)
  obtain ⟨r2, k2⟩ := scaleDuty_total t2 (fun i hi => (hu i (by omega)).2) (Para.ratio size.1 x)
  obtain ⟨r3, k3⟩ := scaleDuty_total t3 (fun i hi => (hl i (by omega)).1) (Para.ratio size.1 x)
  obtain ⟨r4, k4⟩ := scaleDuty_total t4 (fun i hi => (hl i (by omega)).2) (Para.ratio size.1 x)
  unfold resizeContainer
  simp only [hz, okBind, numOf, hs1, k1, k2, k3, k4, hs2]
  exact ⟨_, rfl⟩

/-! ## Heater -/

theorem aux_total {s : Sheet} {c : Container} {fuel : Fuel} (hf : aux (readSheet s) = .ok (c.auxFuel,
    c.auxEfficiency, c.fuelInfo)) (h6 : IsNum (s.cell 6 3)) (hfuel : fuelOf (s.cell 6 2) = .ok fuel)
    (ht : fuel ≠ .electric → ∃ r, 9 ≤ r ∧ r ≤ 11 ∧ fuelOf (s.cell r 2) = .ok fuel ∧
      (∀ r', r < r' → r' ≤ 11 → fuelOf (s.cell r' 2) ≠ .ok fuel) ∧ IsNum (s.cell r 3) ∧
      IsNum (s.cell r 4)) : ∃ a, makeAux c = .ok a := by
  obtain ⟨h1, h2, f1, f2, f3, g1, g2, g3, htab⟩ := aux_cells hf
  obtain ⟨e, he⟩ := h6
  rw [← h2] at he
  have : c.auxFuel = fuel := Except.ok.inj (h1.symm.trans hfuel)
  unfold makeAux
  simp only [he, numOf, okBind]
  by_cases hel : c.auxFuel = .electric
  · rw [if_pos hel]
    exact ⟨_, rfl⟩
  · rw [if_neg hel]
    obtain ⟨r, hr1, hr2, hrf, hlast, ⟨x, hx⟩, ⟨y, hy⟩⟩ := ht (this ▸ hel)
    have hd : fuelDict c.fuelInfo c.auxFuel =
        some [("energy_density", s.cell r 3), ("cost", s.cell r 4)] := by
      rw [htab, this]
      unfold fuelDict
      simp only [List.reverse_cons, List.reverse_nil, List.nil_append, List.cons_append, List.lookup_cons,
        List.lookup_nil]
      rcases (by omega : r = 9 ∨ r = 10 ∨ r = 11) with rfl | rfl | rfl
      · have e3 : fuel ≠ f3 := fun h => hlast 11 (by omega) (by omega) (h ▸ g3)
        have e2 : fuel ≠ f2 := fun h => hlast 10 (by omega) (by omega) (h ▸ g2)
        rw [beq_eq_false_iff_ne.mpr e3, beq_eq_false_iff_ne.mpr e2,
          beq_iff_eq.mpr (Except.ok.inj (hrf.symm.trans g1))]
      · have e3 : fuel ≠ f3 := fun h => hlast 11 (by omega) (by omega) (h ▸ g3)
        rw [beq_eq_false_iff_ne.mpr e3, beq_iff_eq.mpr (Except.ok.inj (hrf.symm.trans g2))]
      · rw [beq_iff_eq.mpr (Except.ok.inj (hrf.symm.trans g3))]
    rw [hd, hx, hy]
    exact ⟨_, rfl⟩

/-! ## Grid -/

/-- The grid sheet has the numbers its tariff uses. -/
structure TariffCells (s : Sheet) (t : String) : Prop where
  known : t ∈ ["Flat rates", "Variable periods", "Time of use - WM", "Time of use - PPA + FR",
    "Time of use - PPA + WM", "Time of use - PPA + VP"]
  flat : t = "Flat rates" ∨ t = "Time of use - PPA + FR" → IsNum (s.cell 9 2)
  periods : t = "Variable periods" ∨ t = "Time of use - PPA + VP" →
    (∃ y : ℤ, s.cell 42 13 = some (.num y)) ∧
      ∀ h < 24, ∀ d, IsNum (s.cell (h + 18) ((Spec.dayLetter d).toNat - 'A'.toNat))
  market : t = "Time of use - WM" ∨ t = "Time of use - PPA + WM" → IsNum (s.cell 9 6) ∧
    IsNum (s.cell 9 7) ∧ ∀ r, 12 ≤ r → r ≤ s.height → r < 8772 → IsNum (s.cell r 2)
  ppa : t = "Time of use - PPA + FR" ∨ t = "Time of use - PPA + WM" ∨ t = "Time of use - PPA + VP" →
    ∀ k ∈ [9, 10, 11, 12], IsNum (s.cell 9 k)

theorem grid_columns {s : Sheet} {g : GridPart} (h : grid (readSheet s) = .ok g) (hb : BlankHeader s)
    (hw : 23 ≤ s.width) :
    g.wholesaleMarket.column (.named "wholesale_market") =
      .ok ((List.range (min 8760 (s.height - 11))).map (fun t => s.cell (t + 12) 2)) ∧
    ∀ d, g.variablePeriods.column (.named (dayColumn d)) = .ok ((List.range (min 24 (s.height - 17))).map
      (fun h => s.cell (h + 18) ((Spec.dayLetter d).toNat - 'A'.toNat))) := by
  unfold grid at h
  simp only [except_bind_ok, except_pure_ok] at h
  obtain ⟨v1, h1, v2, h2, v3, h3, v4, h4, f, hf, s1, hs1, s2, hs2, v5, h5, v6, h6, p, hp, v7, h7, wm, hwm,
    bm, hbm, pp, hpp, v8, h8, v9, h9, v10, h10, v11, h11, v12, h12, v13, h13, rfl⟩ := h
  unfold gridSeries at hwm
  simp only [except_bind_ok, except_pure_ok] at hwm
  obtain ⟨w, hw', hwm⟩ := hwm
  constructor
  · dsimp only
    rw [← hwm]
    exact slice_eq 2 hb hf hw' (by decide) (by decide) (by decide) (by decide) (by omega)
  · intro d
    cases d
    · exact slice_eq 7 hb hf hp (by decide) (by decide) (by decide) (by decide) (by omega)
    · exact slice_eq 8 hb hf hp (by decide) (by decide) (by decide) (by decide) (by omega)
    · exact slice_eq 9 hb hf hp (by decide) (by decide) (by decide) (by decide) (by omega)
    · exact slice_eq 10 hb hf hp (by decide) (by decide) (by decide) (by decide) (by omega)
    · exact slice_eq 11 hb hf hp (by decide) (by decide) (by decide) (by decide) (by omega)
    · exact slice_eq 12 hb hf hp (by decide) (by decide) (by decide) (by decide) (by omega)
    · exact slice_eq 13 hb hf hp (by decide) (by decide) (by decide) (by decide) (by omega)

theorem intOf_total (y : ℤ) : intOf (some (.num (y : ℚ))) = .ok y := by
  unfold intOf
  simp only [numOf, okBind]
  rw [if_pos (Rat.den_intCast y), Rat.num_intCast]

theorem grid_total {s : Sheet} {g : GridPart} {t : String} (h : grid (readSheet s) = .ok g)
    (hb : BlankHeader s) (hw : 23 ≤ s.width) (h5 : s.cell 5 3 = some (.text t)) (ht : TariffCells s t) :
    ∃ o, makeGrid g = .ok o := by
  have C := grid_cells h
  obtain ⟨hm, hp⟩ := grid_columns h hb hw
  have flat : t = "Flat rates" ∨ t = "Time of use - PPA + FR" → ∃ x, flatRate g = .ok x := by
    intro h
    obtain ⟨x, hx⟩ := ht.flat h
    unfold flatRate
    rw [C.flat, hx]
    exact ⟨x, rfl⟩
  have ppa : t = "Time of use - PPA + FR" ∨ t = "Time of use - PPA + WM" ∨ t = "Time of use - PPA + VP" →
      ∃ a b c d, ppaTerms g = .ok (a, b, c, d) := by
    intro h
    have := ht.ppa h
    simp only [List.forall_mem_cons, List.not_mem_nil, false_implies, implies_true, and_true] at this
    obtain ⟨⟨a, ha⟩, ⟨b, hb⟩, ⟨c, hc⟩, ⟨d, hd⟩⟩ := this
    unfold ppaTerms
    rw [C.ppa, ha, hb, hc, hd]
    exact ⟨a, b, c, d, rfl⟩
  have market : t = "Time of use - WM" ∨ t = "Time of use - PPA + WM" →
      ∃ xs a b, market g = .ok (xs, a, b) := by
    intro h
    obtain ⟨⟨a, ha⟩, ⟨b, hb⟩, hx⟩ := ht.market h
    obtain ⟨xs, hxs, -⟩ := numbers_total (n := min 8760 (s.height - 11))
      (g := fun t => s.cell (t + 12) 2) (fun t htn => hx (t + 12) (by omega) (by omega) (by omega))
    unfold Simulation.market
    rw [hm, C.wm, ha, hb]
    simp only [okBind, hxs]
    exact ⟨xs, a, b, rfl⟩
  have periods : t = "Variable periods" ∨ t = "Time of use - PPA + VP" →
      ∃ p, periodsOf g.variablePeriods = .ok p := by
    intro h
    obtain ⟨-, hx⟩ := ht.periods h
    have key : ∀ d, ∃ xs, numbers ((List.range (min 24 (s.height - 17))).map
        (fun h => s.cell (h + 18) ((Spec.dayLetter d).toNat - 'A'.toNat))) = .ok xs := by
      intro d
      obtain ⟨xs, hxs, -⟩ := numbers_total (n := min 24 (s.height - 17))
        (g := fun h => s.cell (h + 18) ((Spec.dayLetter d).toNat - 'A'.toNat))
        (fun t htn => hx t (by omega) d)
      exact ⟨xs, hxs⟩
    obtain ⟨x1, k1⟩ := key .monday
    obtain ⟨x2, k2⟩ := key .tuesday
    obtain ⟨x3, k3⟩ := key .wednesday
    obtain ⟨x4, k4⟩ := key .thursday
    obtain ⟨x5, k5⟩ := key .friday
    obtain ⟨x6, k6⟩ := key .saturday
    obtain ⟨x7, k7⟩ := key .sunday
    unfold periodsOf
    simp only [hp, okBind, k1, k2, k3, k4, k5, k6, k7]
    exact ⟨_, rfl⟩
  have year : t = "Variable periods" ∨ t = "Time of use - PPA + VP" →
      ∃ y, intOf g.variablePeriodsYear = .ok y := by
    intro h
    obtain ⟨⟨y, hy⟩, -⟩ := ht.periods h
    rw [C.year, hy, intOf_total]
    exact ⟨y, rfl⟩
  have hc := C.tariff.trans h5
  have hk := ht.known
  simp only [List.mem_cons, List.not_mem_nil, or_false] at hk
  unfold makeGrid
  rw [hc]
  rcases hk with rfl | rfl | rfl | rfl | rfl | rfl
  · obtain ⟨x, hx⟩ := flat (.inl rfl)
    simp only [hx, okBind]
    exact ⟨_, rfl⟩
  · obtain ⟨x, hx⟩ := periods (.inl rfl)
    obtain ⟨y, hy⟩ := year (.inl rfl)
    simp only [hx, hy, okBind]
    exact ⟨_, rfl⟩
  · obtain ⟨x, a, b, hx⟩ := market (.inl rfl)
    simp only [hx, okBind]
    exact ⟨_, rfl⟩
  · obtain ⟨x, hx⟩ := flat (.inr rfl)
    obtain ⟨a, b, c, d, hp⟩ := ppa (.inl rfl)
    simp only [hx, hp, okBind]
    exact ⟨_, rfl⟩
  · obtain ⟨x, a', b', hx⟩ := market (.inr rfl)
    obtain ⟨a, b, c, d, hp⟩ := ppa (.inr (.inl rfl))
    simp only [hx, hp, okBind]
    exact ⟨_, rfl⟩
  · obtain ⟨x, hx⟩ := periods (.inr rfl)
    obtain ⟨y, hy⟩ := year (.inr rfl)
    obtain ⟨a, b, c, d, hp⟩ := ppa (.inr (.inr rfl))
    simp only [hx, hy, hp, okBind]
    exact ⟨_, rfl⟩

end Simulation
end Verif
