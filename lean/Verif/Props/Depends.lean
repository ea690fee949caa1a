import Verif.Spec.Depends
import Verif.Props.Weather

/-!
# Property C98: which entries of the workbook the results depend on
-/

set_option autoImplicit false

namespace Verif
open Pandas Workbook InputReader Enums Simulation Spec FixedOrder Programme Tariff

namespace Depends

theorem opt_eq {α : Type} {a b : Option α} (h : a.isSome ↔ b.isSome)
    (hv : ∀ x y, a = some x → b = some y → x = y) : a = b := by
  cases a with
  | none =>
    cases b with
    | none => rfl
    | some y => cases h.mpr rfl
  | some x =>
    cases b with
    | none => cases h.mp rfl
    | some y => exact congrArg some (hv x y rfl rfl)

theorem num_eq {v w : Value} {x y : ℚ} (e : v = w) (hx : v = some (.num x)) (hy : w = some (.num y)) :
    x = y := by
  have := hx.symm.trans (e.trans hy)
  injection this with this
  injection this

theorem text_eq {v w : Value} {x y : String} (e : v = w) (hx : v = some (.text x))
    (hy : w = some (.text y)) : x = y := by
  have := hx.symm.trans (e.trans hy)
  injection this with this
  injection this

variable {L : Libs} {wb wb' : Pandas.Workbook} {size : ℤ × ℤ}

theorem cell (h : SameUsed wb wb') {sheet : String} {col : Char} {rows : List ℕ} {r : ℕ}
    (hm : (sheet, col, rows) ∈ usedCells) (hr : r ∈ rows) :
    excel wb sheet col r = excel wb' sheet col r := h.cells _ hm r hr

theorem hourly_eq (h : SameUsed wb wb') {sheet : String} {col : Char} {row : ℕ} {xs ys : List ℚ}
    (hm : (sheet, col, row) ∈ usedColumns)
    (hl : sheet ∈ ["Weather resources", "Demand input", "Wind farm", "Grid"])
    (hx : Hourly wb sheet col row xs) (hy : Hourly wb' sheet col row ys) : xs = ys := by
  obtain ⟨s, hs, lx, cx⟩ := hx
  obtain ⟨s', hs', ly, cy⟩ := hy
  have hh := h.lengths sheet hl
  unfold lastRow at hh
  rw [hs, hs'] at hh
  dsimp only at hh
  apply List.ext_getElem (by omega)
  intro t h1 h2
  exact num_eq (h.columns _ hm (row + t) (Nat.le_add_right _ _)) (cx t _ (List.getElem?_eq_getElem h1))
    (cy t _ (List.getElem?_eq_getElem h2))

theorem entries_same (h : SameUsed wb wb') {sheet : String} {col : Char} {row : ℕ}
    (hm : (sheet, col, row) ∈ usedColumns)
    (hl : sheet ∈ ["Weather resources", "Demand input", "Wind farm", "Grid"])
    (h1 : (wb sheet).isSome) (h2 : (wb' sheet).isSome) :
    entries wb sheet col row = entries wb' sheet col row := by
  obtain ⟨s, hs⟩ := Option.isSome_iff_exists.mp h1
  obtain ⟨s', hs'⟩ := Option.isSome_iff_exists.mp h2
  have hh := h.lengths sheet hl
  unfold lastRow at hh
  rw [hs, hs'] at hh
  dsimp only at hh
  unfold entries
  rw [hs, hs']
  dsimp only
  rw [hh]
  exact List.map_congr_left (fun t _ => h.columns _ hm (row + t) (Nat.le_add_right _ _))

theorem fullRow_same {s s' : Pandas.Sheet} (hw : s.width = s'.width)
    (hc : ∀ r k, (s.cell r k).isSome = (s'.cell r k).isSome) (skip : List ℕ) (r : ℕ) :
    FullRow s skip r ↔ FullRow s' skip r := by
  unfold FullRow
  rw [hw]
  simp only [hc]

theorem first_same {s s' : Pandas.Sheet} (hw : s.width = s'.width) (hh : s.height = s'.height)
    (hc : ∀ r k, (s.cell r k).isSome = (s'.cell r k).isSome) {rows cs : List ℕ} {row : ℕ}
    (h : FirstComplete s rows cs row) : FirstComplete s' rows cs row :=
  ⟨by rw [← hh]; exact h.inside, h.notSkipped, (fullRow_same hw hc cs row).mp h.complete,
    fun r h1 h2 h3 h4 => h.earlier r h1 h2 h3 ((fullRow_same hw hc cs r).mpr h4)⟩

theorem complete_same {s s' : Pandas.Sheet} (hw : s.width = s'.width) (hh : s.height = s'.height)
    (hc : ∀ r k, (s.cell r k).isSome = (s'.cell r k).isSome) (rows cs : List ℕ) :
    completeRows s rows cs = completeRows s' rows cs := by
  unfold completeRows
  rw [hh]
  apply List.filter_congr
  intro r _
  simp only [fullRow_same hw hc]

theorem battery (h : SameUsed wb wb') (ht : TopRowsEmpty wb) (ht' : TopRowsEmpty wb') {o o' : Objects}
    (ho : objects L wb size = .ok o) (ho' : objects L wb' size = .ok o') : o.battery = o'.battery := by
  obtain ⟨s, row, hs, hrow, a1, a2, a3, a4, a5, a6, a7⟩ := C91_battery ht ho
  obtain ⟨s', row', hs', hrow', b1, b2, b3, b4, b5, b6, b7⟩ := C91_battery ht' ho'
  obtain ⟨e1, e2, e3⟩ := h.batteryShape s s' hs hs'
  cases firstComplete_unique (first_same e1 e2 e3 hrow) hrow'
  have c := h.battery s row hs hrow
  have f1 := num_eq (c 'C' (by decide)) a1 b1
  have f2 := num_eq (c 'D' (by decide)) a2 b2
  have f3 := num_eq (c 'E' (by decide)) a3 b3
  have f4 := num_eq (c 'F' (by decide)) a4 b4
  have f5 := num_eq (c 'G' (by decide)) a5 b5
  have f6 := num_eq (c 'H' (by decide)) a6 b6
  have f7 := num_eq (c 'I' (by decide)) a7 b7
  cases hb : o.battery
  cases hb' : o'.battery
  rw [hb, hb'] at f1 f2 f3 f4 f5 f6 f7
  dsimp only at f1 f2 f3 f4 f5 f6 f7
  rw [f1, f2, f3, f4, f5, f6, f7]

theorem electric_aux {o : Objects} (ho : objects L wb size = .ok o) (he : o.aux.electric = true) :
    o.aux.cost = 0 ∧ o.aux.energyDensity = 0 := by
  obtain ⟨b, c, hr, hs, hi⟩ := objects_ok ho
  have ha := (init_ok hi).aux
  unfold makeAux at ha
  obtain ⟨e, -, ha⟩ := except_bind_ok.mp ha
  split_ifs at ha with hf
  · rw [← except_pure_ok.mp ha]
    exact ⟨rfl, rfl⟩
  · split at ha
    · cases ha
    · simp only [except_bind_ok, except_pure_ok] at ha
      obtain ⟨_, -, _, -, _, -, _, -, ha⟩ := ha
      rw [← ha] at he
      cases he

theorem heater (h : SameUsed wb wb') {o o' : Objects}
    (ho : objects L wb size = .ok o) (ho' : objects L wb' size = .ok o') : o.aux = o'.aux := by
  obtain ⟨f, a1, a2, a3, a4⟩ := C91_heater ho
  obtain ⟨f', b1, b2, b3, b4⟩ := C91_heater ho'
  have c : ∀ {col : Char} {rows : List ℕ} {r : ℕ}, ("Aux heat", col, rows) ∈ usedCells → r ∈ rows →
      excel wb "Aux heat" col r = excel wb' "Aux heat" col r := fun hm hr => cell h hm hr
  rw [c (r := 6) (col := 'C') (rows := [6, 9, 10, 11]) (by decide) (by decide)] at a1
  cases Except.ok.inj (a1.symm.trans b1)
  have e1 : o.aux.electric = o'.aux.electric := by
    rw [Bool.eq_iff_iff, a3, b3]
  have e2 := num_eq (c (r := 6) (col := 'D') (rows := [6, 9, 10, 11]) (by decide) (by decide)) a2 b2
  have e3 : o.aux.cost = o'.aux.cost ∧ o.aux.energyDensity = o'.aux.energyDensity := by
    by_cases hf : f = .electric
    · obtain ⟨p1, p2⟩ := electric_aux ho (a3.mpr hf)
      obtain ⟨q1, q2⟩ := electric_aux ho' (b3.mpr hf)
      exact ⟨p1.trans q1.symm, p2.trans q2.symm⟩
    · obtain ⟨r, r1, r2, r3, r4, r5, r6⟩ := a4 hf
      obtain ⟨r', q1, q2, q3, q4, q5, q6⟩ := b4 hf
      have hrow : ∀ x, 9 ≤ x → x ≤ 11 → x ∈ [6, 9, 10, 11] ∧ x ∈ [9, 10, 11] := by
        intro x h1 h2
        have : x = 9 ∨ x = 10 ∨ x = 11 := by omega
        rcases this with rfl | rfl | rfl <;> decide
      have hc : ∀ x, 9 ≤ x → x ≤ 11 → excel wb "Aux heat" 'C' x = excel wb' "Aux heat" 'C' x :=
        fun x h1 h2 => c (rows := [6, 9, 10, 11]) (by decide) (hrow x h1 h2).1
      have : r = r' := by
        rcases Nat.lt_trichotomy r r' with hlt | heq | hgt
        · exact absurd (by rw [hc r' q1 q2]; exact q3) (r4 r' hlt q2)
        · exact heq
        · exact absurd (by rw [← hc r r1 r2]; exact r3) (q4 r hgt r2)
      subst this
      exact ⟨num_eq (c (rows := [9, 10, 11]) (by decide) (hrow r r1 r2).2) r6 q6,
        num_eq (c (rows := [6, 9, 10, 11]) (by decide) (hrow r r1 r2).1) r5 q5⟩
  cases hb : o.aux
  cases hb' : o'.aux
  rw [hb, hb'] at e1 e2 e3
  dsimp only at e1 e2 e3
  rw [e1, e2, e3.1, e3.2]

theorem tank (h : SameUsed wb wb') (ht : TopRowsEmpty wb) (ht' : TopRowsEmpty wb') {o o' : Objects}
    (ho : objects L wb size = .ok o) (ho' : objects L wb' size = .ok o') : o.tank = o'.tank := by
  obtain ⟨a1, a2, a3, a4, ⟨fi, fe, a5, a6, a7⟩, ⟨p1, p2, p3, p4, p5, p6, a8, a9, a10, a11, a12, a13, a14⟩⟩ :=
    C91_tank ho
  obtain ⟨b1, b2, b3, b4, ⟨gi, ge, b5, b6, b7⟩, ⟨q1, q2, q3, q4, q5, q6, b8, b9, b10, b11, b12, b13, b14⟩⟩ :=
    C91_tank ho'
  obtain ⟨air, water, source, ret, A1, -, -, -, -, -, -, A8, -⟩ := C93_temperatures ht ho
  obtain ⟨air', water', source', ret', B1, -, -, -, -, -, -, B8, -⟩ := C93_temperatures ht' ho'
  have c : ∀ r ∈ [6, 7, 8, 14, 15, 16, 17, 18, 19, 22, 23],
      excel wb "Thermal storage" 'D' r = excel wb' "Thermal storage" 'D' r :=
    fun r hr => cell h (rows := [6, 7, 8, 14, 15, 16, 17, 18, 19, 22, 23]) (by decide) hr
  have e1 := a1.trans b1.symm
  have e2 : o.tank.number = o'.tank.number := by exact_mod_cast num_eq (c 8 (by decide)) a2 b2
  have e3 : o.tank.insulation = o'.tank.insulation := by rw [a3, b3, c 6 (by decide)]
  have e4 : o.tank.location = o'.tank.location := by rw [a4, b4, c 7 (by decide)]
  have e5 : o.tank.wall = o'.tank.wall := by
    rw [a7, b7, num_eq (c 22 (by decide)) a5 b5, num_eq (c 23 (by decide)) a6 b6]
  have e6 : o.tank.connection = o'.tank.connection := by
    rw [a14, b14, num_eq (c 14 (by decide)) a8 b8, num_eq (c 15 (by decide)) a9 b9,
      num_eq (c 16 (by decide)) a10 b10, num_eq (c 17 (by decide)) a11 b11, num_eq (c 18 (by decide)) a12 b12,
      num_eq (c 19 (by decide)) a13 b13]
  have e7 : o.tank.air = o'.tank.air := by
    rw [A8, B8]
    exact hourly_eq h (by decide) (by decide) A1 B1
  cases hb : o.tank
  cases hb' : o'.tank
  rw [hb, hb'] at e1 e2 e3 e4 e5 e6 e7
  dsimp only at e1 e2 e3 e4 e5 e6 e7
  rw [e1, e2, e3, e4, e5, e6, e7]

theorem grid (h : SameUsed wb wb') (ht : TopRowsEmpty wb) (ht' : TopRowsEmpty wb') {o o' : Objects}
    (ho : objects L wb size = .ok o) (ho' : objects L wb' size = .ok o') : o.grid = o'.grid := by
  obtain ⟨G1, G2, G3, G4, G5, G6, G7, G8, G9, G10, G11⟩ := C91_grid ht ho
  obtain ⟨H1, H2, H3, H4, H5, H6, H7, H8, H9, H10, H11⟩ := C91_grid ht' ho'
  obtain ⟨-, V1, V2, V3, V4, V5, V6, V7, V8, V9, V10⟩ := C91_tariff ho
  obtain ⟨-, W1, W2, W3, W4, W5, W6, W7, W8, W9, W10⟩ := C91_tariff ho'
  obtain ⟨P1, P2⟩ := C91_prices ht ho
  obtain ⟨Q1, Q2⟩ := C91_prices ht' ho'
  have e0 : o.grid.tariff = o'.grid.tariff := text_eq (cell h (rows := [5, 9]) (by decide) (by decide)) G1 H1
  rw [e0] at V1 V2 V3 V4 V5 V6 V7 V8 V9 V10
  have e1 := opt_eq (V1.trans W1.symm) (fun x y hx hy =>
    num_eq (cell h (rows := [9]) (by decide) (by decide)) (G2 x hx) (H2 y hy))
  have e5 := opt_eq (V5.trans W5.symm) (fun x y hx hy =>
    num_eq (cell h (rows := [9]) (by decide) (by decide)) (G3 x hx) (H3 y hy))
  have e6 := opt_eq (V6.trans W6.symm) (fun x y hx hy =>
    num_eq (cell h (rows := [9]) (by decide) (by decide)) (G4 x hx) (H4 y hy))
  have e7 := opt_eq (V7.trans W7.symm) (fun x y hx hy =>
    num_eq (cell h (rows := [9]) (by decide) (by decide)) (G5 x hx) (H5 y hy))
  have e8 := opt_eq (V8.trans W8.symm) (fun x y hx hy =>
    num_eq (cell h (rows := [9]) (by decide) (by decide)) (G6 x hx) (H6 y hy))
  have e9 := opt_eq (V9.trans W9.symm) (fun x y hx hy =>
    num_eq (cell h (rows := [9]) (by decide) (by decide)) (G7 x hx) (H7 y hy))
  have e10 := opt_eq (V10.trans W10.symm) (fun x y hx hy =>
    num_eq (cell h (rows := [9]) (by decide) (by decide)) (G8 x hx) (H8 y hy))
  have e3 := opt_eq (V3.trans W3.symm) (fun x y hx hy => by
    exact_mod_cast num_eq (cell h (rows := [42]) (by decide) (by decide)) (G9 x hx) (H9 y hy))
  have e2 := opt_eq (V2.trans W2.symm) (fun p q hp hq => by
    funext d
    have l1 := P1 p hp d
    have l2 := Q1 q hq d
    apply List.ext_getElem (l1.trans l2.symm)
    intro t h1 h2
    exact num_eq (h.prices d t (by omega)) (G10 p hp d t _ (List.getElem?_eq_getElem h1)).2
      (H10 q hq d t _ (List.getElem?_eq_getElem h2)).2)
  have e4 := opt_eq (V4.trans W4.symm) (fun p q hp hq => by
    obtain ⟨s, hs, l1⟩ := P2 p hp
    obtain ⟨s', hs', l2⟩ := Q2 q hq
    have hh := h.lengths "Grid" (by decide)
    unfold lastRow at hh
    rw [hs, hs'] at hh
    dsimp only at hh
    rw [hh] at l1
    apply List.ext_getElem (l1.trans l2.symm)
    intro t h1 h2
    exact num_eq (h.columns ("Grid", 'C', 12) (by decide) (12 + t) (Nat.le_add_right _ _))
      (G11 p hp t _ (List.getElem?_eq_getElem h1)) (H11 q hq t _ (List.getElem?_eq_getElem h2)))
  cases hb : o.grid
  cases hb' : o'.grid
  rw [hb, hb'] at e0 e1 e2 e3 e4 e5 e6 e7 e8 e9 e10
  dsimp only at e0 e1 e2 e3 e4 e5 e6 e7 e8 e9 e10
  rw [e0, e1, e2, e3, e4, e5, e6, e7, e8, e9, e10]

theorem sheets {o : Objects} (ho : objects L wb size = .ok o) (ht : TopRowsEmpty wb) :
    (wb "Weather resources").isSome ∧ (wb "Wind farm").isSome := by
  obtain ⟨b, c, hr, hs, hi⟩ := objects_ok ho
  obtain ⟨s, h1, -⟩ := ((C92_readable ht).mp ⟨b, hr⟩).weather
  obtain ⟨s', h2, -⟩ := ((C92_readable ht).mp ⟨b, hr⟩).windFarm
  rw [h1, h2]
  exact ⟨rfl, rfl⟩

theorem siteWind_same (h : SameUsed wb wb') (h1 : (wb "Weather resources").isSome)
    (h2 : (wb' "Weather resources").isSome) : siteWind wb = siteWind wb' := by
  unfold siteWind
  rw [entries_same h (col := 'G') (by decide) (by decide) h1 h2,
    entries_same h (col := 'H') (by decide) (by decide) h1 h2,
    entries_same h (col := 'I') (by decide) (by decide) h1 h2,
    entries_same h (col := 'J') (by decide) (by decide) h1 h2,
    entries_same h (col := 'K') (by decide) (by decide) h1 h2]

theorem farmWind_same (h : SameUsed wb wb') (h1 : (wb "Wind farm").isSome)
    (h2 : (wb' "Wind farm").isSome) : farmWind wb = farmWind wb' := by
  unfold farmWind
  rw [entries_same h (col := 'C') (by decide) (by decide) h1 h2,
    entries_same h (col := 'D') (by decide) (by decide) h1 h2,
    entries_same h (col := 'E') (by decide) (by decide) h1 h2,
    entries_same h (col := 'F') (by decide) (by decide) h1 h2,
    entries_same h (col := 'G') (by decide) (by decide) h1 h2]

theorem panels (h : SameUsed wb wb') (ht : TopRowsEmpty wb) (ht' : TopRowsEmpty wb')
    {S S' : RunIn (List ℚ)} {o o' : Objects} (hS : runInputs L wb size = .ok S)
    (hS' : runInputs L wb' size = .ok S') (ho : objects L wb size = .ok o)
    (ho' : objects L wb' size = .ok o') : S.pv = S'.pv := by
  obtain ⟨s, hs, ⟨r, n, f1, a1, a2, a3, a4, a5⟩, ⟨t, f2, a6, a7⟩⟩ := C91_pv_partial ht ho
  obtain ⟨s', hs', ⟨r', n', g1, b1, b2, b3, b4, b5⟩, ⟨t', g2, b6, b7⟩⟩ := C91_pv_partial ht' ho'
  obtain ⟨e1, e2, e3⟩ := h.panelShape s s' hs hs'
  cases firstComplete_unique (first_same e1 e2 e3 f1) g1
  cases firstComplete_unique (first_same e1 e2 e3 f2) g2
  have c := h.panels s r hs f1
  have d := h.site s t hs f2
  rw [text_eq (c 'C' (by decide)) a1 b1] at a2
  rw [c 'E' (by decide)] at a3
  rw [c 'F' (by decide)] at a4
  rw [c 'G' (by decide)] at a5
  rw [d 'D' (by decide)] at a6
  rw [d 'E' (by decide)] at a7
  obtain ⟨m, p1, p2, p3⟩ := C97_pv ht hS ho
  obtain ⟨m', q1, q2, q3⟩ := C97_pv ht' hS' ho'
  cases num_eq (a3.trans b3.symm) p1 q1
  have w1 := (sheets ho ht).1
  have w2 := (sheets ho' ht').1
  by_cases h0 : m = 0
  · rw [p2 h0, q2 h0]
  · obtain ⟨-, ac, k1, k2⟩ := p3 h0
    obtain ⟨-, ac', l1, l2⟩ := q3 h0
    rw [a2, a4, a5, a6, a7, ← b2, ← b4, ← b5, ← b6, ← b7,
      entries_same h (col := 'D') (by decide) (by decide) w1 w2,
      entries_same h (col := 'E') (by decide) (by decide) w1 w2,
      entries_same h (col := 'F') (by decide) (by decide) w1 w2] at k1
    cases Except.ok.inj (k1.symm.trans l1)
    exact Except.ok.inj (k2.symm.trans l2)

theorem turbines (h : SameUsed wb wb') (ht : TopRowsEmpty wb) (ht' : TopRowsEmpty wb')
    {S S' : RunIn (List ℚ)} {o o' : Objects} (hS : runInputs L wb size = .ok S)
    (hS' : runInputs L wb' size = .ok S') (ho : objects L wb size = .ok o)
    (ho' : objects L wb' size = .ok o') : S.windUser = S'.windUser ∧ S.windData = S'.windData := by
  obtain ⟨s, hs, ⟨r, f1, a1, a2, a3, a4, a5⟩, a6, ⟨t, f2, a7, a8, a9, a10⟩⟩ := C91_turbines ht ho
  obtain ⟨s', hs', ⟨r', g1, b1, b2, b3, b4, b5⟩, b6, ⟨t', g2, b7, b8, b9, b10⟩⟩ := C91_turbines ht' ho'
  obtain ⟨e1, e2, e3⟩ := h.turbineShape s s' hs hs'
  cases firstComplete_unique (first_same e1 e2 e3 f1) g1
  cases firstComplete_unique (first_same e1 e2 e3 f2) g2
  have cC := h.turbines 'C' (by decide)
  have cD := h.turbines 'D' (by decide)
  have cE := h.turbines 'E' (by decide)
  have cF := h.turbines 'F' (by decide)
  have cG := h.turbines 'G' (by decide)
  rw [complete_same e1 e2 e3] at a6
  simp only [cC, cD, cE, cF, cG] at a1 a2 a3 a4 a5 a6 a7 a8 a9 a10
  rw [← b2] at a2
  rw [← b3] at a3
  rw [← b4] at a4
  rw [← b5] at a5
  rw [← b6] at a6
  rw [← b7] at a7
  rw [← b8] at a8
  rw [← b9] at a9
  rw [← b10] at a10
  have hw := siteWind_same h (sheets ho ht).1 (sheets ho' ht').1
  obtain ⟨⟨m, p1, p2, p3⟩, ⟨n, p4, p5, p6⟩⟩ := C97_wind ht hS ho
  obtain ⟨⟨m', q1, q2, q3⟩, ⟨n', q4, q5, q6⟩⟩ := C97_wind ht' hS' ho'
  cases num_eq a4 p1 q1
  cases num_eq a10 p4 q4
  constructor
  · by_cases h0 : m = 0
    · rw [p2 h0, q2 h0]
    · obtain ⟨p, k1, k2⟩ := p3 h0
      obtain ⟨p', l1, l2⟩ := q3 h0
      rw [a2, a3, a5, a6, hw] at k1
      cases Except.ok.inj (k1.symm.trans l1)
      rw [k2, l2]
  · by_cases h0 : n = 0
    · rw [p5 h0, q5 h0]
    · obtain ⟨p, k1, k2⟩ := p6 h0
      obtain ⟨p', l1, l2⟩ := q6 h0
      rw [a7, a8, a9, hw] at k1
      cases Except.ok.inj (k1.symm.trans l1)
      rw [k2, l2]

theorem importPrice (h : SameUsed wb wb') (ht : TopRowsEmpty wb) (ht' : TopRowsEmpty wb')
    {S S' : RunIn (List ℚ)} {o o' : Objects} (hS : runInputs L wb size = .ok S)
    (hS' : runInputs L wb' size = .ok S') (ho : objects L wb size = .ok o)
    (ho' : objects L wb' size = .ok o') : S.importPrice = S'.importPrice := by
  obtain ⟨p1, p2⟩ := C97_farm ht hS ho
  obtain ⟨q1, q2⟩ := C97_farm ht' hS' ho'
  rw [← grid h ht ht' ho ho'] at q1 q2
  by_cases hp : o.grid.tariff ∈ Spec.ppa
  · obtain ⟨m, pw, k1, k2, k3, k4⟩ := p2 hp
    obtain ⟨m', pw', l1, l2, l3, l4⟩ := q2 hp
    have c : ∀ col ∈ ['C', 'D', 'E', 'F', 'G'], excel wb "Wind farm" col 15 = excel wb' "Wind farm" col 15 := by
      intro col hcol
      simp only [List.mem_cons, List.not_mem_nil, or_false] at hcol
      rcases hcol with rfl | rfl | rfl | rfl | rfl <;> exact cell h (rows := [15]) (by decide) (by decide)
    cases num_eq (c 'F' (by decide)) k1 l1
    have hpw : pw = pw' := by
      by_cases h0 : m = 0
      · rw [k3 h0, l3 h0]
      · obtain ⟨p, g1, g2⟩ := k4 h0
        obtain ⟨p', f1, f2⟩ := l4 h0
        rw [c 'C' (by decide), c 'D' (by decide), c 'E' (by decide), c 'F' (by decide), c 'G' (by decide),
          farmWind_same h (sheets ho ht).2 (sheets ho' ht').2] at g1
        cases Except.ok.inj (g1.symm.trans f1)
        rw [g2, f2]
    rw [hpw] at k2
    exact Option.some.inj (Except.ok.inj (k2.symm.trans l2))
  · exact Option.some.inj (Except.ok.inj ((p1 hp).symm.trans (q1 hp)))

/-- The test points are the same. -/
theorem tests (h : SameUsed wb wb') {s s' : Pandas.Sheet} (hs : wb "Heat pump" = some s)
    (hs' : wb' "Heat pump" = some s') (scale : ℚ) : testPoints s scale = testPoints s' scale := by
  have c : ∀ k, 2 ≤ k → k ≤ 9 → ∀ r, 23 ≤ r → r ≤ 47 → s.cell r k = s'.cell r k := by
    intro k h1 h2 r h3 h4
    have key : ∀ col ∈ ['C', 'D', 'E', 'F', 'G', 'H', 'I', 'J'], col.toNat - 'A'.toNat = k →
        s.cell r k = s'.cell r k := by
      intro col hcol hk
      have := h.tests col hcol r h3 h4
      rw [excel_eq hs, excel_eq hs', hk] at this
      exact this
    have : k = 2 ∨ k = 3 ∨ k = 4 ∨ k = 5 ∨ k = 6 ∨ k = 7 ∨ k = 8 ∨ k = 9 := by omega
    rcases this with rfl | rfl | rfl | rfl | rfl | rfl | rfl | rfl
    · exact key 'C' (by decide) rfl
    · exact key 'D' (by decide) rfl
    · exact key 'E' (by decide) rfl
    · exact key 'F' (by decide) rfl
    · exact key 'G' (by decide) rfl
    · exact key 'H' (by decide) rfl
    · exact key 'I' (by decide) rfl
    · exact key 'J' (by decide) rfl
  have hp : ∀ k, 2 ≤ k → k ≤ 6 → ∀ flow r, 23 ≤ r → r ≤ 47 →
      testPoint s scale flow k r = testPoint s' scale flow k r := by
    intro k h1 h2 flow r h3 h4
    unfold testPoint
    rw [c k h1 (by omega) r h3 h4, c (k + 1) (by omega) (by omega) r h3 h4,
      c (k + 2) (by omega) (by omega) r h3 h4, c (k + 3) (by omega) (by omega) r h3 h4]
  have hu : ∀ k, 2 ≤ k → k ≤ 6 → ∀ flow,
      ((List.range 8).map (· + 27)).filterMap (testPoint s scale flow k) =
      ((List.range 8).map (· + 27)).filterMap (testPoint s' scale flow k) := by
    intro k h1 h2 flow
    apply List.filterMap_congr
    intro r hr
    obtain ⟨i, hi, rfl⟩ := List.mem_map.mp hr
    have := List.mem_range.mp hi
    exact hp k h1 h2 flow _ (by omega) (by omega)
  have hl : ∀ k, 2 ≤ k → k ≤ 6 → ∀ flow,
      ((List.range 7).map (· + 41)).filterMap (testPoint s scale flow k) =
      ((List.range 7).map (· + 41)).filterMap (testPoint s' scale flow k) := by
    intro k h1 h2 flow
    apply List.filterMap_congr
    intro r hr
    obtain ⟨i, hi, rfl⟩ := List.mem_map.mp hr
    have := List.mem_range.mp hi
    exact hp k h1 h2 flow _ (by omega) (by omega)
  unfold testPoints
  dsimp only
  rw [hu 2 (by omega) (by omega), hu 6 (by omega) (by omega), hl 2 (by omega) (by omega),
    hl 6 (by omega) (by omega), c 3 (by omega) (by omega) 23 (by omega) (by omega),
    c 7 (by omega) (by omega) 23 (by omega) (by omega), c 3 (by omega) (by omega) 36 (by omega) (by omega),
    c 7 (by omega) (by omega) 36 (by omega) (by omega)]

theorem pump (h : SameUsed wb wb') (ht : TopRowsEmpty wb) (ht' : TopRowsEmpty wb')
    (hz : TailEmpty wb) (hz' : TailEmpty wb') {o o' : Objects}
    (ho : objects L wb size = .ok o) (ho' : objects L wb' size = .ok o') :
    o.heatPump.capacity = o'.heatPump.capacity ∧ o.minimumRuntime = o'.minimumRuntime ∧
    o.minimumOutput = o'.minimumOutput ∧
    HpConfig.performance L.kernels o.heatPump = HpConfig.performance L.kernels o'.heatPump := by
  obtain ⟨a1, a2, a3, a4, ⟨t1, x1, a5, a6, a7⟩, ⟨t2, x2, a8, a9, a10⟩, ⟨t3, x3, a11, a12, a13, a14, a15, a16⟩⟩ :=
    C91_heat_pump ho
  obtain ⟨b1, b2, b3, b4, ⟨u1, y1, b5, b6, b7⟩, ⟨u2, y2, b8, b9, b10⟩, ⟨u3, y3, b11, b12, b13, b14, b15, b16⟩⟩ :=
    C91_heat_pump ho'
  obtain ⟨air, water, source, ret, A1, A2, A3, A4, -, -, -, A8, A9, A10, A11⟩ := C93_temperatures ht ho
  obtain ⟨air', water', source', ret', B1, B2, B3, B4, -, -, -, B8, B9, B10, B11⟩ := C93_temperatures ht' ho'
  have c : ∀ r ∈ [3, 4, 5, 6, 7, 8, 9, 12, 15, 16, 17, 18, 19, 20],
      excel wb "Heat pump" 'D' r = excel wb' "Heat pump" 'D' r :=
    fun r hr => cell h (rows := [3, 4, 5, 6, 7, 8, 9, 12, 15, 16, 17, 18, 19, 20]) (by decide) hr
  cases text_eq (c 3 (by decide)) a5 b5
  cases text_eq (c 9 (by decide)) a8 b8
  cases text_eq (c 4 (by decide)) a11 b11
  cases Except.ok.inj (a6.symm.trans b6)
  cases Except.ok.inj (a9.symm.trans b9)
  cases Except.ok.inj (a12.symm.trans b12)
  cases hourly_eq h (by decide) (by decide) A1 B1
  cases hourly_eq h (by decide) (by decide) A2 B2
  cases hourly_eq h (by decide) (by decide) A3 B3
  cases num_eq (cell h (sheet := "Demand input") (col := 'I') (rows := [6, 8]) (by decide) (by decide)) A4 B4
  have e1 := a1.trans b1.symm
  have e2 := num_eq (c 6 (by decide)) a2 b2
  have e3 := a7.trans b7.symm
  have e4 := a10.trans b10.symm
  have e5 := A10.trans B10.symm
  have e6 := A11.trans B11.symm
  have e7 := A9.trans B9.symm
  refine ⟨e1, num_eq (c 7 (by decide)) a3 b3, num_eq (c 8 (by decide)) a4 b4, ?_⟩
  have same : o.heatPump.model = o'.heatPump.model → o.heatPump = o'.heatPump := by
    intro e8
    cases hb : o.heatPump
    cases hb' : o'.heatPump
    rw [hb, hb'] at e1 e2 e3 e4 e5 e6 e7 e8
    dsimp only at e1 e2 e3 e4 e5 e6 e7 e8
    rw [e1, e2, e3, e4, e5, e6, e7, e8]
  cases x3 with
  | generic => exact absurd rfl a13
  | simple =>
    obtain ⟨p, k1, k2⟩ := a14 rfl
    obtain ⟨p', l1, l2⟩ := b14 rfl
    cases num_eq (c 12 (by decide)) k1 l1
    rw [same (k2.trans l2.symm)]
  | lorentz =>
    obtain ⟨p, k1, k2, k3, k4, k5, k6, k7⟩ := a15 rfl
    obtain ⟨p', l1, l2, l3, l4, l5, l6, l7⟩ := b15 rfl
    have f1 := num_eq (c 15 (by decide)) k1 l1
    have f2 := num_eq (c 16 (by decide)) k2 l2
    have f3 := num_eq (c 17 (by decide)) k3 l3
    have f4 := num_eq (c 18 (by decide)) k4 l4
    have f5 := num_eq (c 19 (by decide)) k5 l5
    have f6 := num_eq (c 20 (by decide)) k6 l6
    have : p = p' := by
      cases p
      cases p'
      dsimp only at f1 f2 f3 f4 f5 f6
      rw [f1, f2, f3, f4, f5, f6]
    rw [same (by rw [k7, l7, this])]
  | standard =>
    obtain ⟨d, k⟩ := a16 rfl
    obtain ⟨d', k'⟩ := b16 rfl
    obtain ⟨x, -, hx, -⟩ := objects_ok ho
    obtain ⟨s, hs, -⟩ := (readInputs_ok hx).heatPump
    obtain ⟨x', -, hx', -⟩ := objects_ok ho'
    obtain ⟨s', hs', -⟩ := (readInputs_ok hx').heatPump
    obtain ⟨cap, m1, m2⟩ := C96_test_points ht hz ho hs k
    obtain ⟨cap', n1, n2⟩ := C96_test_points ht' hz' ho' hs' k'
    cases num_eq (c 5 (by decide)) m1 n1
    have hpts : d.points = d'.points := by
      rw [m2, n2]
      exact tests h hs hs' _
    by_cases h0 : o.heatPump.capacity = 0
    · unfold HpConfig.performance
      rw [if_pos h0, if_pos (by rw [← e1]; exact h0)]
    · have r1 : HpConfig.heatResource o.heatPump = HpConfig.heatResource o'.heatPump := by
        unfold HpConfig.heatResource
        rw [e3, e7]
      have r2 : standardFactor o.heatPump = standardFactor o'.heatPump := by
        unfold standardFactor
        rw [r1, e3, e4]
      rw [performance_standard h0 k, performance_standard (by rw [← e1]; exact h0) k', e5, r1, r2, hpts]

end Depends

open Depends in
/-- C98: what a run of the fixed order controller starts from is determined by the used cells. -/
theorem C98_start {L : Libs} {wb wb' : Pandas.Workbook} {size : ℤ × ℤ} {S S' : RunIn (List ℚ)}
    (ht : TopRowsEmpty wb) (ht' : TopRowsEmpty wb') (hz : TailEmpty wb) (hz' : TailEmpty wb')
    (h : SameUsed wb wb') (hS : runInputs L wb size = .ok S) (hS' : runInputs L wb' size = .ok S') :
    S = S' := by
  obtain ⟨o, T⟩ := start_ok hS
  obtain ⟨o', T'⟩ := start_ok hS'
  obtain ⟨D1, D2, p, source, flow, ret, delta, hp, htank, D3, D4, D5, D6⟩ := C93_demand ht hS
  obtain ⟨E1, E2, p', source', flow', ret', delta', hp', htank', E3, E4, E5, E6⟩ := C93_demand ht' hS'
  cases Except.ok.inj (hp.symm.trans T.objects)
  cases Except.ok.inj (hp'.symm.trans T'.objects)
  obtain ⟨c1, c2, ⟨a, c3, c4⟩, ⟨b, c5, c6⟩⟩ := C91_controller hS
  obtain ⟨d1, d2, ⟨a', d3, d4⟩, ⟨b', d5, d6⟩⟩ := C91_controller hS'
  obtain ⟨q1, q2, q3, q4⟩ := pump h ht ht' hz hz' hp hp'
  have hctl : ∀ r ∈ [7, 8, 9], excel wb "Controller" 'D' r = excel wb' "Controller" 'D' r :=
    fun r hr => cell h (rows := [7, 8, 9]) (by decide) hr
  cases text_eq (hctl 8 (by decide)) c3 d3
  cases text_eq (hctl 9 (by decide)) c5 d5
  have hret := num_eq (cell h (sheet := "Demand input") (col := 'I') (rows := [6, 8]) (by decide) (by decide))
    D5 E5
  have hdel := num_eq (cell h (sheet := "Demand input") (col := 'I') (rows := [6, 8]) (by decide) (by decide))
    D6 E6
  have k1 : S.hp = S'.hp := by rw [T.hp, T'.hp, q1, q2, q3]
  have k2 : S.es = S'.es := by rw [T.es, T'.es, battery h ht ht' hp hp']
  have k3 : S.aux = S'.aux := by rw [T.aux, T'.aux, heater h hp hp']
  have k4 : S.tank = S'.tank := by
    rw [htank, htank', tank h ht ht' hp hp', hourly_eq h (by decide) (by decide) D3 E3,
      hourly_eq h (by decide) (by decide) D4 E4, hret, hdel]
  have k5 : S.exportPrice = S'.exportPrice :=
    num_eq (cell h (rows := [5, 9]) (by decide) (by decide)) c2 d2
  obtain ⟨k6, k7⟩ := turbines h ht ht' hS hS' hp hp'
  have k8 := panels h ht ht' hS hS' hp hp'
  have k9 : S.elecDemand = S'.elecDemand := hourly_eq h (by decide) (by decide) D2 E2
  have k10 : S.heatDemand = S'.heatDemand := hourly_eq h (by decide) (by decide) D1 E1
  have k11 := importPrice h ht ht' hS hS' hp hp'
  have k12 : S.perf = S'.perf := Except.ok.inj (T.perf.symm.trans (q4.trans T'.perf))
  have k13 : S.setpoint = S'.setpoint := num_eq (hctl 7 (by decide)) c1 d1
  have k14 : S.orderAbove = S'.orderAbove := Except.ok.inj (c4.symm.trans d4)
  have k15 : S.orderBelow = S'.orderBelow := Except.ok.inj (c6.symm.trans d6)
  cases S
  cases S'
  dsimp only at k1 k2 k3 k4 k5 k6 k7 k8 k9 k10 k11 k12 k13 k14 k15
  rw [k1, k2, k3, k4, k5, k6, k7, k8, k9, k10, k11, k12, k13, k14, k15]

open Depends in
/-- C98: two workbooks that agree on the used cells give the same results for a combination. -/
theorem C98_results {L : Libs} {wb wb' : Pandas.Workbook} {size : ℤ × ℤ}
    {rs rs' : List (Results (List ℚ))}
    (ht : TopRowsEmpty wb) (ht' : TopRowsEmpty wb') (hz : TailEmpty wb) (hz' : TailEmpty wb')
    (h : SameUsed wb wb') (hr : simulate L wb size = .ok rs) (hr' : simulate L wb' size = .ok rs') :
    rs = rs' := by
  obtain ⟨S, first, n, hS, h1, h2, hrun⟩ := simulate_ok.mp hr
  obtain ⟨S', first', n', hS', h1', h2', hrun'⟩ := simulate_ok.mp hr'
  cases C98_start ht ht' hz hz' h hS hS'
  have e1 : first = first' := by
    exact_mod_cast num_eq (cell h (rows := [5, 6]) (by decide) (by decide)) h1 h1'
  have e2 : n = n' := by
    exact_mod_cast num_eq (cell h (rows := [5, 6]) (by decide) (by decide)) h2 h2'
  subst e1 e2
  exact Except.ok.inj (hrun.symm.trans hrun')

end Verif
