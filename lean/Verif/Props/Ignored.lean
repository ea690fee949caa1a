import Verif.Props.Depends

/-!
# Property C98, continued: editing any other cell changes nothing

The results are the same, and a run that ends still ends.
-/

set_option autoImplicit false

namespace Verif
open Pandas Workbook InputReader Enums Simulation Spec FixedOrder Programme Tariff

/-- The workbook can be read and its sheets are large enough: the rest of what is asked of a workbook is
asked of the used cells. The inverter must be named although the name is not used. A sheet with test data must
not have other columns than those of the template. -/
structure Spec.Usable (wb : Pandas.Workbook) : Prop where
  top : TopRowsEmpty wb
  readable : Readable wb
  store : Reaches wb "Thermal storage" 'N' 23
  tail : TailEmpty wb
  pump : Reads wb "Heat pump" 'D' 4 ModelName.standard →
    ∀ s, wb "Heat pump" = some s → s.width = 19 ∧ 36 ≤ s.height
  inverter : ∀ s row, wb "PV inputs" = some s → FirstComplete s [19] [0, 1] row →
    ∃ i, Says wb "PV inputs" 'D' row i

namespace Depends
variable {L : Libs} {wb wb' : Pandas.Workbook} {size : ℤ × ℤ}

theorem sub {α : Type} [DecidableEq α] {l l' : List α} {a : α} (h : l.all (· ∈ l') = true) (ha : a ∈ l) :
    a ∈ l' := of_decide_eq_true (List.all_eq_true.mp h a ha)

theorem shape_symm {sheet : String} (h : SameShape wb wb' sheet) : SameShape wb' wb sheet := by
  intro s s' hs hs'
  obtain ⟨h1, h2, h3⟩ := h s' s hs' hs
  exact ⟨h1.symm, h2.symm, fun r k => (h3 r k).symm⟩

theorem symm (h : SameUsed wb wb') (U : Usable wb) : SameUsed wb' wb := by
  have key : ∀ {sheet : String} {rows cs : List ℕ} {cols : List Char}, (∃ s, wb sheet = some s) →
      SameShape wb wb' sheet →
      (∀ s row, wb sheet = some s → FirstComplete s rows cs row → ∀ col ∈ cols,
        excel wb sheet col row = excel wb' sheet col row) →
      ∀ s row, wb' sheet = some s → FirstComplete s rows cs row → ∀ col ∈ cols,
        excel wb' sheet col row = excel wb sheet col row := by
    rintro sheet rows cs cols ⟨s, hs⟩ hsh he s' row hs' hf col hcol
    obtain ⟨h1, h2, h3⟩ := hsh s s' hs hs'
    exact (he s row hs (first_same h1.symm h2.symm (fun r k => (h3 r k).symm) hf) col hcol).symm
  obtain ⟨s, hs, -⟩ := U.readable.battery
  obtain ⟨p, hp, -⟩ := U.readable.pv
  exact
    { cells := fun x hx r hr => (h.cells x hx r hr).symm
      columns := fun x hx r hr => (h.columns x hx r hr).symm
      lengths := fun x hx => (h.lengths x hx).symm
      prices := fun d t ht => (h.prices d t ht).symm
      tests := fun c hc r h1 h2 => (h.tests c hc r h1 h2).symm
      batteryShape := shape_symm h.batteryShape
      battery := key ⟨s, hs⟩ h.batteryShape h.battery
      turbineShape := shape_symm h.turbineShape
      turbines := fun c hc r => (h.turbines c hc r).symm
      panelShape := shape_symm h.panelShape
      panels := key ⟨p, hp⟩ h.panelShape h.panels
      site := key ⟨p, hp⟩ h.panelShape h.site }

theorem number {sheet : String} {col : Char} {r : ℕ} (e : excel wb sheet col r = excel wb' sheet col r)
    (h : Number wb sheet col r) : Number wb' sheet col r := by
  unfold Number Holds at *
  rw [← e]
  exact h

theorem reads {α : Type} [StrEnum α] [DecidableEq α] {sheet : String} {col : Char} {r : ℕ} {a : α}
    (e : excel wb sheet col r = excel wb' sheet col r) (h : Reads wb sheet col r a) :
    Reads wb' sheet col r a := by
  unfold Reads Says at *
  rw [← e]
  exact h

theorem notText {sheet : String} {col : Char} {r : ℕ} (e : excel wb sheet col r = excel wb' sheet col r)
    (h : NotText wb sheet col r) : NotText wb' sheet col r := by
  unfold NotText Says at *
  rw [← e]
  exact h

theorem same_height (h : SameUsed wb wb') {sheet : String} {s s' : Pandas.Sheet}
    (hl : sheet ∈ ["Weather resources", "Demand input", "Wind farm", "Grid"])
    (hs : wb sheet = some s) (hs' : wb' sheet = some s') : s.height = s'.height := by
  have hh := h.lengths sheet hl
  unfold lastRow at hh
  rw [hs, hs'] at hh
  exact hh

theorem pump_cell (h : SameUsed wb wb') {s s' : Pandas.Sheet} (hs : wb "Heat pump" = some s)
    (hs' : wb' "Heat pump" = some s') {k r : ℕ} (h1 : 2 ≤ k) (h2 : k ≤ 9) (h3 : 23 ≤ r) (h4 : r ≤ 47) :
    s.cell r k = s'.cell r k := by
  have key : ∀ col ∈ ['C', 'D', 'E', 'F', 'G', 'H', 'I', 'J'], col.toNat - 'A'.toNat = k →
      s.cell r k = s'.cell r k := by
    intro col hcol hk
    have := h.tests col hcol r h3 h4
    rw [excel_eq hs, excel_eq hs', hk] at this
    exact this
  have : k = 2 ∨ k = 3 ∨ k = 4 ∨ k = 5 ∨ k = 6 ∨ k = 7 ∨ k = 8 ∨ k = 9 := by omega
  rcases this with rfl | rfl | rfl | rfl | rfl | rfl | rfl | rfl
  · exact key 'C' (by decide) rfl
  · exact key 'D' (by decide) rfl
  · exact key 'E' (by decide) rfl
  · exact key 'F' (by decide) rfl
  · exact key 'G' (by decide) rfl
  · exact key 'H' (by decide) rfl
  · exact key 'I' (by decide) rfl
  · exact key 'J' (by decide) rfl

theorem testTables (h : SameUsed wb wb') {s s' : Pandas.Sheet} (hs : wb "Heat pump" = some s)
    (hs' : wb' "Heat pump" = some s') (hz : s'.width = 19 ∧ 36 ≤ s'.height) (T : TestTables s) :
    TestTables s' := by
  have key : ∀ (flow flow' : Value) c r, flow = flow' → 2 ≤ c → c ≤ 6 → 23 ≤ r → r ≤ 47 →
      TestRow s flow c r → TestRow s' flow' c r := by
    intro flow flow' c r e h1 h2 h3 h4 ht
    unfold TestRow at *
    rw [← e, ← pump_cell h hs hs' h1 (by omega) h3 h4,
      ← pump_cell h hs hs' (k := c + 1) (by omega) (by omega) h3 h4,
      ← pump_cell h hs hs' (k := c + 2) (by omega) (by omega) h3 h4,
      ← pump_cell h hs hs' (k := c + 3) (by omega) (by omega) h3 h4]
    exact ht
  have c1 := pump_cell h hs hs' (k := 3) (r := 23) (by omega) (by omega) (by omega) (by omega)
  have c2 := pump_cell h hs hs' (k := 7) (r := 23) (by omega) (by omega) (by omega) (by omega)
  have c3 := pump_cell h hs hs' (k := 3) (r := 36) (by omega) (by omega) (by omega) (by omega)
  have c4 := pump_cell h hs hs' (k := 7) (r := 36) (by omega) (by omega) (by omega) (by omega)
  refine ⟨hz.1, hz.2, fun i hi => key _ _ _ _ c1 (by omega) (by omega) (by omega) (by omega) (T.left i hi),
    fun i hi => key _ _ _ _ c2 (by omega) (by omega) (by omega) (by omega) (T.right i hi),
    fun i hi => key _ _ _ _ c3 (by omega) (by omega) (by omega) (by omega) (T.lowerLeft i hi),
    fun i hi => key _ _ _ _ c4 (by omega) (by omega) (by omega) (by omega) (T.lowerRight i hi), ?_⟩
  rw [← tests h hs hs' 1]
  exact T.some

/-- What is filled in for the objects does not depend on the other cells. -/
theorem filled (h : SameUsed wb wb') (U' : Usable wb') (F : Filled L wb) : Filled L wb' := by
  obtain ⟨sw, hw, -⟩ := U'.readable.weather
  obtain ⟨sd, hd, -⟩ := U'.readable.demandInput
  obtain ⟨sb, hb, -⟩ := U'.readable.battery
  obtain ⟨st, htb, -⟩ := U'.readable.wind
  obtain ⟨sp, hp, -⟩ := U'.readable.pv
  obtain ⟨sg, hg, -⟩ := U'.readable.grid
  obtain ⟨su, hu, -⟩ := U'.readable.heatPump
  obtain ⟨tw, kw, lw⟩ := F.weather
  obtain ⟨td, kd, ld⟩ := F.demand
  have hp' : ∀ r ∈ [3, 4, 5, 6, 7, 8, 9, 12, 15, 16, 17, 18, 19, 20],
      excel wb "Heat pump" 'D' r = excel wb' "Heat pump" 'D' r :=
    fun r hr => cell h (rows := [3, 4, 5, 6, 7, 8, 9, 12, 15, 16, 17, 18, 19, 20]) (by decide) hr
  have hs' : ∀ r ∈ [6, 7, 8, 14, 15, 16, 17, 18, 19, 22, 23],
      excel wb "Thermal storage" 'D' r = excel wb' "Thermal storage" 'D' r :=
    fun r hr => cell h (rows := [6, 7, 8, 14, 15, 16, 17, 18, 19, 22, 23]) (by decide) hr
  refine
    { readable := U'.readable
      weather := ⟨sw, hw, by rw [← same_height h (by decide) kw hw]; exact lw⟩
      air := fun r h1 h2 => number (h.columns ("Weather resources", 'K', 6) (by decide) r h1) (F.air r h1 h2)
      water := fun r h1 h2 =>
        number (h.columns ("Weather resources", 'M', 6) (by decide) r h1) (F.water r h1 h2)
      demand := ⟨sd, hd, by rw [← same_height h (by decide) kd hd]; exact ld⟩
      source := fun r h1 h2 => number (h.columns ("Demand input", 'G', 6) (by decide) r h1) (F.source r h1 h2)
      ret := number (cell h (rows := [6, 8]) (by decide) (by decide)) F.ret
      battery := ?_, turbines := ?_, pv := ?_
      tank := U'.store
      layers := ?_
      tankNumbers := fun r hr => number (hs' r
        (sub (l := [14, 15, 16, 17, 18, 19, 22, 23]) (by decide) hr)) (F.tankNumbers r hr)
      hpType := F.hpType.imp fun p => reads (hp' 3 (by decide))
      hpData := F.hpData.imp fun p => reads (hp' 9 (by decide))
      hpNumbers := fun r hr => number (hp' r
        (sub (l := [5, 6, 7, 8]) (by decide) hr)) (F.hpNumbers r hr)
      duties := ?_, model := ?_
      efficiency := number (cell h (rows := [6, 9, 10, 11]) (by decide) (by decide)) F.efficiency
      fuel := ?_, tariff := ?_ }
  · obtain ⟨s, row, hs, hw9, hrow, hn⟩ := F.battery
    obtain ⟨e1, e2, e3⟩ := h.batteryShape s sb hs hb
    exact ⟨sb, row, hb, by omega, first_same e1 e2 e3 hrow,
      fun col hcol => number (h.battery s row hs hrow col hcol) (hn col hcol)⟩
  · obtain ⟨s, hs, ⟨r1, f1⟩, ⟨r2, f2⟩, hc⟩ := F.turbines
    obtain ⟨e1, e2, e3⟩ := h.turbineShape s st hs htb
    refine ⟨st, htb, ⟨r1, first_same e1 e2 e3 f1⟩, ⟨r2, first_same e1 e2 e3 f2⟩, fun r hr => ?_⟩
    rw [← complete_same e1 e2 e3] at hr
    exact ⟨notText (h.turbines 'C' (by decide) r) (hc r hr).1,
      notText (h.turbines 'D' (by decide) r) (hc r hr).2⟩
  · obtain ⟨s, hs, ⟨r1, m, i, f1, g1, -, g3⟩, ⟨r2, f2⟩⟩ := F.pv
    obtain ⟨e1, e2, e3⟩ := h.panelShape s sp hs hp
    have f1' := first_same e1 e2 e3 f1
    obtain ⟨i', hi'⟩ := U'.inverter sp r1 hp f1'
    refine ⟨sp, hp, ⟨r1, m, i', f1', ?_, hi', g3⟩, ⟨r2, first_same e1 e2 e3 f2⟩⟩
    unfold Says
    rw [← h.panels s r1 hs f1 'C' (by decide)]
    exact g1
  · obtain ⟨n, hn⟩ := F.layers
    refine ⟨n, ?_⟩
    unfold Holds
    rw [← hs' 8 (by decide)]
    exact hn
  · intro col hcol r hr
    refine notText (h.tests col ?_ r (by omega) (by omega)) (F.duties col hcol r hr)
    exact sub (l := ['E', 'I']) (by decide) hcol
  · obtain ⟨m, h1, h2, h3, h4, h5⟩ := F.model
    refine ⟨m, reads (hp' 4 (by decide)) h1, h2, fun e => number (hp' 12 (by decide)) (h3 e),
      fun e r hr => number (hp' r ?_) (h4 e r hr), fun e => ?_⟩
    · exact sub (l := [15, 16, 17, 18, 19, 20]) (by decide) hr
    · obtain ⟨s, hs, ht⟩ := h5 e
      exact ⟨su, hu, testTables h hs hu (U'.pump (e ▸ reads (hp' 4 (by decide)) h1) su hu) ht⟩
  · have hc : ∀ x ∈ [6, 9, 10, 11], excel wb "Aux heat" 'C' x = excel wb' "Aux heat" 'C' x :=
      fun x hx => cell h (rows := [6, 9, 10, 11]) (by decide) hx
    have hin : ∀ x, 9 ≤ x → x ≤ 11 → x ∈ [6, 9, 10, 11] ∧ x ∈ [9, 10, 11] := by
      intro x h1 h2
      have : x = 9 ∨ x = 10 ∨ x = 11 := by omega
      rcases this with rfl | rfl | rfl <;> decide
    obtain ⟨f, f1, f2⟩ := F.fuel
    rw [hc 6 (by decide)] at f1
    refine ⟨f, f1, fun hn => ?_⟩
    obtain ⟨row, r1, r2, r3, r4, r5, r6⟩ := f2 hn
    refine ⟨row, r1, r2, ?_, fun r h1 h2 => ?_, number (cell h (rows := [6, 9, 10, 11]) (by decide)
      (hin row r1 r2).1) r5, number (cell h (rows := [9, 10, 11]) (by decide) (hin row r1 r2).2) r6⟩
    · rw [← hc row (hin row r1 r2).1]
      exact r3
    · rw [← hc r (hin r (by omega) h2).1]
      exact r4 r h1 h2
  · obtain ⟨s, t, hs, h1, T⟩ := F.tariff
    refine ⟨sg, t, hg, ?_, ?_⟩
    · unfold Says
      rw [← cell h (sheet := "Grid") (col := 'D') (rows := [5, 9]) (by decide) (by decide)]
      exact h1
    · have g9 : ∀ col ∈ ['C', 'G', 'H', 'J', 'K', 'L', 'M'], excel wb "Grid" col 9 = excel wb' "Grid" col 9 := by
        intro col hcol
        simp only [List.mem_cons, List.not_mem_nil, or_false] at hcol
        rcases hcol with rfl | rfl | rfl | rfl | rfl | rfl | rfl <;>
          exact cell h (rows := [9]) (by decide) (by decide)
      refine ⟨T.known, fun e => number (g9 'C' (by decide)) (T.flat e), fun e => ?_, fun e => ?_,
        fun e col hcol => number (g9 col ?_) (T.ppa e col hcol)⟩
      · obtain ⟨⟨y, hy⟩, hp⟩ := T.periods e
        refine ⟨⟨y, ?_⟩, fun t ht d => number (h.prices d t ht) (hp t ht d)⟩
        unfold Holds
        rw [← cell h (sheet := "Grid") (col := 'N') (rows := [42]) (by decide) (by decide)]
        exact hy
      · obtain ⟨m1, m2, m3⟩ := T.market e
        refine ⟨number (g9 'G' (by decide)) m1, number (g9 'H' (by decide)) m2, fun r h1 h2 h3 => ?_⟩
        have h2' : r ≤ s.height := by
          rw [same_height h (by decide) hs hg]
          exact h2
        have e := h.columns ("Grid", 'C', 12) (by decide) r h1
        exact number e (m3 r h1 h2' h3)
      · exact sub (l := ['J', 'K', 'L', 'M']) (by decide) hcol

/-- The weather of the container, by name. -/
theorem site_get' {o : Objects} (ht : TopRowsEmpty wb) (hR : Readable wb) (ho : objects L wb size = .ok o) :
    ∃ w : Columns, o.windUser.weather = w ∧ o.windDatabase.weather = w ∧ o.pv.weather = w ∧
      ∀ p ∈ [("DHI", 'D'), ("GHI", 'E'), ("DNI", 'F'), ("wind_speed_10", 'G'),
        ("wind_speed_50", 'H'), ("roughness_length", 'I'), ("pressure", 'J'), ("air_temperature", 'K')],
      w.get p.1 = .ok (entries wb "Weather resources" p.2 6) := by
  obtain ⟨b, c, hr, hs, hi⟩ := objects_ok ho
  obtain ⟨s, hw, hf⟩ := (readInputs_ok hr).resources
  obtain ⟨s', hw', hwd, -⟩ := hR.weather
  cases Option.some.inj (hw.symm.trans hw')
  obtain ⟨sp, hwp, hf1, hf2⟩ := (readInputs_ok hr).pv
  obtain ⟨-, -, e0, -, -, e1, e2, -⟩ := resize_rest hs
  obtain ⟨w, hwe, u1, u2, ⟨d, hd, hmk⟩, -⟩ := (init_ok hi).weather
  obtain ⟨p1, -⟩ := pv_rows (blank ht hwp) (e1 ▸ hf1) (e2 ▸ hf2) hd hmk
  rw [e0.symm] at hf
  obtain ⟨w', hwe', hg⟩ := weather_total (blank ht hw) hf (le_trans (by decide) hwd)
  cases Except.ok.inj (hwe.symm.trans hwe')
  refine ⟨w, u1, u2, p1, ?_⟩
  simp only [weatherColumns, List.forall_mem_cons, List.not_mem_nil, false_implies, implies_true, and_true] at hg ⊢
  simp only [entries_eq hw]
  exact ⟨hg.1, hg.2.1, hg.2.2.1, hg.2.2.2.1, hg.2.2.2.2.1, hg.2.2.2.2.2.1, hg.2.2.2.2.2.2.1,
    hg.2.2.2.2.2.2.2.1⟩

theorem site_get {o : Objects} (U : Usable wb) (ho : objects L wb size = .ok o) :
    ∃ w : Columns, o.windUser.weather = w ∧ o.windDatabase.weather = w ∧ o.pv.weather = w ∧
      ∀ p ∈ [("DHI", 'D'), ("GHI", 'E'), ("DNI", 'F'), ("wind_speed_10", 'G'),
        ("wind_speed_50", 'H'), ("roughness_length", 'I'), ("pressure", 'J'), ("air_temperature", 'K')],
      w.get p.1 = .ok (entries wb "Weather resources" p.2 6) :=
  site_get' U.top U.readable ho

theorem windWeather_same {w w' : Columns}
    (h : ∀ n ∈ ["wind_speed_10", "wind_speed_50", "roughness_length", "pressure", "air_temperature"],
      w.get n = w'.get n) : windWeather w = windWeather w' := by
  unfold windWeather
  rw [h "wind_speed_10" (by decide), h "wind_speed_50" (by decide), h "roughness_length" (by decide),
    h "pressure" (by decide), h "air_temperature" (by decide)]

theorem pvWeather_same {w w' : Columns}
    (h : ∀ n ∈ ["DHI", "GHI", "DNI", "wind_speed_10", "air_temperature"],
      w.get n = w'.get n) : pvWeather w = pvWeather w' := by
  unfold pvWeather
  rw [h "DHI" (by decide), h "GHI" (by decide), h "DNI" (by decide),
    h "wind_speed_10" (by decide), h "air_temperature" (by decide)]

/-- The power of turbines and panels, or the error, is the same. -/
theorem power_same (h : SameUsed wb wb') (U : Usable wb) (U' : Usable wb') {o o' : Objects}
    (ho : objects L wb size = .ok o) (ho' : objects L wb' size = .ok o') :
    userSeries L o.windUser = userSeries L o'.windUser ∧
    databaseSeries L o.windDatabase = databaseSeries L o'.windDatabase ∧
    pvSeries L o.pv = pvSeries L o'.pv := by
  obtain ⟨w, w1, w2, w3, hg⟩ := site_get U ho
  obtain ⟨w', w1', w2', w3', hg'⟩ := site_get U' ho'
  have i1 := (sheets ho U.top).1
  have i2 := (sheets ho' U'.top).1
  have hget : ∀ p ∈ [("DHI", 'D'), ("GHI", 'E'), ("DNI", 'F'), ("wind_speed_10", 'G'),
        ("wind_speed_50", 'H'), ("roughness_length", 'I'), ("pressure", 'J'), ("air_temperature", 'K')],
      w.get p.1 = w'.get p.1 := by
    intro p hp
    have he : entries wb "Weather resources" p.2 6 = entries wb' "Weather resources" p.2 6 := by
      simp only [List.mem_cons, List.not_mem_nil, or_false] at hp
      rcases hp with rfl | rfl | rfl | rfl | rfl | rfl | rfl | rfl <;>
        exact entries_same h (by decide) (by decide) i1 i2
    exact (hg p hp).trans ((congrArg Except.ok he).trans (hg' p hp).symm)
  simp only [List.forall_mem_cons, List.not_mem_nil, false_implies, implies_true, and_true] at hget
  obtain ⟨g1, g2, g3, g4, g5, g6, g7, g8⟩ := hget
  have hwind : windWeather w = windWeather w' := windWeather_same (by
    simp only [List.forall_mem_cons, List.not_mem_nil, false_implies, implies_true, and_true]
    exact ⟨g4, g5, g6, g7, g8⟩)
  have hpv : pvWeather w = pvWeather w' := pvWeather_same (by
    simp only [List.forall_mem_cons, List.not_mem_nil, false_implies, implies_true, and_true]
    exact ⟨g1, g2, g3, g4, g8⟩)
  obtain ⟨s, hs, ⟨r, f1, a1, a2, a3, a4, a5⟩, a6, ⟨t, f2, a7, a8, a9, a10⟩⟩ := C91_turbines U.top ho
  obtain ⟨s', hs', ⟨r', k1, b1, b2, b3, b4, b5⟩, b6, ⟨t', k2, b7, b8, b9, b10⟩⟩ := C91_turbines U'.top ho'
  obtain ⟨e1, e2, e3⟩ := h.turbineShape s s' hs hs'
  cases firstComplete_unique (first_same e1 e2 e3 f1) k1
  cases firstComplete_unique (first_same e1 e2 e3 f2) k2
  have cC := h.turbines 'C' (by decide)
  have cD := h.turbines 'D' (by decide)
  have cE := h.turbines 'E' (by decide)
  have cF := h.turbines 'F' (by decide)
  have cG := h.turbines 'G' (by decide)
  rw [complete_same e1 e2 e3] at a6
  simp only [cC, cD, cE, cF, cG] at a1 a2 a3 a4 a5 a6 a7 a8 a9 a10
  refine ⟨?_, ?_, ?_⟩
  · unfold userSeries
    rw [a2, a3, a4, a5, a6, w1, w1', hwind, b2, b3, b4, b5, b6]
  · unfold databaseSeries
    rw [a7, a8, a9, a10, w2, w2', hwind, b7, b8, b9, b10]
  · obtain ⟨p, hp, ⟨r, n, f1, a1, a2, a3, a4, a5⟩, ⟨t, f2, a6, a7⟩⟩ := C91_pv_partial U.top ho
    obtain ⟨p', hp', ⟨r', n', k1, b1, b2, b3, b4, b5⟩, ⟨t', k2, b6, b7⟩⟩ := C91_pv_partial U'.top ho'
    obtain ⟨-, -, -, -, v1, -⟩ := site_columns U.top ho
    obtain ⟨-, -, -, -, v2, -⟩ := site_columns U'.top ho'
    obtain ⟨e1, e2, e3⟩ := h.panelShape p p' hp hp'
    cases firstComplete_unique (first_same e1 e2 e3 f1) k1
    cases firstComplete_unique (first_same e1 e2 e3 f2) k2
    have c := h.panels p r hp f1
    have d := h.site p t hp f2
    rw [text_eq (c 'C' (by decide)) a1 b1, ← b2] at a2
    rw [c 'E' (by decide), ← b3] at a3
    rw [c 'F' (by decide), ← b4] at a4
    rw [c 'G' (by decide), ← b5] at a5
    rw [d 'D' (by decide), ← b6] at a6
    rw [d 'E' (by decide), ← b7] at a7
    unfold pvSeries
    rw [a2, a3, a4, a5, a6, a7, w3, w3', hpv, v1, v2]

/-- The weather of the wind farm. -/
theorem farm_get' {c : Container} (ht : TopRowsEmpty wb) (hR : Readable wb)
    (hc : containerOf wb size = .ok c) :
    windFarmWeather c = .ok [("wind_speed_10", entries wb "Wind farm" 'C' 20),
      ("wind_speed_50", entries wb "Wind farm" 'D' 20), ("roughness_length", entries wb "Wind farm" 'E' 20),
      ("pressure", entries wb "Wind farm" 'F' 20), ("air_temperature", entries wb "Wind farm" 'G' 20)] := by
  obtain ⟨b, hr, hs⟩ := containerOf_ok hc
  obtain ⟨s, hw, hf⟩ := (readInputs_ok hr).windFarm
  obtain ⟨s', hw', hwd, -⟩ := hR.windFarm
  cases Option.some.inj (hw.symm.trans hw')
  have hwd' : 7 ≤ s.width := hwd
  obtain ⟨-, -, -, -, -, -, -, -, -, -, -, e2, -⟩ := resize_rest hs
  have hb := blank ht hw
  unfold windFarm at hf
  simp only [except_bind_ok, except_pure_ok, Prod.mk.injEq] at hf
  obtain ⟨_, -, _, -, _, -, _, -, _, -, g, hg, -, hres⟩ := hf
  rw [← e2] at hres
  unfold windFarmWeather columnsOf
  have h1 := series_eq (m := 18) 2 hb hg (by decide) (by decide) (by decide) (by omega)
    (ren := names [(2, "wind_speed_10"), (3, "wind_speed_50"), (4, "roughness_length"),
      (5, "pressure"), (6, "air_temperature")]) (name := "wind_speed_10")
  have h2 := series_eq (m := 18) 3 hb hg (by decide) (by decide) (by decide) (by omega)
    (ren := names [(2, "wind_speed_10"), (3, "wind_speed_50"), (4, "roughness_length"),
      (5, "pressure"), (6, "air_temperature")]) (name := "wind_speed_50")
  have h3 := series_eq (m := 18) 4 hb hg (by decide) (by decide) (by decide) (by omega)
    (ren := names [(2, "wind_speed_10"), (3, "wind_speed_50"), (4, "roughness_length"),
      (5, "pressure"), (6, "air_temperature")]) (name := "roughness_length")
  have h4 := series_eq (m := 18) 5 hb hg (by decide) (by decide) (by decide) (by omega)
    (ren := names [(2, "wind_speed_10"), (3, "wind_speed_50"), (4, "roughness_length"),
      (5, "pressure"), (6, "air_temperature")]) (name := "pressure")
  have h5 := series_eq (m := 18) 6 hb hg (by decide) (by decide) (by decide) (by omega)
    (ren := names [(2, "wind_speed_10"), (3, "wind_speed_50"), (4, "roughness_length"),
      (5, "pressure"), (6, "air_temperature")]) (name := "air_temperature")
  rw [hres] at h1 h2 h3 h4 h5
  rw [mapM_ok_iff]
  simp only [entries_eq hw, List.forall₂_cons, List.forall₂_nil_left_iff, and_true]
  rw [h1, h2, h3, h4, h5]
  exact ⟨rfl, rfl, rfl, rfl, rfl⟩

theorem farm_get {c : Container} (U : Usable wb) (hc : containerOf wb size = .ok c) :
    windFarmWeather c = .ok [("wind_speed_10", entries wb "Wind farm" 'C' 20),
      ("wind_speed_50", entries wb "Wind farm" 'D' 20), ("roughness_length", entries wb "Wind farm" 'E' 20),
      ("pressure", entries wb "Wind farm" 'F' 20), ("air_temperature", entries wb "Wind farm" 'G' 20)] :=
  farm_get' U.top U.readable hc

/-- The power of the wind farm, or the error, is the same. -/
theorem farm_same (h : SameUsed wb wb') (U : Usable wb) (U' : Usable wb') {c c' : Container}
    (hc : containerOf wb size = .ok c) (hc' : containerOf wb' size = .ok c') :
    farmSeries L c = farmSeries L c' := by
  have e1 := farm_get U hc
  have e2 := farm_get U' hc'
  obtain ⟨d1, -⟩ := farm_columns U.top hc e1
  obtain ⟨d2, -⟩ := farm_columns U'.top hc' e2
  obtain ⟨s, hs, -⟩ := U.readable.windFarm
  obtain ⟨s', hs', -⟩ := U'.readable.windFarm
  have i1 : (wb "Wind farm").isSome := by rw [hs]; rfl
  have i2 : (wb' "Wind farm").isSome := by rw [hs']; rfl
  have k : ∀ col ∈ ['C', 'D', 'E', 'F', 'G'], excel wb "Wind farm" col 15 = excel wb' "Wind farm" col 15 ∧
      entries wb "Wind farm" col 20 = entries wb' "Wind farm" col 20 := by
    intro col hcol
    simp only [List.mem_cons, List.not_mem_nil, or_false] at hcol
    rcases hcol with rfl | rfl | rfl | rfl | rfl <;>
      exact ⟨cell h (rows := [15]) (by decide) (by decide), entries_same h (by decide) (by decide) i1 i2⟩
  unfold farmSeries
  rw [e1, e2, d1, d2, (k 'C' (by decide)).1, (k 'D' (by decide)).1, (k 'E' (by decide)).1,
    (k 'F' (by decide)).1, (k 'G' (by decide)).1, (k 'C' (by decide)).2, (k 'D' (by decide)).2,
    (k 'E' (by decide)).2, (k 'F' (by decide)).2, (k 'G' (by decide)).2]

/-- The import prices, or the error, are the same. -/
theorem prices_same (h : SameUsed wb wb') (U : Usable wb) (U' : Usable wb') {c c' : Container}
    (hc : containerOf wb size = .ok c) (hc' : containerOf wb' size = .ok c') (g : Grid) :
    importPrices L c g = importPrices L c' g := by
  unfold importPrices
  rw [farm_same h U U' hc hc']

theorem start_same (h : SameUsed wb wb') (U : Usable wb) (U' : Usable wb')
    (hS : ∃ S, runInputs L wb size = .ok S) : ∃ S, runInputs L wb' size = .ok S := by
  obtain ⟨c, o, hc, ho, k1, k2, k3, k4, k5, k6, k7, k8, k9⟩ := (C94_start U.top).mp hS
  have F := (C94_filled size U.top U.tail).mp ⟨o, ho⟩
  obtain ⟨o', ho'⟩ := (C94_filled size U'.top U'.tail).mpr (filled h U' F)
  obtain ⟨c', hc', -⟩ := except_bind_ok.mp (show (containerOf wb' size >>= fun c => init L c) = .ok o' from ho')
  obtain ⟨p1, p2, p3⟩ := power_same h U U' ho ho'
  refine (C94_start U'.top).mpr ⟨c', o', hc', ho', ?_, number (cell h (rows := [6, 8]) (by decide) (by decide)) k2,
    number (cell h (rows := [5, 9]) (by decide) (by decide)) k3,
    number (cell h (rows := [7, 8, 9]) (by decide) (by decide)) k4, ?_, ?_, ?_, ?_, ?_⟩
  · intro col hcol r h1 h2
    refine number ?_ (k1 col hcol r h1 h2)
    simp only [List.mem_cons, List.not_mem_nil, or_false] at hcol
    rcases hcol with rfl | rfl | rfl
    · exact h.columns ("Demand input", 'D', 6) (by decide) r h1
    · exact h.columns ("Demand input", 'E', 6) (by decide) r h1
    · exact h.columns ("Demand input", 'F', 6) (by decide) r h1
  · obtain ⟨xs, hxs⟩ := k5
    refine ⟨xs, ?_⟩
    rw [← grid h U.top U'.top ho ho', ← prices_same h U U' hc hc']
    exact hxs
  · rw [← p1]; exact k6
  · rw [← p2]; exact k7
  · rw [← p3]; exact k8
  · have c3 := cell h (sheet := "Heat pump") (col := 'D') (r := 3)
      (rows := [3, 4, 5, 6, 7, 8, 9, 12, 15, 16, 17, 18, 19, 20]) (by decide) (by decide)
    have c4 := cell h (sheet := "Heat pump") (col := 'D') (r := 4)
      (rows := [3, 4, 5, 6, 7, 8, 9, 12, 15, 16, 17, 18, 19, 20]) (by decide) (by decide)
    have c9 := cell h (sheet := "Heat pump") (col := 'D') (r := 9)
      (rows := [3, 4, 5, 6, 7, 8, 9, 12, 15, 16, 17, 18, 19, 20]) (by decide) (by decide)
    rcases k9 with k | k | ⟨k, k' | k'⟩
    · exact Or.inl k
    · exact Or.inr (Or.inl (reads c4 k))
    · exact Or.inr (Or.inr ⟨reads c4 k, Or.inl (reads c9 k')⟩)
    · exact Or.inr (Or.inr ⟨reads c4 k, Or.inr (reads c3 k')⟩)

theorem simulate_same (h : SameUsed wb wb') (U : Usable wb) (U' : Usable wb') {rs : List (Results (List ℚ))}
    (hr : simulate L wb size = .ok rs) : simulate L wb' size = .ok rs := by
  obtain ⟨S, first, n, hS, h1, h2, hrun⟩ := simulate_ok.mp hr
  obtain ⟨S', hS'⟩ := start_same h U U' ⟨S, hS⟩
  cases C98_start U.top U'.top U.tail U'.tail h hS hS'
  refine simulate_ok.mpr ⟨S, first, n, hS', ?_, ?_, hrun⟩
  · unfold Holds
    rw [← cell h (sheet := "Controller") (col := 'G') (rows := [5, 6]) (by decide) (by decide)]
    exact h1
  · unfold Holds
    rw [← cell h (sheet := "Controller") (col := 'G') (rows := [5, 6]) (by decide) (by decide)]
    exact h2

end Depends

open Depends in
/-- C98: editing cells that are not used never changes the results of a combination, and never makes a run
fail that succeeded or succeed that failed. -/
theorem C98_unchanged {L : Libs} {wb wb' : Pandas.Workbook} {size : ℤ × ℤ}
    {rs : List (Results (List ℚ))} (U : Usable wb) (U' : Usable wb') (h : SameUsed wb wb') :
    simulate L wb size = .ok rs ↔ simulate L wb' size = .ok rs :=
  ⟨simulate_same h U U', simulate_same (symm h U) U' U⟩

end Verif
