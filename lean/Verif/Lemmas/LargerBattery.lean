import Verif.Lemmas.NoStores
import Verif.Spec.LargerBattery

/-!
# A timestep run twice with batteries of different capacity
-/

set_option autoImplicit false

namespace Verif.FixedOrder
open Spec
variable {N : Type}

theorem maxCharging_of_nonneg {b : Battery} {m s : ℚ} (hm : 0 ≤ m) :
    b.maxCharging m s = min (min m b.chargeMax) (b.capacity - s) := by
  unfold Battery.maxCharging
  dsimp only
  split_ifs with h1 h2
  · rw [min_eq_left h1.2]
  · rw [min_eq_right h2.2]
  · exfalso
    rcases le_total m b.chargeMax with h | h
    · exact h1 ⟨hm, h⟩
    · exact h2 ⟨hm, h⟩

/-- The state of charge after an hour in which the battery delivers `d`. -/
theorem newSoc_deliver {b : Battery} (hb : BatteryOk b) {d s : ℚ} (hs : 0 ≤ s)
    (hcap : s ≤ b.capacity) (hd : 0 ≤ d) :
    b.newSoc (-d) s = max 0 (s - min (d * b.dischargeEff) b.dischargeMax - s * b.selfDischarge) := by
  have he := hb.dischargeEff_nonneg
  have hde : 0 ≤ d * b.dischargeEff := mul_nonneg hd he
  have hdm := hb.dischargeMax_nonneg
  have hsd : 0 ≤ s * b.selfDischarge := mul_nonneg hs hb.selfDischarge_nonneg
  have h1 : b.maxCharging (-d) s = 0 := by
    unfold Battery.maxCharging
    dsimp only
    have hc := hb.chargeMax_nonneg
    split_ifs with h1 h2
    · rw [min_eq_left] <;> linarith [h1.1]
    · rw [min_eq_left] <;> linarith [h2.1, h2.2]
    · rw [min_eq_left]; linarith
  have h2 : b.maxDischarging (-d) s = - min (d * b.dischargeEff) b.dischargeMax := by
    unfold Battery.maxDischarging
    dsimp only
    have e : -d * b.dischargeEff = -(d * b.dischargeEff) := by ring
    rw [e]
    split_ifs with h1 h2
    · rw [min_eq_left (by linarith), min_eq_left (by linarith [h1.2])]
    · rw [min_eq_left (by linarith), min_eq_right (by linarith)]; ring
    · have : d * b.dischargeEff = 0 := by
        by_contra hne
        have hpos : 0 < d * b.dischargeEff := lt_of_le_of_ne hde (Ne.symm hne)
        rcases le_total (d * b.dischargeEff) b.dischargeMax with h | h
        · exact h1 ⟨by linarith, by linarith⟩
        · exact h2 (by linarith)
      rw [this, min_eq_left hs, min_eq_left hdm, neg_zero]
  have hm : 0 ≤ min (d * b.dischargeEff) b.dischargeMax := le_min hde hdm
  unfold Battery.newSoc Battery.selfLoss
  rw [h1, h2]
  dsimp only
  split_ifs with h3 h4
  · rw [max_eq_right (by linarith [hb.capacity_nonneg])]; linarith
  · rw [max_eq_left (by linarith)]
  · rw [max_eq_right (by linarith)]; ring

/-- A battery and the same with another capacity. -/
abbrev resized (b : Battery) (cap : ℚ) : Battery := { b with capacity := cap }

theorem resized_ok {b : Battery} (hb : BatteryOk b) {cap : ℚ} (h : b.capacity ≤ cap) :
    BatteryOk (resized b cap) :=
  ⟨hb.1.trans h, hb.2, hb.3, hb.4, hb.5, hb.6, hb.7, hb.8, hb.9, hb.10, hb.11⟩

theorem ahead_charge {b : Battery} (hb : BatteryOk b) {cap s s' k : ℚ} (hc : b.capacity ≤ cap)
    (hs : 0 ≤ s) (hs1 : s ≤ b.capacity) (hs' : 0 ≤ s') (hs1' : s' ≤ cap) (hk : 0 ≤ k)
    (h : Ahead b.capacity cap s s') :
    Ahead b.capacity cap (b.newSoc (min (min k b.chargeMax) (b.capacity - s)) s)
      ((resized b cap).newSoc (min (min k b.chargeMax) (cap - s')) s') := by
  obtain ⟨h1, h2⟩ := h
  have hcm := hb.chargeMax_nonneg
  have h0 := hb.selfDischarge_nonneg
  have h01 := hb.selfDischarge_le_one
  set j := min k b.chargeMax with hj
  have hj0 : 0 ≤ j := le_min hk hcm
  have hjm : j ≤ b.chargeMax := min_le_right _ _
  have hn := newSoc_charge hb hs (le_min hj0 (by linarith : 0 ≤ b.capacity - s))
    ((min_le_left _ _).trans hjm) (by linarith [min_le_right j (b.capacity - s)])
  have hn' := newSoc_charge (resized_ok hb hc) hs' (le_min hj0 (by linarith : 0 ≤ cap - s'))
    ((min_le_left _ _).trans hjm) (by
      have := min_le_right j (cap - s')
      show s' + _ ≤ cap
      linarith)
  rw [hn, hn']
  have p1 : 0 ≤ s * b.selfDischarge := mul_nonneg hs h0
  have p2 : s * b.selfDischarge ≤ s := mul_le_of_le_one_right hs h01
  have p3 : 0 ≤ s' * b.selfDischarge := mul_nonneg hs' h0
  have p4 : s' * b.selfDischarge ≤ s' := mul_le_of_le_one_right hs' h01
  have p5 : 0 ≤ (s' - s) * b.selfDischarge := mul_nonneg (by linarith) h0
  have p6 : (s' - s) * b.selfDischarge ≤ s' - s := mul_le_of_le_one_right (by linarith) h01
  have m1 : 0 ≤ min j (b.capacity - s) := le_min hj0 (by linarith)
  have m2 : 0 ≤ min j (cap - s') := le_min hj0 (by linarith)
  have m3 := min_le_right j (b.capacity - s)
  have m4 := min_le_right j (cap - s')
  have c1 : clampSoc b.capacity (s + min j (b.capacity - s) - s * b.selfDischarge)
      = s + min j (b.capacity - s) - s * b.selfDischarge := by
    unfold clampSoc
    rw [min_eq_right (by linarith), max_eq_right (by linarith)]
  have c2 : clampSoc (resized b cap).capacity
      (s' + min j (cap - s') - s' * (resized b cap).selfDischarge)
      = s' + min j (cap - s') - s' * b.selfDischarge := by
    show clampSoc cap (s' + min j (cap - s') - s' * b.selfDischarge) = _
    unfold clampSoc
    rw [min_eq_right (by linarith), max_eq_right (by linarith)]
  rw [c1, c2]
  rcases le_total j (b.capacity - s) with l | l <;> rcases le_total j (cap - s') with l' | l' <;>
    simp only [min_eq_left l, min_eq_right l, min_eq_left l', min_eq_right l'] <;>
    constructor <;> nlinarith

theorem ahead_deliver {b : Battery} (hb : BatteryOk b) {cap s s' u : ℚ} (hc : b.capacity ≤ cap)
    (hs : 0 ≤ s) (hs1 : s ≤ b.capacity) (hs' : 0 ≤ s') (hs1' : s' ≤ cap) (hu : 0 ≤ u)
    (h : Ahead b.capacity cap s s') :
    Ahead b.capacity cap (b.newSoc (-(min u s)) s) ((resized b cap).newSoc (-(min u s')) s') := by
  obtain ⟨h1, h2⟩ := h
  have h0 := hb.selfDischarge_nonneg
  have h01 := hb.selfDischarge_le_one
  have he := hb.dischargeEff_nonneg
  have he1 := hb.dischargeEff_le_one
  have hdm := hb.dischargeMax_nonneg
  have hn' := newSoc_deliver (resized_ok hb hc) hs' hs1' (le_min hu hs')
  rw [newSoc_deliver hb hs hs1 (le_min hu hs), hn']
  show Ahead _ _ _ (max 0 (s' - min (min u s' * b.dischargeEff) b.dischargeMax
    - s' * b.selfDischarge))
  have p5 : 0 ≤ (s' - s) * b.selfDischarge := mul_nonneg (by linarith) h0
  have p6 : (s' - s) * b.selfDischarge ≤ s' - s := mul_le_of_le_one_right (by linarith) h01
  have p1 : 0 ≤ s * b.selfDischarge := mul_nonneg hs h0
  have e1 : s * b.dischargeEff ≤ s' * b.dischargeEff := mul_le_mul_of_nonneg_right h1 he
  have mle : min u s ≤ min u s' := min_le_min le_rfl h1
  have dle : min (min u s * b.dischargeEff) b.dischargeMax
      ≤ min (min u s' * b.dischargeEff) b.dischargeMax :=
    min_le_min (mul_le_mul_of_nonneg_right mle he) le_rfl
  have upper : s' - min (min u s' * b.dischargeEff) b.dischargeMax - s' * b.selfDischarge
      - (s - min (min u s * b.dischargeEff) b.dischargeMax - s * b.selfDischarge) ≤ s' - s := by
    nlinarith
  have lower : s - min (min u s * b.dischargeEff) b.dischargeMax - s * b.selfDischarge ≤ 0 ∨
      s - min (min u s * b.dischargeEff) b.dischargeMax - s * b.selfDischarge
      ≤ s' - min (min u s' * b.dischargeEff) b.dischargeMax - s' * b.selfDischarge := by
    rcases le_total u s with hus | hus
    · right
      rw [min_eq_left hus, min_eq_left (hus.trans h1)]
      nlinarith
    · rcases le_total b.dischargeMax (s * b.dischargeEff) with hd | hd
      · right
        have g : s * b.dischargeEff ≤ min u s' * b.dischargeEff :=
          mul_le_mul_of_nonneg_right (le_min hus h1) he
        rw [min_eq_right hus, min_eq_right hd, min_eq_right (hd.trans g)]
        nlinarith
      · rw [min_eq_right hus, min_eq_left hd]
        rcases le_total (1 - b.dischargeEff - b.selfDischarge) 0 with hq | hq
        · left; nlinarith
        · right
          have g : min (min u s' * b.dischargeEff) b.dischargeMax ≤ s' * b.dischargeEff :=
            (min_le_left _ _).trans (mul_le_mul_of_nonneg_right (min_le_right _ _) he)
          nlinarith
  constructor
  · rcases lower with l | l
    · rw [max_eq_left l]; exact le_max_left _ _
    · exact max_le_max le_rfl l
  · rcases le_total 0 (s' - min (min u s' * b.dischargeEff) b.dischargeMax
        - s' * b.selfDischarge) with l | l
    · rw [max_eq_right l]
      have := le_max_right 0 (s - min (min u s * b.dischargeEff) b.dischargeMax
        - s * b.selfDischarge)
      linarith
    · rw [max_eq_left l]
      have := le_max_left 0 (s - min (min u s * b.dischargeEff) b.dischargeMax
        - s * b.selfDischarge)
      linarith

/-- The parts of the results the battery has no influence on. -/
structure SameHeat (r r' : Results N) : Prop where
  hp : r'.hp = r.hp
  heatDemand : r'.heatDemand = r.heatDemand
  ts : r'.ts = r.ts
  aux : r'.aux = r.aux

/-- The checks and results of a timestep and of the same timestep with a larger battery, `done` being the
processes already run. -/
structure Twin (b : Battery) (cap s s' : ℚ) (done : List Process) (c c' : Checks)
    (r r' : Results N) : Prop where
  heatUnmet : c'.heatUnmet = c.heatUnmet
  hpUsage : c'.hpUsage = c.hpUsage
  tsDischarge : c'.tsDischarge = c.tsDischarge
  tsCharge : c'.tsCharge = c.tsCharge
  auxLeft : c'.auxLeft = c.auxLeft
  resLeft : Process.resToEs ∉ done → c'.resLeft = c.resLeft
  elecUnmet : Process.esToDemand ∉ done → c'.elecUnmet = c.elecUnmet
  unmetLe : c'.elecUnmet ≤ c.elecUnmet
  same : SameHeat r r'
  impHp : r'.grid.importForHeatPumpToHeatDemand = r.grid.importForHeatPumpToHeatDemand
  impTs : r'.grid.importForHeatPumpToTs = r.grid.importForHeatPumpToTs
  impElec : r'.grid.importForElecDemand ≤ r.grid.importForElecDemand
  charge : ∃ k, 0 ≤ k ∧ r.es.chargingFromRes = min (min k b.chargeMax) (b.capacity - s) ∧
    r'.es.chargingFromRes = min (min k b.chargeMax) (cap - s')
  deliver : ∃ u, 0 ≤ u ∧ r.es.dischargingToDemand = min u s ∧
    r'.es.dischargingToDemand = min u s'

/-- A process that turns renewables into heat. -/
def heats : Process → Bool
  | .hpResToDemand | .eauxResToDemand | .hpResToTs | .eauxResToTs => true
  | _ => false

/-- Two plants that differ in the capacity of the battery only. -/
abbrev resizedPlant (P : Plant N) (cap : ℚ) : Plant N := { P with es := resized P.es cap }

/-- The same timestep with another state of charge. -/
abbrev withSoc (i : StepIn N) (s : ℚ) : StepIn N := { i with soc := s }

theorem twin_init {P : Plant N} {i : StepIn N} {cap s' : ℚ} (bl : Bool) (H : StepOk P i)
    (hs' : 0 ≤ s') (hs1' : s' ≤ cap) :
    Twin P.es cap i.soc s' [] (initChecks P i) (initChecks (resizedPlant P cap) (withSoc i s'))
      (initResults P i bl) (initResults (resizedPlant P cap) (withSoc i s') bl) where
  heatUnmet := rfl
  hpUsage := rfl
  tsDischarge := rfl
  tsCharge := rfl
  auxLeft := rfl
  resLeft := fun _ => rfl
  elecUnmet := fun _ => rfl
  unmetLe := le_rfl
  same := ⟨rfl, rfl, rfl, rfl⟩
  impHp := rfl
  impTs := rfl
  impElec := le_rfl
  charge := by
    have h1 : 0 ≤ P.es.capacity - i.soc := by linarith [H.soc_le]
    have h2 : 0 ≤ cap - s' := by linarith
    refine ⟨0, le_rfl, ?_, ?_⟩
    · rw [min_eq_left H.es.chargeMax_nonneg, min_eq_left h1]; rfl
    · rw [min_eq_left H.es.chargeMax_nonneg, min_eq_left h2]; rfl
  deliver := ⟨0, le_rfl, by rw [min_eq_left H.soc_nonneg]; rfl, by rw [min_eq_left hs']; rfl⟩

/-- What the energy accounts say about one of the two timesteps. -/
theorem idle_side {P : Plant N} {i : StepIn N} {bl : Bool} {done : List Process}
    {c : Checks} {r : Results N} (L : LoopOk P i bl done c r) (h1 : Safe1 done) (h2 : Safe2 done)
    (hp : Process.esToHpToDemand ∉ done) (hi : Process.importToEs ∉ done) :
    (i.surplus = 0 → c.resLeft = 0 ∧ r.es.chargingFromRes = 0) ∧
    (i.deficit = 0 → c.elecUnmet = 0 ∧ r.es.dischargingToDemand = 0) ∧
    c.soc + r.es.dischargingToDemand = i.soc + r.es.chargingFromRes := by
  have n := L.nonneg h2 h1
  have b1 := L.bal.res
  have b2 := L.bal.elec
  have b3 := L.bal.soc
  have k1 := L.copies.c1
  have k4 := L.copies.c4
  have k10 := L.copies.c10
  have k15 := L.copies.c15
  have k17 := L.copies.c17
  have f1 : r.es.dischargingToHp = 0 := (L.fresh _ hp).2.1
  have f2 : r.es.chargingFromImport = 0 := (L.fresh _ hi).2
  have e0 := L.base.e0
  have r0 := L.base.r0
  have n1 := n.edEs
  have n2 := n.edImp
  have n3 := n.eResD
  have n4 := n.eResTs
  have n5 := n.auxResD
  have n6 := n.auxResTs
  have n7 := n.esRes
  have n8 := n.exp
  refine ⟨fun h => ⟨?_, ?_⟩, fun h => ⟨?_, ?_⟩, by linarith⟩ <;> linarith

/-- What the processes that leave the battery alone deliver does not depend on it. -/
theorem twin_amount {P : Plant N} {i : StepIn N} {cap s' : ℚ} {done : List Process}
    {c c' : Checks} {r r' : Results N} (T : Twin P.es cap i.soc s' done c c' r r') {p : Process}
    (h1 : p ≠ .esToDemand) (h2 : p ≠ .importToDemand) (h3 : p ≠ .resToEs) (h4 : p ≠ .importToEs)
    (h5 : p ≠ .resToExport) (h6 : p ≠ .esToHpToDemand)
    (hh : heats p = true → Process.resToEs ∉ done) :
    amount (resizedPlant P cap) (withSoc i s') c' p = amount P i c p := by
  cases p
  case esToDemand => exact absurd rfl h1
  case importToDemand => exact absurd rfl h2
  case resToEs => exact absurd rfl h3
  case importToEs => exact absurd rfl h4
  case resToExport => exact absurd rfl h5
  case esToHpToDemand => exact absurd rfl h6
  case hpResToDemand =>
    simp only [amount, T.resLeft (hh rfl), T.heatUnmet, T.hpUsage]
  case eauxResToDemand =>
    simp only [amount, T.resLeft (hh rfl), T.heatUnmet, T.auxLeft]
  case hpResToTs =>
    simp only [amount, T.resLeft (hh rfl), T.hpUsage, T.tsDischarge, T.tsCharge]
  case eauxResToTs =>
    simp only [amount, T.resLeft (hh rfl), T.auxLeft, T.tsDischarge, T.tsCharge]
  all_goals
    simp only [amount, T.heatUnmet, T.hpUsage, T.tsDischarge, T.tsCharge]

theorem twin_step {P : Plant N} {i : StepIn N} {cap s' : ℚ} (H : StepOk P i)
    (hs' : 0 ≤ s') (hsc : s' ≤ cap) (hle : i.soc ≤ s') (hx : i.surplus = 0 ∨ i.deficit = 0)
    {bl : Bool} {done : List Process} {c c' : Checks} {r r' : Results N}
    (L : LoopOk P i bl done c r)
    (L' : LoopOk (resizedPlant P cap) (withSoc i s') bl done c' r')
    (h1 : Safe1 done) (h2 : Safe2 done)
    (hp : Process.esToHpToDemand ∉ done) (hi : Process.importToEs ∉ done)
    (T : Twin P.es cap i.soc s' done c c' r r') {p : Process} {a a' : Amt}
    (ha : amount P i c p = .ok a)
    (ha' : amount (resizedPlant P cap) (withSoc i s') c' p = .ok a')
    (hn : p ∉ done) (h4 : p ≠ .importToEs) (h6 : p ≠ .esToHpToDemand)
    (hh : heats p = true → Process.resToEs ∉ done) :
    Twin P.es cap i.soc s' (p :: done) (update p a c) (update p a' c') (record p a r)
      (record p a' r') := by
  have tail : ∀ {q : Process}, q ∉ p :: done → q ∉ done := fun hq hm => hq (List.mem_cons_of_mem _ hm)
  obtain ⟨i1, i2, i3⟩ := idle_side L h1 h2 hp hi
  obtain ⟨i1', i2', i3'⟩ := idle_side L' h1 h2 hp hi
  by_cases g1 : p = .esToDemand
  · subst g1
    simp only [amount, Except.ok.injEq, esToDemand] at ha ha'
    have eu := T.elecUnmet hn
    have key : ∃ u, 0 ≤ u ∧ a.e = min u i.soc ∧ a'.e = min u s' ∧ a'.e = min c.elecUnmet c'.soc ∧
        c.elecUnmet - a.e ≥ c.elecUnmet - a'.e := by
      rw [eu] at ha'
      rcases hx with hx | hx
      · have q := (i1 hx).2
        have q' := (i1' hx).2
        have f := (L.fresh _ hn).2
        have f' := (L'.fresh _ hn).2
        have es : c.soc = i.soc := by linarith
        have es' : c'.soc = s' := by
          have : (withSoc i s').soc = s' := rfl
          linarith
        rw [es] at ha
        rw [es'] at ha'
        rw [es', ← ha, ← ha']
        refine ⟨c.elecUnmet, L.base.e0, rfl, rfl, rfl, ?_⟩
        have := min_le_min (le_refl c.elecUnmet) hle
        simp only [Amt.scalar]
        linarith
      · have q := (i2 hx).1
        rw [q, min_eq_left ((L.caps h2).s0)] at ha
        rw [q, min_eq_left ((L'.caps h2).s0)] at ha'
        rw [← ha, ← ha', q]
        refine ⟨0, le_rfl, (min_eq_left H.soc_nonneg).symm, (min_eq_left hs').symm,
          (min_eq_left ((L'.caps h2).s0)).symm, le_rfl⟩
    obtain ⟨u, u0, e1, e2, -, e3⟩ := key
    obtain ⟨t1, t2, t3, t4, t5, t6, t7, t8, ⟨w1, w2, w3, w4⟩, t10, t11, t12, t13, t14⟩ := T
    refine ⟨t1, t2, t3, t4, t5, fun hq => t6 (tail hq),
      fun hq => absurd List.mem_cons_self hq, ?_, ⟨w1, w2, w3, w4⟩, t10, t11, t12, t13, ⟨u, u0, e1, e2⟩⟩
    simp only [update]
    rw [eu]
    linarith
  by_cases g2 : p = .importToDemand
  · subst g2
    simp only [amount, Except.ok.injEq] at ha ha'
    subst ha ha'
    obtain ⟨t1, t2, t3, t4, t5, t6, t7, t8, ⟨w1, w2, w3, w4⟩, t10, t11, t12, t13, t14⟩ := T
    refine ⟨t1, t2, t3, t4, t5, fun hq => t6 (tail hq), ?_, ?_, ⟨w1, w2, w3, w4⟩, t10, t11, ?_,
      t13, t14⟩
    · intro _; simp [update, Amt.scalar]
    · simp [update, Amt.scalar]
    · simpa only [record, Amt.scalar] using t8
  by_cases g3 : p = .resToEs
  · subst g3
    simp only [amount, Except.ok.injEq] at ha ha'
    have er := T.resLeft hn
    have hr0 := L.base.r0
    rw [maxCharging_of_nonneg hr0] at ha
    rw [maxCharging_of_nonneg L'.base.r0, er] at ha'
    have hc0 : 0 ≤ P.es.capacity - i.soc := by linarith [H.soc_le]
    have key : ∃ k, 0 ≤ k ∧ a.e = min (min k P.es.chargeMax) (P.es.capacity - i.soc) ∧
        a'.e = min (min k P.es.chargeMax) (cap - s') := by
      rcases hx with hx | hx
      · have q := (i1 hx).1
        have s1 := (L.caps h2).scap hi
        have s2 : c'.soc ≤ cap := (L'.caps h2).scap hi
        rw [q, min_eq_left H.es.chargeMax_nonneg, min_eq_left (by linarith)] at ha
        rw [q] at ha'
        have hz : min (min 0 P.es.chargeMax) (cap - c'.soc) = 0 := by
          rw [min_eq_left H.es.chargeMax_nonneg, min_eq_left (by linarith)]
        have ha2 : Amt.scalar (min (min 0 P.es.chargeMax) (cap - c'.soc)) = a' := ha'
        rw [hz] at ha2
        rw [← ha, ← ha2]
        refine ⟨0, le_rfl, ?_, ?_⟩
        · rw [min_eq_left H.es.chargeMax_nonneg, min_eq_left hc0]; rfl
        · rw [min_eq_left H.es.chargeMax_nonneg, min_eq_left (by linarith)]; rfl
      · have q := (i2 hx).2
        have q' := (i2' hx).2
        have f := (L.fresh _ hn).2
        have f' := (L'.fresh _ hn).2
        have es : c.soc = i.soc := by linarith
        have es' : c'.soc = s' := by
          have : (withSoc i s').soc = s' := rfl
          linarith
        rw [es] at ha
        rw [es'] at ha'
        rw [← ha, ← ha']
        exact ⟨c.resLeft, hr0, rfl, rfl⟩
    obtain ⟨t1, t2, t3, t4, t5, t6, t7, t8, ⟨w1, w2, w3, w4⟩, t10, t11, t12, t13, t14⟩ := T
    exact ⟨t1, t2, t3, t4, t5, fun hq => absurd List.mem_cons_self hq, fun hq => t7 (tail hq), t8,
      ⟨w1, w2, w3, w4⟩, t10, t11, t12, key, t14⟩
  by_cases g5 : p = .resToExport
  · subst g5
    simp only [amount, Except.ok.injEq] at ha ha'
    subst ha ha'
    obtain ⟨t1, t2, t3, t4, t5, t6, t7, t8, ⟨w1, w2, w3, w4⟩, t10, t11, t12, t13, t14⟩ := T
    refine ⟨t1, t2, t3, t4, t5, ?_, fun hq => t7 (tail hq), t8, ⟨w1, w2, w3, w4⟩, t10, t11, t12,
      t13, t14⟩
    intro _; simp [update, Amt.scalar]
  rw [twin_amount T g1 g2 g3 h4 g5 h6 hh, ha] at ha'
  cases ha'
  obtain ⟨t1, t2, t3, t4, t5, t6, t7, t8, ⟨w1, w2, w3, w4⟩, t10, t11, t12, t13, t14⟩ := T
  cases p
  case esToDemand => exact absurd rfl g1
  case importToDemand => exact absurd rfl g2
  case resToEs => exact absurd rfl g3
  case importToEs => exact absurd rfl h4
  case resToExport => exact absurd rfl g5
  case esToHpToDemand => exact absurd rfl h6
  all_goals
    refine ⟨?_, ?_, ?_, ?_, ?_, fun hq => ?_, fun hq => ?_, ?_, ⟨?_, ?_, ?_, ?_⟩, ?_, ?_, ?_, ?_, ?_⟩
  all_goals
    simp only [update, record]
  all_goals
    first
    | assumption
    | exact t7 (tail hq)
    | exact t6 (tail hq)
    | (rw [t6 (tail hq)])
    | (simp only [t1, t2, t3, t4, t5, w1, w2, w3, w4])

theorem twin_loop {P : Plant N} {i : StepIn N} {cap s' : ℚ} (H : StepOk P i)
    (H' : StepOk (resizedPlant P cap) (withSoc i s'))
    (hle : i.soc ≤ s') (hx : i.surplus = 0 ∨ i.deficit = 0) {bl : Bool} :
    ∀ (ps done : List Process) (s t s1 t1 : Checks × Results N), (ps.reverse ++ done).Nodup →
      Safe1 (ps.reverse ++ done) → Safe2 (ps.reverse ++ done) →
      Process.esToHpToDemand ∉ ps.reverse ++ done → Process.importToEs ∉ ps.reverse ++ done →
      (∀ q, heats q = true → ¬ [q, Process.resToEs].Sublist (ps.reverse ++ done)) →
      runProcs P i ps s = .ok t →
      runProcs (resizedPlant P cap) (withSoc i s') ps s1 = .ok t1 →
      LoopOk P i bl done s.1 s.2 → LoopOk (resizedPlant P cap) (withSoc i s') bl done s1.1 s1.2 →
      Twin P.es cap i.soc s' done s.1 s1.1 s.2 s1.2 →
      LoopOk P i bl (ps.reverse ++ done) t.1 t.2 ∧
      LoopOk (resizedPlant P cap) (withSoc i s') bl (ps.reverse ++ done) t1.1 t1.2 ∧
      Twin P.es cap i.soc s' (ps.reverse ++ done) t.1 t1.1 t.2 t1.2 := by
  intro ps
  induction ps with
  | nil =>
    intro done s t s1 t1 _ _ _ _ _ _ h h' L L' T
    cases h
    cases h'
    exact ⟨L, L', T⟩
  | cons p ps ih =>
    intro done s t s1 t1 hnd hs1 hs2 hp hi hh h h' L L' T
    simp only [runProcs, except_bind_ok] at h h'
    obtain ⟨m, hm, hr⟩ := h
    obtain ⟨m', hm', hr'⟩ := h'
    obtain ⟨a, ha, rfl⟩ := runProcess_ok hm
    obtain ⟨a', ha', rfl⟩ := runProcess_ok hm'
    have e : (p :: ps).reverse ++ done = ps.reverse ++ (p :: done) := by simp
    rw [e] at hnd hs1 hs2 hp hi hh ⊢
    have sub : (p :: done).Sublist (ps.reverse ++ (p :: done)) := List.sublist_append_right _ _
    have sub' : done.Sublist (ps.reverse ++ (p :: done)) := (List.sublist_cons_self _ _).trans sub
    have hn : p ∉ done := (List.nodup_cons.mp (hnd.sublist sub)).1
    have d1 : Safe1 done := fun hq => hs1 (hq.trans sub')
    have d2 : Safe2 done := ⟨fun q hq hl => hs2.1 q hq (hl.trans sub'), fun hl => hs2.2 (hl.trans sub')⟩
    refine ih (p :: done) _ t _ t1 hnd hs1 hs2 hp hi hh hr hr' (loop_step H ha hn L)
      (loop_step H' ha' hn L')
      (twin_step H H'.soc_nonneg H'.soc_le hle hx L L' d1 d2 (fun hm => hp (sub'.subset hm))
        (fun hm => hi (sub'.subset hm)) T ha ha' hn ?_ ?_ ?_)
    · rintro rfl; exact hi (sub.subset List.mem_cons_self)
    · rintro rfl; exact hp (sub.subset List.mem_cons_self)
    · intro hq hm
      exact hh p hq (((List.singleton_sublist.mpr hm).cons_cons p).trans sub)

theorem twin_totals1 {P : Plant N} {cap : ℚ} {bl : Bool} {r r' : Results N} (h : SameHeat r r')
    (hp : r'.grid.importPrice = r.grid.importPrice) :
    SameHeat (totals1 P bl r) (totals1 (resizedPlant P cap) bl r') := by
  obtain ⟨w1, w2, w3, w4⟩ := h
  constructor <;> simp only [totals1, w1, w2, w3, w4, hp]

theorem twin_tank {P : Plant N} {i : StepIn N} {cap s' : ℚ} {bl : Bool} {c c' : Checks}
    {r r' : Results N} (h : SameHeat r r') (hd : c'.tsDischarge = c.tsDischarge)
    (hc : c'.tsCharge = c.tsCharge) :
    tankUpdate (resizedPlant P cap) (withSoc i s') bl c' r' = tankUpdate P i bl c r := by
  obtain ⟨w1, w2, w3, w4⟩ := h
  simp only [tankUpdate, tsMatchOf, w1, w4, hd, hc]

/-- The minimum output rule looks at heat only. -/
theorem twin_rule {P : Plant N} {i : StepIn N} {cap s' : ℚ} {bl : Bool} {c c' : Checks}
    {r r' q q' : Results N} (h : SameHeat r r') (hd : c'.tsDischarge = c.tsDischarge)
    (hc : c'.tsCharge = c.tsCharge) (hq : minOutputRule P i bl c r = .ok q)
    (hq' : minOutputRule (resizedPlant P cap) (withSoc i s') bl c' r' = .ok q') :
    SameHeat q q' ∧ q.grid = r.grid ∧ q'.grid = r'.grid ∧ q.es = r.es ∧ q'.es = r'.es := by
  obtain ⟨w1, w2, w3, w4⟩ := h
  have mo : minOut (resizedPlant P cap) (withSoc i s') = minOut P i := rfl
  have es : ∀ {P : Plant N} {i : StepIn N} {c : Checks} {r q : Results N},
      minOutputRule P i bl c r = .ok q → q.es = r.es := by
    intro P i c r q h
    cases rule_outcome h with
    | same h _ => subst h; rfl
    | raise nodes _ h => subst h; rfl
    | offAbove nodes _ _ h => subst h; rfl
    | offBelow nodes dis _ _ _ h => subst h; rfl
  refine ⟨?_, (rule_grid hq).1, (rule_grid hq').1, es hq, es hq'⟩
  unfold minOutputRule at hq hq'
  simp only [mo, w1, hd, hc] at hq'
  simp only at hq
  by_cases k1 : r.hp.heatTotalOutput < minOut P i ∧ r.hp.heatTotalOutput > minTrigger bl
  · rw [if_pos k1] at hq hq'
    simp only [except_bind_ok] at hq hq'
    obtain ⟨m, hm, hq⟩ := hq
    obtain ⟨m', hm', hq'⟩ := hq'
    have em : m' = m := Except.ok.inj (hm'.symm.trans hm)
    subst em
    by_cases k2 : minOut P i - r.hp.heatTotalOutput > m' + c.tsDischarge - c.tsCharge
    · rw [if_pos k2] at hq hq'
      cases bl with
      | true =>
        simp only [if_true, hpOffBelow, except_bind_ok] at hq hq'
        obtain ⟨d, hd1, hq⟩ := hq
        obtain ⟨d', hd1', hq'⟩ := hq'
        have ed : d' = d := Except.ok.inj (hd1'.symm.trans hd1)
        subst ed
        by_cases k3 : P.tank.capacity = 0
        · rw [if_pos k3] at hq hq'
          cases hq
          cases hq'
          constructor <;> simp only [zeroHp, w1, w2, w3, w4]
        · rw [if_neg k3] at hq hq'
          simp only [except_bind_ok] at hq hq'
          obtain ⟨n, hn, hq⟩ := hq
          obtain ⟨n', hn', hq'⟩ := hq'
          have en : n' = n := Except.ok.inj (hn'.symm.trans hn)
          subst en
          cases hq
          cases hq'
          constructor <;> simp only [zeroHp, w1, w2, w3, w4]
      | false =>
        simp only [Bool.false_eq_true, if_false, hpOffAbove] at hq hq'
        have e0 : (zeroHp r').ts.finalNodesTemp = (zeroHp r).ts.finalNodesTemp := by
          simp only [zeroHp, w3]
        by_cases k3 : P.tank.capacity = 0
        · simp only [if_pos k3, except_bind_ok, e0] at hq hq'
          obtain ⟨n, hn, hq⟩ := hq
          obtain ⟨n', hn', hq'⟩ := hq'
          have en : n' = n := Except.ok.inj (hn'.symm.trans hn)
          subst en
          cases hq
          cases hq'
          constructor <;> simp only [zeroHp, w1, w2, w3, w4]
        · simp only [if_neg k3, except_bind_ok] at hq hq'
          obtain ⟨n, hn, hq⟩ := hq
          obtain ⟨n', hn', hq'⟩ := hq'
          have en : n' = n := Except.ok.inj (hn'.symm.trans hn)
          subst en
          cases hq
          cases hq'
          constructor <;> simp only [zeroHp, w1, w2, w3, w4]
    · rw [if_neg k2] at hq hq'
      simp only [hpRaise] at hq hq'
      by_cases k3 : P.tank.capacity = 0
      · rw [if_pos k3] at hq hq'
        cases hq
        cases hq'
        constructor <;> simp only [w1, w2, w3, w4]
      · rw [if_neg k3] at hq hq'
        simp only [except_bind_ok] at hq hq'
        obtain ⟨n, hn, hq⟩ := hq
        obtain ⟨n', hn', hq'⟩ := hq'
        simp only [tsMatchOf, hd, hc, w1] at hn'
        simp only [tsMatchOf] at hn
        have en : n' = n := Except.ok.inj (hn'.symm.trans hn)
        subst en
        cases hq
        cases hq'
        constructor <;> simp only [w1, w2, w3, w4]
  · rw [if_neg k1] at hq hq'
    cases hq
    cases hq'
    exact ⟨w1, w2, w3, w4⟩

/-- One hour with two sizes of battery. -/
theorem twin_hour {P : Plant N} {i : StepIn N} {cap s' : ℚ} (H : StepOk P i)
    (H' : StepOk (resizedPlant P cap) (withSoc i s')) (hcap : P.es.capacity ≤ cap)
    (hA : Ahead P.es.capacity cap i.soc s') (hx : i.surplus = 0 ∨ i.deficit = 0) {bl : Bool}
    {order : List ℤ} (hnd : order.Nodup) (hsafe : SafeOrder bl order) (hf : HeatFirst bl order)
    {r r' : Results N} (h : step P i bl order = .ok r)
    (h' : step (resizedPlant P cap) (withSoc i s') bl order = .ok r') :
    SameHeat r r' ∧ r'.grid.totalImport ≤ r.grid.totalImport ∧
    r'.grid.importPrice = r.grid.importPrice ∧
    Ahead P.es.capacity cap r.es.finalSoc r'.es.finalSoc := by
  obtain ⟨c, r1, hd, hr⟩ := step_ok h
  obtain ⟨c', r1', hd', hr'⟩ := step_ok h'
  simp only [dispatch, except_bind_ok, except_pure_ok] at hd hd'
  obtain ⟨t, ht, nodes, hn, e⟩ := hd
  obtain ⟨t', ht', nodes', hn', e'⟩ := hd'
  obtain ⟨ps, hfo, hps⟩ := runOrder_ok (key := keyOf bl) ht
  obtain ⟨ps', hfo', hps'⟩ := runOrder_ok (key := keyOf bl) ht'
  have eps := procs_unique hfo' hfo
  subst eps
  have s1 := safe1_done hfo hsafe.1
  have s2 := safe2_done hfo hsafe.2
  have hnd' := List.nodup_reverse.mpr (nodup_procs hfo hnd)
  have before : ∀ {m n : ℤ} {p q : Process}, keyOf bl m = .ok p → keyOf bl n = .ok q →
      ¬ [m, n].Sublist order → ¬ [q, p].Sublist ps'.reverse := by
    intro m n p q hm hn hno hl
    have h' := List.reverse_sublist.mpr hl
    rw [List.reverse_reverse] at h'
    exact hno (sublist_of_procs hfo (.cons hm (.cons hn .nil)) h')
  have hord : Process.esToHpToDemand ∉ ps'.reverse ∧ Process.importToEs ∉ ps'.reverse ∧
      ∀ q, heats q = true → ¬ [q, Process.resToEs].Sublist ps'.reverse := by
    cases bl with
    | true =>
      obtain ⟨f1, f2, f3⟩ := hf
      refine ⟨fun hm => f1 ((mem_done hfo rfl).mp hm), fun hm => f2 ((mem_done hfo rfl).mp hm), ?_⟩
      intro q hq
      cases q <;> simp only [heats, Bool.false_eq_true] at hq
      · exact before (m := 13) (n := 4) rfl rfl (f3 4 (by decide))
      · exact before (m := 13) (n := 5) rfl rfl (f3 5 (by decide))
      · exact before (m := 13) (n := 10) rfl rfl (f3 10 (by decide))
      · exact before (m := 13) (n := 11) rfl rfl (f3 11 (by decide))
    | false =>
      obtain ⟨f1, f3⟩ := hf
      refine ⟨fun hm => f1 ((mem_done hfo rfl).mp hm),
        fun hm => (forall₂_noTwelve hfo).2 (List.mem_reverse.mp hm), ?_⟩
      intro q hq
      cases q <;> simp only [heats, Bool.false_eq_true] at hq
      · exact before (m := 12) (n := 4) rfl rfl (f3 4 (by decide))
      · exact before (m := 12) (n := 5) rfl rfl (f3 5 (by decide))
      · exact before (m := 12) (n := 10) rfl rfl (f3 10 (by decide))
      · exact before (m := 12) (n := 11) rfl rfl (f3 11 (by decide))
  obtain ⟨o1, o2, o3⟩ := hord
  have main := twin_loop H H' hA.more hx (bl := bl) ps' [] _ t _ t'
    (by rw [List.append_nil]; exact hnd') (by rw [List.append_nil]; exact s1)
    (by rw [List.append_nil]; exact s2) (by rw [List.append_nil]; exact o1)
    (by rw [List.append_nil]; exact o2) (by rw [List.append_nil]; exact o3) hps hps'
    (loop_init H bl) (loop_init H' bl) (twin_init bl H H'.soc_nonneg H'.soc_le)
  rw [List.append_nil] at main
  obtain ⟨L, L', T⟩ := main
  have pr : t'.2.grid.importPrice = t.2.grid.importPrice :=
    L'.frame.importPrice.trans L.frame.importPrice.symm
  have S1 := twin_totals1 (P := P) (cap := cap) (bl := bl) T.same pr
  rw [twin_tank (P := P) S1 T.tsDischarge T.tsCharge] at hn'
  have en : nodes' = nodes := Except.ok.inj (hn'.symm.trans hn)
  subst en
  cases e
  cases e'
  have S2 : SameHeat (totals2 P i bl nodes' (totals1 P bl t.2))
      (totals2 (resizedPlant P cap) (withSoc i s') bl nodes'
        (totals1 (resizedPlant P cap) bl t'.2)) := by
    obtain ⟨w1, w2, w3, w4⟩ := S1
    refine ⟨w1, w2, ?_, w4⟩
    simp only [totals2, w3]
  obtain ⟨S3, g, g', q, q'⟩ := twin_rule S2 T.tsDischarge T.tsCharge hr hr'
  refine ⟨S3, ?_, ?_, ?_⟩
  · have f1 : t.2.grid.importForEs = 0 := (L.fresh _ o2).1
    have f2 : t'.2.grid.importForEs = 0 := (L'.fresh _ o2).1
    have k := T.impElec
    have ea := T.same.aux
    have eh := T.same.heatDemand
    rw [g, g']
    simp only [totals2, totals1, f1, f2, T.impHp, T.impTs, ea, eh]
    split_ifs <;> linarith
  · rw [g, g']; exact pr
  · have f1 : t.2.es.dischargingToHp = 0 := (L.fresh _ o1).2.1
    have f2 : t'.2.es.dischargingToHp = 0 := (L'.fresh _ o1).2.1
    have f3 : t.2.es.chargingFromImport = 0 := (L.fresh _ o2).2
    have f4 : t'.2.es.chargingFromImport = 0 := (L'.fresh _ o2).2
    obtain ⟨i1, i2, -⟩ := idle_side L s1 s2 o1 o2
    obtain ⟨i1', i2', -⟩ := idle_side L' s1 s2 o1 o2
    have eb : (resizedPlant P cap).es = resized P.es cap := rfl
    rw [q, q']
    simp only [totals2, totals1, f1, f2, f3, f4, add_zero]
    rcases hx with hx | hx
    · rw [(i1 hx).2, (i1' hx).2, zero_sub, zero_sub]
      obtain ⟨u, hu, e1, e2⟩ := T.deliver
      rw [e1, e2]
      exact ahead_deliver H.es hcap H.soc_nonneg H.soc_le H'.soc_nonneg H'.soc_le hu hA
    · rw [(i2 hx).2, (i2' hx).2, sub_zero, sub_zero]
      obtain ⟨u, hu, e1, e2⟩ := T.charge
      rw [e1, e2]
      exact ahead_charge H.es hcap H.soc_nonneg H.soc_le H'.soc_nonneg H'.soc_le hu hA

end Verif.FixedOrder
