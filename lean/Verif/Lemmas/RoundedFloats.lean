import Verif.Lemmas.RoundedRun

/-!
# Results of rounded arithmetic are floats
-/

set_option autoImplicit false

namespace Verif
open Spec FixedOrder Tools
namespace Rounded
variable {N : Type} {R : Rounding}

theorem isFloat_rnd (hr : Rounds R) (x : ℚ) : IsFloat R (R.rnd x) := hr.idem x

theorem isFloat_zero (hr : Rounds R) : IsFloat R 0 := by
  have := hr.neg 0
  simp only [neg_zero] at this
  unfold IsFloat
  linarith

theorem isFloat_neg (hr : Rounds R) {x : ℚ} (h : IsFloat R x) : IsFloat R (-x) := by
  unfold IsFloat at *
  rw [hr.neg, h]

theorem isFloat_min {x y : ℚ} (hx : IsFloat R x) (hy : IsFloat R y) : IsFloat R (min x y) := by
  rcases min_choice x y with h | h <;> rw [h] <;> assumption

theorem isFloat_ite {c : Prop} [Decidable c] {x y : ℚ} (hx : IsFloat R x) (hy : IsFloat R y) :
    IsFloat R (if c then x else y) := by
  split_ifs <;> assumption

/-- What the amounts of the processes are made of. -/
structure FloatChecks (R : Rounding) (c : Checks) : Prop where
  elecUnmet : IsFloat R c.elecUnmet
  heatUnmet : IsFloat R c.heatUnmet
  resLeft : IsFloat R c.resLeft
  soc : IsFloat R c.soc
  auxLeft : IsFloat R c.auxLeft
  hpUsage : IsFloat R c.hpUsage

/-- What an hour is made of. -/
structure FloatHour (R : Rounding) (P : Plant N) (i : StepIn N) : Prop where
  capacity : IsFloat R P.es.capacity
  chargeMax : IsFloat R P.es.chargeMax
  exportPrice : IsFloat R P.exportPrice
  peak : IsFloat R P.peakHeatDemand
  surplus : IsFloat R i.surplus
  deficit : IsFloat R i.deficit
  one : i.surplus = 0 ∨ i.deficit = 0
  heat : IsFloat R i.heatDemand
  price : IsFloat R i.importPrice
  soc : IsFloat R i.soc
  cop : IsFloat R i.perf.cop
  duty : IsFloat R i.perf.duty
  tank : ∀ s m, P.tank.maxInOut i.hour s i.nodes = .ok m → IsFloat R m

theorem elecUsage_float (hr : Rounds R) (hp : HeatPump) (d : ℚ) (p : Perf) : IsFloat R (elecUsage R hp d p) := by
  unfold elecUsage
  exact isFloat_ite (isFloat_zero hr) (isFloat_min (isFloat_rnd hr _) (isFloat_rnd hr _))

theorem thermalOutput_float (hr : Rounds R) (hp : HeatPump) (e : ℚ) {p : Perf} {d : ℚ} (hd : IsFloat R d)
    (hp' : IsFloat R p.duty) : IsFloat R (thermalOutput R hp e p d).demand := by
  unfold thermalOutput
  split_ifs
  · exact isFloat_zero hr
  · exact isFloat_min (isFloat_min (isFloat_rnd hr _) hd) hp'

theorem maxCharging_float (hr : Rounds R) {b : Battery} (hb : IsFloat R b.chargeMax) {m : ℚ} (hm : IsFloat R m)
    (soc : ℚ) : IsFloat R (maxCharging R b m soc) := by
  unfold maxCharging
  exact isFloat_min (isFloat_ite hm (isFloat_ite hb (isFloat_zero hr))) (isFloat_rnd hr _)

theorem newSoc_float (hr : Rounds R) {b : Battery} (hb : IsFloat R b.capacity) (m soc : ℚ) :
    IsFloat R (newSoc R b m soc) := by
  unfold newSoc
  exact isFloat_ite hb (isFloat_ite (isFloat_zero hr) (isFloat_rnd hr _))

theorem amount_float (hr : Rounds R) {P : Plant N} {i : StepIn N} (H : FloatHour R P i) {c : Checks}
    (hc : FloatChecks R c) {p : Process} {a : Amt} (h : amount R P i c p = .ok a) :
    IsFloat R a.h ∧ IsFloat R a.e := by
  have two : ∀ {x : ℚ}, IsFloat R x → IsFloat R (Amt.scalar x).h ∧ IsFloat R (Amt.scalar x).e := fun h => ⟨h, h⟩
  cases p <;> simp only [amount] at h
  case resToDemand => cases h; exact ⟨isFloat_zero hr, isFloat_zero hr⟩
  case esToDemand => cases h; exact two (by unfold esToDemand; exact isFloat_min hc.elecUnmet hc.soc)
  case importToDemand => cases h; exact two hc.elecUnmet
  case hpResToDemand =>
    cases h
    exact ⟨isFloat_min (thermalOutput_float hr _ _ hc.heatUnmet H.duty) (isFloat_rnd hr _), elecUsage_float hr _ _ _⟩
  case eauxResToDemand =>
    cases h
    refine two ?_
    unfold eauxResToDemand
    split_ifs
    · exact isFloat_min (isFloat_min hc.auxLeft hc.resLeft) hc.heatUnmet
    · exact isFloat_zero hr
  case tsToDemand =>
    simp only [except_bind_ok, except_pure_ok] at h
    obtain ⟨m, hm, h⟩ := h
    cases h
    exact two (isFloat_min hc.heatUnmet (isFloat_rnd hr _))
  case esToHpToDemand =>
    cases h
    exact ⟨isFloat_min (thermalOutput_float hr _ _ hc.heatUnmet H.duty) (isFloat_rnd hr _), elecUsage_float hr _ _ _⟩
  case hpImportToDemand =>
    cases h
    exact ⟨isFloat_ite (isFloat_zero hr) (isFloat_min hc.heatUnmet (isFloat_rnd hr _)), elecUsage_float hr _ _ _⟩
  case auxToDemand => cases h; exact two hc.heatUnmet
  case hpResToTs =>
    simp only [except_bind_ok, except_pure_ok] at h
    obtain ⟨m, hm, h⟩ := h
    cases h
    exact ⟨isFloat_min (isFloat_min (isFloat_rnd hr _) (isFloat_rnd hr _)) (isFloat_rnd hr _),
      elecUsage_float hr _ _ _⟩
  case eauxResToTs =>
    split_ifs at h
    · simp only [except_bind_ok, except_pure_ok] at h
      obtain ⟨m, hm, h⟩ := h
      cases h
      exact two (isFloat_min (isFloat_min hc.auxLeft hc.resLeft) (isFloat_rnd hr _))
    · cases h
      exact two (isFloat_zero hr)
  case hpImportToTs =>
    simp only [except_bind_ok, except_pure_ok] at h
    obtain ⟨m, hm, h⟩ := h
    cases h
    exact ⟨isFloat_ite (isFloat_zero hr) (isFloat_rnd hr _), elecUsage_float hr _ _ _⟩
  case resToEs => cases h; exact two (maxCharging_float hr H.chargeMax hc.resLeft _)
  case importToEs => cases h; exact two (isFloat_min (isFloat_rnd hr _) H.chargeMax)
  case resToExport => cases h; exact two hc.resLeft

theorem update_float (hr : Rounds R) {c : Checks} (hc : FloatChecks R c) (p : Process) (a : Amt) :
    FloatChecks R (update R p a c) := by
  obtain ⟨h1, h2, h3, h4, h5, h6⟩ := hc
  cases p <;> constructor <;> first | assumption | exact isFloat_rnd hr _

theorem record_float {r : Results N} (h : FloatResults R r) (p : Process) {a : Amt} (h1 : IsFloat R a.h)
    (h2 : IsFloat R a.e) : FloatResults R (record p a r) := by
  obtain ⟨k1, k2, k3, k4, k5, k6, k7, k8⟩ := h
  simp only [List.forall_mem_cons, List.not_mem_nil, false_imp_iff, implies_true, and_true] at k1 k2 k3 k4 k5 k6 k7 k8
  cases p <;> constructor <;>
    simp only [record, List.forall_mem_cons, List.not_mem_nil, false_imp_iff, implies_true, and_true] <;>
    simp only [k1, k2, k3, k4, k5, k6, k7, k8, h1, h2, and_self]

theorem runOrder_float (hr : Rounds R) {P : Plant N} {i : StepIn N} (H : FloatHour R P i)
    {key : ℤ → Except PyErr Process} : ∀ {order : List ℤ} {s s' : Checks × Results N}, FloatChecks R s.1 →
      FloatResults R s.2 → runOrder R P i key order s = .ok s' → FloatChecks R s'.1 ∧ FloatResults R s'.2
  | [], s, s', hc, hf, h => by
      cases h
      exact ⟨hc, hf⟩
  | n :: ns, s, s', hc, hf, h => by
      simp only [runOrder, runProcess, except_bind_ok, except_pure_ok] at h
      obtain ⟨p, -, s1, ⟨a, ha, rfl⟩, h⟩ := h
      obtain ⟨a1, a2⟩ := amount_float hr H hc ha
      exact runOrder_float hr H (update_float hr hc p a) (record_float hf p a1 a2) h

theorem init_float (hr : Rounds R) {P : Plant N} {i : StepIn N} (H : FloatHour R P i) (b : Bool) :
    FloatChecks R (initChecks P i) ∧ FloatResults R (initResults P i b) := by
  have z := isFloat_zero hr
  have hm : IsFloat R (i.surplus - i.deficit) := by
    rcases H.one with h | h
    · rw [h, zero_sub]; exact isFloat_neg hr H.deficit
    · rw [h, sub_zero]; exact H.surplus
  refine ⟨⟨H.deficit, H.heat, H.surplus, H.soc, H.peak, z⟩, ?_⟩
  constructor <;>
    simp only [initResults, List.forall_mem_cons, List.not_mem_nil, false_imp_iff, implies_true, and_true] <;>
    simp only [z, H.cop, H.duty, H.surplus, H.deficit, hm, H.price, isFloat_ite H.exportPrice z, and_self]

theorem totals1_float (hr : Rounds R) (P : Plant N) (b : Bool) {r : Results N} (h : FloatResults R r) :
    FloatResults R (totals1 R P b r) := by
  have q := isFloat_rnd hr
  obtain ⟨k1, k2, k3, k4, k5, k6, k7, k8⟩ := h
  simp only [List.forall_mem_cons, List.not_mem_nil, false_imp_iff, implies_true, and_true] at k1 k2 k3 k4 k5 k6 k7 k8
  constructor <;>
    simp only [totals1, fuelUsage, List.forall_mem_cons, List.not_mem_nil, false_imp_iff, implies_true, and_true] <;>
    simp only [Rounding.add, Rounding.sub, Rounding.mul, Rounding.div, q, k1, k2, k3, k4, k5, k6, k7, k8,
      isFloat_ite k2.2.2.2.2.2.1 (q _), and_self]

theorem totals2_float (hr : Rounds R) {P : Plant N} (hb : IsFloat R P.es.capacity) (i : StepIn N) (b : Bool)
    (nodes : N) {r : Results N} (h : FloatResults R r) : FloatResults R (totals2 R P i b nodes r) := by
  have q := isFloat_rnd hr
  have w := newSoc_float (R := R) hr hb
  obtain ⟨k1, k2, k3, k4, k5, k6, k7, k8⟩ := h
  simp only [List.forall_mem_cons, List.not_mem_nil, false_imp_iff, implies_true, and_true] at k1 k2 k3 k4 k5 k6 k7 k8
  constructor <;>
    simp only [totals2, List.forall_mem_cons, List.not_mem_nil, false_imp_iff, implies_true, and_true] <;>
    simp only [Rounding.add, Rounding.sub, Rounding.mul, Rounding.div, q, w, k1, k2, k3, k4, k5, k6, k7, k8,
      isFloat_ite (q _) (q _), isFloat_ite (isFloat_ite (q _) (q _))
      k8.2.2.2.2.2.2.2.1, and_self]

theorem zeroHp_float (hr : Rounds R) {r : Results N} (h : FloatResults R r) : FloatResults R (zeroHp r) := by
  have z := isFloat_zero hr
  obtain ⟨k1, k2, k3, k4, k5, k6, k7, k8⟩ := h
  simp only [List.forall_mem_cons, List.not_mem_nil, false_imp_iff, implies_true, and_true] at k1 k2 k3 k4 k5 k6 k7 k8
  constructor <;>
    simp only [zeroHp, List.forall_mem_cons, List.not_mem_nil, false_imp_iff, implies_true, and_true] <;>
    simp only [z, k1, k2, k3, k4, k5, k6, k7, k8, and_self]

/-- A new auxiliary demand and new totals of the tank. -/
theorem auxTs_float {r : Results N} (h : FloatResults R r) {x y d : ℚ} (hx : IsFloat R x) (hy : IsFloat R y)
    (hd : IsFloat R d) (nodes : Option N) :
    FloatResults R { r with
      ts := { r.ts with chargingTotal := x, dischargingTotal := y, finalNodesTemp := nodes }
      aux := { r.aux with demand := d } } := by
  obtain ⟨k1, k2, k3, k4, k5, k6, k7, k8⟩ := h
  simp only [List.forall_mem_cons, List.not_mem_nil, false_imp_iff, implies_true, and_true] at k1 k2 k3 k4 k5 k6 k7 k8
  constructor <;>
    simp only [List.forall_mem_cons, List.not_mem_nil, false_imp_iff, implies_true, and_true] <;>
    simp only [hx, hy, hd, k1, k2, k3, k4, k5, k6, k7, k8, and_self]

theorem raise_float (hr : Rounds R) {r : Results N} (h : FloatResults R r) (inc e : ℚ) (nodes : Option N) :
    FloatResults R { r with
    hp := { r.hp with
      heatFromImportToTs := R.add r.hp.heatFromImportToTs inc
      heatToTs := R.add r.hp.heatToTs inc
      heatTotalOutput := R.add r.hp.heatTotalOutput inc
      elecTotalUsage := R.add r.hp.elecTotalUsage e
      elecImportUsage := R.add r.hp.elecImportUsage e
      elecFromImportToTs := R.add r.hp.elecFromImportToTs e }
    ts := { r.ts with
      hpToTs := R.add r.ts.hpToTs inc
      hpFromImportToTs := R.add r.ts.hpFromImportToTs inc
      finalNodesTemp := nodes } } := by
  have q := isFloat_rnd hr
  obtain ⟨k1, k2, k3, k4, k5, k6, k7, k8⟩ := h
  simp only [List.forall_mem_cons, List.not_mem_nil, false_imp_iff, implies_true, and_true] at k1 k2 k3 k4 k5 k6 k7 k8
  constructor <;>
    simp only [List.forall_mem_cons, List.not_mem_nil, false_imp_iff, implies_true, and_true] <;>
    simp only [Rounding.add, q, k1, k2, k3, k4, k5, k6, k7, k8, and_self]

theorem rule_float (hr : Rounds R) {P : Plant N} {i : StepIn N} (H : FloatHour R P i) {b : Bool} {c : Checks}
    {r r' : Results N} (hf : FloatResults R r) (h : minOutputRule R P i b c r = .ok r') : FloatResults R r' := by
  have z := zeroHp_float hr hf
  simp only [minOutputRule] at h
  by_cases hu : r.hp.heatTotalOutput < minOut R P i ∧ r.hp.heatTotalOutput > minTrigger R b
  · rw [if_pos hu, except_bind_ok] at h
    obtain ⟨m, hm, h⟩ := h
    split_ifs at h with hinc hb
    · simp only [hpOffBelow, except_bind_ok] at h
      obtain ⟨m', hm', h⟩ := h
      have hdis := isFloat_min (H.tank _ _ hm') H.heat
      by_cases hcap : P.tank.capacity = 0
      · rw [if_pos hcap, except_pure_ok] at h
        subst h
        exact auxTs_float z (isFloat_zero hr) hdis (isFloat_rnd hr _) _
      · simp only [if_neg hcap, except_bind_ok, except_pure_ok] at h
        obtain ⟨n, _, h⟩ := h
        subst h
        exact auxTs_float z (isFloat_zero hr) hdis (isFloat_rnd hr _) _
    · simp only [hpOffAbove] at h
      split_ifs at h <;> rw [except_bind_ok] at h <;> obtain ⟨n, _, h⟩ := h <;> rw [except_pure_ok] at h <;>
        subst h <;> exact auxTs_float z (z.ts _ (by simp)) (z.ts _ (by simp)) (isFloat_rnd hr _) _
    · simp only [hpRaise] at h
      by_cases hcap : P.tank.capacity = 0
      · rw [if_pos hcap, except_pure_ok] at h
        subst h
        exact raise_float hr hf _ _ _
      · simp only [if_neg hcap, except_bind_ok, except_pure_ok] at h
        obtain ⟨n, _, h⟩ := h
        subst h
        exact raise_float hr hf _ _ _
  · rw [if_neg hu] at h
    cases h
    exact hf

theorem step_float (hr : Rounds R) {P : Plant N} {i : StepIn N} (H : FloatHour R P i) {b : Bool} {order : List ℤ}
    {r : Results N} (h : step R P i b order = .ok r) : FloatResults R r := by
  obtain ⟨c, r1, hd, hm⟩ := step_ok h
  obtain ⟨r0, nodes, ho, e⟩ := dispatch_ok hd
  obtain ⟨hc, hf⟩ := init_float hr H b
  have := (runOrder_float hr H hc hf ho).2
  dsimp only at e
  subst e
  exact rule_float hr H (totals2_float hr H.capacity i b nodes (totals1_float hr P b this)) hm

theorem complete_float (hr : Rounds R) {r : Results N} (h : FloatResults R r) {row : Row} {gen wnd pv elec heat : ℚ}
    (hu : IsFloat R row.resUsed) (hg : IsFloat R gen) (hw : IsFloat R wnd) (hp : IsFloat R pv) (he : IsFloat R elec)
    (hh : IsFloat R heat) : FloatResults R (complete R row gen wnd pv elec heat r) := by
  have q := isFloat_rnd hr
  obtain ⟨k1, k2, k3, k4, k5, k6, k7, k8⟩ := h
  simp only [List.forall_mem_cons, List.not_mem_nil, false_imp_iff, implies_true, and_true] at k1 k2 k3 k4 k5 k6 k7 k8
  constructor <;>
    simp only [complete, List.forall_mem_cons, List.not_mem_nil, false_imp_iff, implies_true, and_true] <;>
    simp only [Rounding.add, q, hu, hg, hw, hp, he, hh, k1, k2, k3, k4, k5, k6, k7, k8, and_self]

theorem listMax_mem {l : List ℚ} (hl : l ≠ []) : listMax l ∈ l := by
  have key : ∀ (t : List ℚ) (a : ℚ), t.foldl max a = a ∨ t.foldl max a ∈ t := by
    intro t
    induction t with
    | nil => intro a; exact Or.inl rfl
    | cons x t ih =>
      intro a
      rw [List.foldl_cons]
      rcases ih (max a x) with h | h
      · rcases max_choice a x with e | e
        · exact Or.inl (h.trans e)
        · exact Or.inr (by rw [h, e]; exact List.mem_cons_self ..)
      · exact Or.inr (List.mem_cons_of_mem _ h)
  cases l with
  | nil => exact absurd rfl hl
  | cons a t =>
    rcases key t a with h | h
    · rw [show listMax (a :: t) = a from h]
      exact List.mem_cons_self ..
    · exact List.mem_cons_of_mem _ h

theorem mem_zipWith_float (hr : Rounds R) {l k : List ℚ} {x : ℚ} (h : x ∈ List.zipWith R.add l k) :
    IsFloat R x := by
  obtain ⟨n, hn, rfl⟩ := List.getElem_of_mem h
  rw [List.getElem_zipWith]
  exact isFloat_rnd hr _

theorem splitHour_float (hr : Rounds R) {g d : ℚ} (hg : IsFloat R g) (hd : IsFloat R d) :
    IsFloat R (splitHour R g d).surplus ∧ IsFloat R (splitHour R g d).deficit ∧
      IsFloat R (splitHour R g d).resUsed ∧
      ((splitHour R g d).surplus = 0 ∨ (splitHour R g d).deficit = 0) := by
  have z := isFloat_zero hr
  have q := isFloat_rnd hr (g - d)
  unfold splitHour
  dsimp only
  split_ifs
  · refine ⟨z, ?_, isFloat_min hg hd, Or.inl rfl⟩
    dsimp only
    rw [neg_one_mul]
    exact isFloat_neg hr q
  · exact ⟨q, z, isFloat_min hg hd, Or.inr rfl⟩

theorem run_float (hr : Rounds R) {S : RunIn N} (H : FloatRun R S) {first n : ℕ} {rs : List (Results N)}
    (h : runTimesteps R S first n = .ok rs) {r : Results N} (hm : r ∈ rs) : FloatResults R r := by
  have hes := H.es
  have hser := H.series
  simp only [List.forall_mem_cons, List.not_mem_nil, false_imp_iff, implies_true, and_true] at hes hser
  obtain ⟨b1, b2⟩ := hes
  obtain ⟨s1, s2, s3, s4⟩ := hser
  have hour : ∀ t nodes soc r, IsFloat R soc →
      hourStep R S (List.zipWith (splitHour R) (generation R S) S.elecDemand) t nodes soc = .ok r →
      FloatResults R r := by
    intro t nodes soc r hs hh
    obtain ⟨heat, price, row, perf, gen, wnd, pv, elec, r0, O⟩ := hourStep_ok hh
    have hperf := H.perf _ (List.mem_of_getElem? O.perfEq)
    have hgen := mem_zipWith_float hr (List.mem_of_getElem? O.genEq)
    have helec := s2 _ (List.mem_of_getElem? O.elecEq)
    have hmem := List.mem_of_getElem? O.heatEq
    have hheat := s3 _ hmem
    have hrow : row = splitHour R gen elec := by
      have := O.rowEq
      rw [List.getElem?_zipWith, O.genEq, O.elecEq] at this
      exact (Option.some.inj this).symm
    obtain ⟨c1, c2, c3, c4⟩ := splitHour_float hr hgen helec
    rw [← hrow] at c1 c2 c3 c4
    rw [O.resultEq]
    refine complete_float hr (step_float hr ?_ O.stepEq) c3 hgen
      (mem_zipWith_float hr (List.mem_of_getElem? O.wndEq)) (s1 _ (List.mem_of_getElem? O.pvEq)) helec hheat
    exact
      { capacity := b1, chargeMax := b2, exportPrice := H.exportPrice
        peak := s3 _ (listMax_mem (List.ne_nil_of_mem hmem)), surplus := c1, deficit := c2, one := c4, heat := hheat
        price := s4 _ (List.mem_of_getElem? O.priceEq), soc := hs, cop := hperf.1, duty := hperf.2
        tank := fun s m hm => H.tank _ s _ m hm }
  have all : ∀ {n t : ℕ} {nodes : N} {soc : ℚ} {rs : List (Results N)}, IsFloat R soc →
      runFrom R S (List.zipWith (splitHour R) (generation R S) S.elecDemand) t n nodes soc = .ok rs →
      ∀ r ∈ rs, FloatResults R r := by
    intro n
    induction n with
    | zero => intro t nodes soc rs _ h r hr; cases h; cases hr
    | succ n ih =>
      intro t nodes soc rs hs h r hr
      simp only [runFrom, except_bind_ok, except_pure_ok] at h
      obtain ⟨r', h1, rest, h2, h3⟩ := h
      subst h3
      have hr' := hour _ _ _ _ hs h1
      rcases List.mem_cons.mp hr with rfl | hr
      · exact hr'
      · exact ih (hr'.es _ (by simp)) h2 r hr
  exact all (isFloat_rnd hr _) (runTimesteps_ok h) r hm

end Rounded
end Verif
