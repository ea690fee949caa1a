import Verif.Model.Rounded
import Verif.Spec.Rounding
import Verif.Lemmas.FixedOrderInv

/-!
# The process loop with rounding: how far rounding errors can grow
-/

set_option linter.unusedVariables false
set_option autoImplicit false

namespace Verif
open Spec FixedOrder
namespace Rounded
variable {N : Type} {R : Rounding} {B ε : ℚ}

/-- Rounding keeps order and zero, and errs by at most `ε` on numbers up to `8 B`. -/
structure Fl (R : Rounding) (B ε : ℚ) : Prop where
  mono : ∀ x y, x ≤ y → R.rnd x ≤ R.rnd y
  zero : R.rnd 0 = 0
  err : ∀ x, |x| ≤ 8 * B → |R.rnd x - x| ≤ ε
  pos : 0 ≤ ε

theorem Fl.near (F : Fl R B ε) {x : ℚ} (h1 : -(8 * B) ≤ x) (h2 : x ≤ 8 * B) :
    x - ε ≤ R.rnd x ∧ R.rnd x ≤ x + ε := by
  have := abs_le.mp (F.err x (abs_le.mpr ⟨h1, h2⟩))
  exact ⟨by linarith [this.1], by linarith [this.2]⟩

theorem Fl.nonneg (F : Fl R B ε) {x : ℚ} (h : 0 ≤ x) : 0 ≤ R.rnd x := by
  have := F.mono 0 x h
  rwa [F.zero] at this

theorem Fl.nonpos (F : Fl R B ε) {x : ℚ} (h : x ≤ 0) : R.rnd x ≤ 0 := by
  have := F.mono x 0 h
  rwa [F.zero] at this

/-- How often a process can multiply the errors made so far. -/
def weight : Process → ℚ
  | .hpImportToTs => 3
  | .tsToDemand | .hpResToTs | .eauxResToTs | .eauxResToDemand | .resToEs | .importToEs => 2
  | _ => 1

/-- Bound of the errors in the heat accounts after some processes. -/
def slack (E : ℚ) : List Process → ℚ
  | [] => 0
  | p :: ps => weight p * slack E ps + E

theorem elecUsage_low (F : Fl R B ε) {hp : HeatPump} {p : Perf} (hcop : 1 ≤ p.cop) (hd : 0 ≤ p.duty)
    {h σ : ℚ} (hσ : 0 ≤ σ) (hs : σ ≤ 8 * B) (hh : -σ ≤ h) : -(σ + ε) ≤ elecUsage R hp h p := by
  have e0 := F.pos
  unfold elecUsage
  split_ifs
  · linarith
  · have hc : 0 < p.cop := by linarith
    refine le_min ?_ ?_
    · have h1 : -σ ≤ h / p.cop := by
        rw [le_div_iff₀ hc]
        nlinarith
      have h2 := F.mono _ _ h1
      have h3 := (F.near (x := -σ) (by linarith) (by linarith)).1
      show _ ≤ R.rnd (h / p.cop)
      linarith
    · have := F.nonneg (div_nonneg hd hc.le)
      show _ ≤ R.rnd (p.duty / p.cop)
      linarith

theorem elecUsage_high (F : Fl R B ε) {hp : HeatPump} {p : Perf} (hcop : 1 ≤ p.cop)
    {h x : ℚ} (hx : x * p.cop ≤ 8 * B) (hx2 : x + ε ≤ 8 * B)
    (hh : hp.capacity ≠ 0 → h ≤ R.rnd (x * p.cop)) : elecUsage R hp h p ≤ max x 0 + 2 * ε := by
  have e0 := F.pos
  have hm : 0 ≤ max x 0 := le_max_right _ _
  unfold elecUsage
  split_ifs with hcap
  · linarith
  · have hh := hh hcap
    have hc : 0 < p.cop := by linarith
    refine (min_le_left _ _).trans ?_
    show R.rnd (h / p.cop) ≤ _
    rcases le_or_gt 0 x with h0 | h0
    · have hB : 0 ≤ 8 * B := by linarith
      have hpc : 0 ≤ x * p.cop := mul_nonneg h0 hc.le
      have h1 := (F.near (x := x * p.cop) (by linarith) hx).2
      have h2 : h / p.cop ≤ x + ε := by
        rw [div_le_iff₀ hc]
        nlinarith
      have h3 := F.mono _ _ h2
      have h4 := (F.near (x := x + ε) (by linarith) hx2).2
      have := le_max_left x 0
      linarith
    · have h1 := F.nonpos (x := x * p.cop) (by nlinarith)
      have h2 : h / p.cop ≤ 0 := div_nonpos_of_nonpos_of_nonneg (by linarith) hc.le
      have h3 := F.nonpos h2
      linarith

theorem elecUsage_top (F : Fl R B ε) {hp : HeatPump} {p : Perf} (hcop : 1 ≤ p.cop)
    {h y : ℚ} (hh : h ≤ y) (hy : 0 ≤ y) (hy2 : y ≤ 8 * B) : elecUsage R hp h p ≤ y + ε := by
  have e0 := F.pos
  unfold elecUsage
  split_ifs with hcap
  · linarith
  · have hc : 0 < p.cop := by linarith
    refine (min_le_left _ _).trans ?_
    show R.rnd (h / p.cop) ≤ _
    have h1 : h / p.cop ≤ y := by
      rw [div_le_iff₀ hc]
      nlinarith
    have h2 := F.mono _ _ h1
    have h3 := (F.near (x := y) (by linarith) hy2).2
    linarith

theorem pyRound_ge_double {x : ℚ} (n : ℕ) {s : ℚ} (hs : 0 ≤ s) (hx : -s ≤ x) : -(2 * s) ≤ pyRound x n := by
  have hp : (0 : ℚ) < 10 ^ n := by positivity
  have key : ∀ q : ℚ, q ≤ 0 → 2 * q ≤ roundHalfEven q := by
    intro q hq
    obtain ⟨h1, h2⟩ := roundHalfEven_bounds q
    rcases le_or_gt q (-1 / 2) with h | h
    · linarith
    · have : (-1 : ℚ) < roundHalfEven q := by linarith
      have h3 : (-1 : ℤ) < roundHalfEven q := by exact_mod_cast this
      have h4 : (0 : ℤ) ≤ roundHalfEven q := by omega
      have h5 : (0 : ℚ) ≤ roundHalfEven q := by exact_mod_cast h4
      linarith
  rcases le_or_gt 0 x with h0 | h0
  · have := pyRound_nonneg h0 n
    linarith
  · have h1 := key (x * 10 ^ n) (by nlinarith)
    unfold pyRound
    rw [le_div_iff₀ hp]
    nlinarith

/-- History without battery supply after 'Import to ES'. -/
def Safe5 (done : List Process) : Prop :=
  ∀ q ∈ [Process.esToDemand, .esToHpToDemand], ¬ [q, Process.importToEs].Sublist done

theorem Safe5.tail {p : Process} {done : List Process} (h : Safe5 (p :: done)) : Safe5 done :=
  fun q hq hs => h q hq (hs.cons _)

theorem Safe5.es {p : Process} {done : List Process} (h : Safe5 (p :: done))
    (hp : p ∈ [Process.esToDemand, .esToHpToDemand]) : Process.importToEs ∉ done :=
  fun hm => h p hp ((List.singleton_sublist.mpr hm).cons_cons _)

/-- The accounts after the processes `done` (most recent first): `t` bounds the errors of electric accounts, `s` of
heat accounts. -/
structure Near (P : Plant N) (i : StepIn N) (B ε s t : ℚ) (done : List Process) (c : Checks) : Prop where
  e0 : 0 ≤ c.elecUnmet
  e1 : c.elecUnmet ≤ i.deficit + s
  emet0 : Process.importToDemand ∈ done → Process.esToDemand ∉ done → c.elecUnmet = 0
  emet : Process.importToDemand ∈ done → c.elecUnmet ≤ 48 * ε
  h0 : 0 ≤ c.heatUnmet
  h1 : c.heatUnmet ≤ i.heatDemand + s
  hmet : Process.auxToDemand ∈ done → c.heatUnmet ≤ s
  r0 : -t ≤ c.resLeft
  r1 : c.resLeft ≤ i.surplus + s
  rmet : Process.resToExport ∈ done → c.resLeft ≤ s
  s0 : Process.importToEs ∉ done → -t ≤ c.soc
  s1 : Process.importToEs ∉ done → c.soc ≤ P.es.capacity + s
  u0 : -s ≤ c.hpUsage
  u1 : Process.hpImportToTs ∉ done → c.hpUsage ≤ i.perf.duty + t + 2 * ε
  d0 : -s ≤ c.tsDischarge
  d1 : c.tsDischarge ≤ B + s
  dfresh : Process.tsToDemand ∉ done → c.tsDischarge = 0
  c0 : -s ≤ c.tsCharge
  c1 : c.tsCharge ≤ 3 * B + s
  room : ∀ m, P.tank.maxInOut i.hour .charging i.nodes = .ok m →
    Process.hpImportToTs ∉ done → c.tsCharge ≤ m + c.tsDischarge + s
  avail : ∀ m, P.tank.maxInOut i.hour .discharging i.nodes = .ok m →
    c.tsDischarge ≤ m + c.tsCharge + s
  a0 : Process.eauxResToTs ∉ done → c.heatUnmet ≤ c.auxLeft + s
  a1 : (-s ≤ c.auxLeft ∧ c.auxLeft ≤ B + s) ∨ [Process.auxToDemand, .eauxResToTs].Sublist done

/-- With larger bounds, after a process that changes none of the accounts. -/
theorem Near.grow {P : Plant N} {i : StepIn N} {s t s' t' : ℚ} {done : List Process} {c : Checks} {p : Process}
    (h : Near P i B ε s t done c) (hs : s ≤ s') (ht : t ≤ t')
    (hp : p ∉ [Process.importToDemand, .auxToDemand, .resToExport]) :
    Near P i B ε s' t' (p :: done) c := by
  have hm : ∀ {q : Process}, q ∉ p :: done → q ∉ done := fun h h' => h (List.mem_cons_of_mem _ h')
  have hp1 : ∀ {q : Process}, q ∈ p :: done → q ≠ p → q ∈ done := by
    intro q hq hne
    rcases List.mem_cons.mp hq with h | h
    · exact absurd h hne
    · exact h
  simp only [List.mem_cons, List.not_mem_nil, or_false, not_or] at hp
  obtain ⟨p1, p2, p3⟩ := hp
  obtain ⟨e0, e1, emet0, emet, h0, h1, hmet, r0, r1, rmet, s0, s1, u0, u1, d0, d1, df, c0, c1, room, avail, a0, a1⟩ := h
  exact ⟨e0, by linarith, fun ha hb => emet0 (hp1 ha (Ne.symm p1)) (hm hb), fun ha => emet (hp1 ha (Ne.symm p1)),
    h0, by linarith, fun ha => by linarith [hmet (hp1 ha (Ne.symm p2))], by linarith, by linarith,
    fun ha => by linarith [rmet (hp1 ha (Ne.symm p3))], fun ha => by linarith [s0 (hm ha)],
    fun ha => by linarith [s1 (hm ha)], by linarith, fun ha => by linarith [u1 (hm ha)], by linarith, by linarith,
    fun ha => df (hm ha), by linarith, by linarith, fun m hmm ha => by linarith [room m hmm (hm ha)],
    fun m hmm => by linarith [avail m hmm], fun ha => by linarith [a0 (hm ha)],
    a1.imp (fun h => ⟨by linarith [h.1], by linarith [h.2]⟩) (fun h => h.cons _)⟩

/-- The fields of the bounds a process does not change. -/
local macro "unchanged " g:term : tactic => `(tactic| first
  | exact ($g).e0 | exact ($g).e1 | exact ($g).emet0 | exact ($g).emet | exact ($g).h0 | exact ($g).h1
  | exact ($g).hmet | exact ($g).r0 | exact ($g).r1 | exact ($g).rmet | exact ($g).s0 | exact ($g).s1
  | exact ($g).u0 | exact ($g).u1 | exact ($g).d0 | exact ($g).d1 | exact ($g).dfresh | exact ($g).c0
  | exact ($g).c1 | exact ($g).room | exact ($g).avail | exact ($g).a0 | exact ($g).a1)

/-- Sizes of the bounds before and after a process. -/
structure Sizes (cop B ε E s t s' t' w : ℚ) : Prop where
  hE : E = 64 * cop * ε
  hs0 : 0 ≤ s
  hs' : s' = w * s + E
  hw : 1 ≤ w
  hsm : 8 * cop * s' ≤ B
  ht0 : 0 ≤ t
  ht : t ≤ 42 * ε
  ht' : t' = t + 3 * ε
  hts : t ≤ s
  cop1 : 1 ≤ cop
  eps : 0 ≤ ε

theorem Sizes.e_le {cop B ε E s t s' t' w : ℚ} (z : Sizes cop B ε E s t s' t' w) : 64 * ε ≤ E := by
  rw [z.hE]; nlinarith [z.cop1, z.eps]

theorem Sizes.s_le {cop B ε E s t s' t' w : ℚ} (z : Sizes cop B ε E s t s' t' w) : s + E ≤ s' := by
  rw [z.hs']; nlinarith [z.hw, z.hs0]

theorem Sizes.s'_small {cop B ε E s t s' t' w : ℚ} (z : Sizes cop B ε E s t s' t' w) : 8 * s' ≤ B := by
  have h1 := z.e_le
  have h2 := z.s_le
  have := z.eps
  have := z.hs0
  nlinarith [z.cop1, z.hsm]

theorem Sizes.cs_small {cop B ε E s t s' t' w : ℚ} (z : Sizes cop B ε E s t s' t' w) : 8 * (s * cop) ≤ B := by
  have h1 := z.e_le
  have h2 := z.s_le
  have := z.eps
  have := z.hs0
  nlinarith [z.cop1, z.hsm]

theorem Sizes.ct_small {cop B ε E s t s' t' w : ℚ} (z : Sizes cop B ε E s t s' t' w) : 64 * (t * cop) ≤ 42 * E := by
  rw [z.hE]
  have := z.ht
  nlinarith [z.cop1]

/-- Heat and electricity of 'HP RES to demand' and 'ES to HP to demand' with supply `x`. -/
theorem pump_near {P : Plant N} {i : StepIn N} (F : Fl R B ε) (H : StepOk P i) (Z : Sized P i B)
    {E s t s' t' w : ℚ} (z : Sizes i.perf.cop B ε E s t s' t' w) {x u d lim : ℚ} (hl : lim * i.perf.cop ≤ B)
    (hl0 : 0 ≤ lim)
    (hx0 : -t ≤ x) (hx1 : x ≤ lim + s) (hd : 0 ≤ d) (hu0 : -s ≤ u)
    (hu : u ≤ i.perf.duty + t + 2 * ε) {h e : ℚ}
    (hh : h = min (thermalOutput R P.hp x i.perf d).demand (R.sub i.perf.duty u))
    (he : e = elecUsage R P.hp h i.perf) :
    -(46 * E) ≤ 64 * h ∧ h ≤ d ∧ h ≤ i.perf.duty - u + ε ∧ -(48 * E) ≤ 64 * e ∧ e ≤ max x 0 + 2 * ε := by
  have e1 := z.e_le
  have e2 := z.s_le
  have e3 := z.s'_small
  have e4 := z.cs_small
  have e5 := z.ct_small
  have e6 := z.eps
  have e7 := z.hs0
  have e8 := z.ht0
  have e9 := z.ht
  have hc := z.cop1
  have hdu := H.duty_nonneg
  have hdu2 := Z.duty
  have hB := Z.one_le
  have hpk := H.heat_le_peak
  have hpk2 := Z.peak
  have hx2 : x ≤ B + s := by nlinarith
  have p0 : -(t * i.perf.cop) ≤ x * i.perf.cop := by nlinarith
  have p1 : x * i.perf.cop ≤ B + s * i.perf.cop := by nlinarith
  have q := F.near (x := x * i.perf.cop) (by linarith) (by linarith)
  have r := F.near (x := i.perf.duty - u) (by linarith) (by linarith)
  have hr : R.sub i.perf.duty u = R.rnd (i.perf.duty - u) := rfl
  have hdem : -(46 * E) ≤ 64 * (thermalOutput R P.hp x i.perf d).demand ∧
      (thermalOutput R P.hp x i.perf d).demand ≤ d ∧
      (P.hp.capacity ≠ 0 → (thermalOutput R P.hp x i.perf d).demand ≤ R.rnd (x * i.perf.cop)) := by
    unfold thermalOutput
    split_ifs with hcap
    · exact ⟨by simp only; linarith, hd, fun h => absurd hcap h⟩
    · refine ⟨?_, (min_le_left _ _).trans (min_le_right _ _), fun _ => (min_le_left _ _).trans (min_le_left _ _)⟩
      have : -(46 / 64 * E) ≤ min (min (R.mul x i.perf.cop) d) i.perf.duty := by
        refine le_min (le_min ?_ (by linarith)) (by linarith)
        show _ ≤ R.rnd (x * i.perf.cop)
        linarith [q.1]
      simp only
      linarith
  obtain ⟨d1, d2, d3⟩ := hdem
  have hlow : -(46 / 64 * E) ≤ h := by
    rw [hh]
    refine le_min (by linarith) ?_
    rw [hr]; linarith [r.1]
  have hle1 : h ≤ (thermalOutput R P.hp x i.perf d).demand := by rw [hh]; exact min_le_left _ _
  have hle2 : h ≤ R.rnd (i.perf.duty - u) := by rw [hh]; exact min_le_right _ _
  refine ⟨by linarith, by linarith, by linarith [r.2], ?_, ?_⟩
  · have := elecUsage_low F (hp := P.hp) hc hdu (σ := 46 / 64 * E) (by linarith) (by linarith) hlow
    rw [he]; linarith
  · rw [he]
    exact elecUsage_high F hc (by linarith) (by linarith) (fun hcap => hle1.trans (d3 hcap))

/-- What a process supplies is hardly negative, and not larger than `2 B`. -/
structure AmtNear (B s' : ℚ) (a : Amt) : Prop where
  h0 : -s' ≤ a.h
  h1 : a.h ≤ 2 * B
  e0 : -s' ≤ a.e
  e1 : a.e ≤ 2 * B

/-- The numbers needed in every step. -/
theorem Sizes.facts {P : Plant N} {i : StepIn N} (H : StepOk P i) (Z : Sized P i B) {E s t s' t' w : ℚ}
    (z : Sizes i.perf.cop B ε E s t s' t' w) :
    64 * ε ≤ E ∧ s + E ≤ s' ∧ 8 * s' ≤ B ∧ 8 * (s * i.perf.cop) ≤ B ∧ 64 * (t * i.perf.cop) ≤ 42 * E ∧ 0 ≤ ε ∧
    0 ≤ s ∧ 0 ≤ t ∧ t ≤ 42 * ε ∧ t' = t + 3 * ε ∧ s' = w * s + E ∧ 1 ≤ i.perf.cop ∧ 0 ≤ i.perf.duty ∧
    i.perf.duty ≤ B ∧ 1 ≤ B ∧ i.heatDemand ≤ B ∧ 0 ≤ i.surplus ∧ i.surplus ≤ B ∧ 0 ≤ P.es.capacity ∧
    P.es.capacity ≤ B ∧ i.deficit ≤ B ∧ 0 ≤ i.deficit ∧ 0 ≤ i.heatDemand := by
  have hc := z.cop1
  exact ⟨z.e_le, z.s_le, z.s'_small, z.cs_small, z.ct_small, z.eps, z.hs0, z.ht0, z.ht, z.ht', z.hs', hc,
    H.duty_nonneg, Z.duty, Z.one_le, H.heat_le_peak.trans Z.peak, H.surplus_nonneg,
    by nlinarith [Z.surplus, H.surplus_nonneg], H.es.capacity_nonneg, by nlinarith [Z.battery, H.es.capacity_nonneg],
    Z.deficit, H.deficit_nonneg, H.heat_nonneg⟩

theorem near_resToDemand {P : Plant N} {i : StepIn N} (F : Fl R B ε) (H : StepOk P i) (Z : Sized P i B)
    {done : List Process} {c : Checks} {a : Amt} (ha : amount R P i c .resToDemand = .ok a)
    (hn : Process.resToDemand ∉ done) (h1 : Safe1 (.resToDemand :: done)) (h2 : Safe2 (.resToDemand :: done))
    (h5 : Safe5 (.resToDemand :: done)) {E s t s' t' : ℚ}
    (z : Sizes i.perf.cop B ε E s t s' t' (weight .resToDemand)) (h : Near P i B ε s t done c) :
    Near P i B ε s' t' (.resToDemand :: done) (update R .resToDemand a c) ∧ AmtNear B s' a := by
  obtain ⟨e1, e2, e3, e4, e5, e6, e7, e8, e9, e10, e11, hc, hdu, hdu2, hB, hpk, hsu, hsu2, hcp, hcp2, hdf, hdf0, hhd⟩ :=
    z.facts H Z
  have hm : ∀ {q : Process}, q ∉ Process.resToDemand :: done → q ∉ done := fun h h' => h (List.mem_cons_of_mem _ h')
  have hss : s ≤ s' := by linarith
  have htt : t ≤ t' := by linarith
  simp only [amount, Except.ok.injEq] at ha
  simp only [weight] at e11
  subst ha
  exact ⟨h.grow hss htt (by decide), ⟨by simp only; linarith, by simp only; linarith, by simp only; linarith,
    by simp only; linarith⟩⟩

theorem near_esToDemand {P : Plant N} {i : StepIn N} (F : Fl R B ε) (H : StepOk P i) (Z : Sized P i B)
    {done : List Process} {c : Checks} {a : Amt} (ha : amount R P i c .esToDemand = .ok a)
    (hn : Process.esToDemand ∉ done) (h1 : Safe1 (.esToDemand :: done)) (h2 : Safe2 (.esToDemand :: done))
    (h5 : Safe5 (.esToDemand :: done)) {E s t s' t' : ℚ}
    (z : Sizes i.perf.cop B ε E s t s' t' (weight .esToDemand)) (h : Near P i B ε s t done c) :
    Near P i B ε s' t' (.esToDemand :: done) (update R .esToDemand a c) ∧ AmtNear B s' a := by
  obtain ⟨e1, e2, e3, e4, e5, e6, e7, e8, e9, e10, e11, hc, hdu, hdu2, hB, hpk, hsu, hsu2, hcp, hcp2, hdf, hdf0, hhd⟩ :=
    z.facts H Z
  have hm : ∀ {q : Process}, q ∉ Process.esToDemand :: done → q ∉ done := fun h h' => h (List.mem_cons_of_mem _ h')
  have hss : s ≤ s' := by linarith
  have htt : t ≤ t' := by linarith
  simp only [amount, Except.ok.injEq] at ha
  simp only [weight] at e11
  have g := h.grow (p := .esToDemand) hss htt (by decide)
  have hni := h5.es (by simp)
  subst ha
  have q0 := h.s0 hni
  have q1 := h.s1 hni
  have q2 := h.e0
  have q3 := h.e1
  simp only [Amt.scalar, esToDemand]
  have m1 := min_le_left c.elecUnmet c.soc
  have m2 := min_le_right c.elecUnmet c.soc
  have m3 : -t ≤ min c.elecUnmet c.soc := le_min (by linarith) q0
  have m4 : c.soc + -min c.elecUnmet c.soc ≤ P.es.capacity + s := by
    rcases le_total c.elecUnmet c.soc with hh | hh
    · rw [min_eq_left hh]; linarith
    · rw [min_eq_right hh]; linarith
  generalize hg : min c.elecUnmet c.soc = x at *
  have f1 := F.near (x := c.elecUnmet - x) (by linarith) (by linarith)
  have f2 := F.near (x := c.soc + -x) (by linarith) (by linarith)
  have f3 := F.nonneg (x := c.elecUnmet - x) (by linarith)
  have f4 := F.nonneg (x := c.soc + -x) (by linarith)
  refine ⟨?_, ⟨by simp only; linarith, by simp only; linarith, by simp only; linarith, by simp only; linarith⟩⟩
  constructor
  case e0 => exact f3
  case e1 => show R.rnd (c.elecUnmet - x) ≤ _; linarith
  case emet0 => intro _ hb; exact absurd List.mem_cons_self hb
  case emet =>
    intro hb
    have hb' : Process.importToDemand ∈ done := by simpa using hb
    have := h.emet0 hb' hn
    show R.rnd (c.elecUnmet - x) ≤ _
    linarith
  case s0 => intro _; show _ ≤ R.rnd (c.soc + -x); linarith
  case s1 => intro _; show R.rnd (c.soc + -x) ≤ _; linarith
  all_goals unchanged g

theorem near_importToDemand {P : Plant N} {i : StepIn N} (F : Fl R B ε) (H : StepOk P i) (Z : Sized P i B)
    {done : List Process} {c : Checks} {a : Amt} (ha : amount R P i c .importToDemand = .ok a)
    (hn : Process.importToDemand ∉ done) (h1 : Safe1 (.importToDemand :: done)) (h2 : Safe2 (.importToDemand :: done))
    (h5 : Safe5 (.importToDemand :: done)) {E s t s' t' : ℚ}
    (z : Sizes i.perf.cop B ε E s t s' t' (weight .importToDemand)) (h : Near P i B ε s t done c) :
    Near P i B ε s' t' (.importToDemand :: done) (update R .importToDemand a c) ∧ AmtNear B s' a := by
  obtain ⟨e1, e2, e3, e4, e5, e6, e7, e8, e9, e10, e11, hc, hdu, hdu2, hB, hpk, hsu, hsu2, hcp, hcp2, hdf, hdf0, hhd⟩ :=
    z.facts H Z
  have hm : ∀ {q : Process}, q ∉ Process.importToDemand :: done → q ∉ done := fun h h' => h (List.mem_cons_of_mem _ h')
  have hss : s ≤ s' := by linarith
  have htt : t ≤ t' := by linarith
  simp only [amount, Except.ok.injEq] at ha
  simp only [weight] at e11
  subst ha
  have q2 := h.e0
  have q3 := h.e1
  have hz : R.rnd (c.elecUnmet - c.elecUnmet) = 0 := by rw [sub_self]; exact F.zero
  obtain ⟨e0, e1, emet0, emet, h0, h1, hmet, r0, r1, rmet, s0, s1, u0, u1, d0, d1, df, c0, c1, room, avail, a0,
    a1⟩ := h
  refine ⟨⟨hz.ge, hz.le.trans (by linarith), fun _ _ => hz, fun _ => hz.le.trans (by linarith), h0,
    (by linarith : c.heatUnmet ≤ _), fun hb => (by linarith [hmet (by simpa using hb)] : c.heatUnmet ≤ _),
    (by linarith : _ ≤ c.resLeft), (by linarith : c.resLeft ≤ _),
    fun hb => (by linarith [rmet (by simpa using hb)] : c.resLeft ≤ _),
    fun hb => (by linarith [s0 (hm hb)] : _ ≤ c.soc), fun hb => (by linarith [s1 (hm hb)] : c.soc ≤ _),
    (by linarith : _ ≤ c.hpUsage), fun hb => (by linarith [u1 (hm hb)] : c.hpUsage ≤ _),
    (by linarith : _ ≤ c.tsDischarge), (by linarith : c.tsDischarge ≤ _), fun hb => df (hm hb),
    (by linarith : _ ≤ c.tsCharge), (by linarith : c.tsCharge ≤ _),
    fun m hmm hb => (by linarith [room m hmm (hm hb)] : c.tsCharge ≤ m + c.tsDischarge + s'),
    fun m hmm => (by linarith [avail m hmm] : c.tsDischarge ≤ m + c.tsCharge + s'),
    fun hb => (by linarith [a0 (hm hb)] : c.heatUnmet ≤ c.auxLeft + s'),
    a1.imp (fun h => ⟨(by linarith [h.1] : _ ≤ c.auxLeft), (by linarith [h.2] : c.auxLeft ≤ _)⟩)
      (fun h => h.cons _)⟩, ?_⟩
  constructor <;> simp only [Amt.scalar] <;> linarith

theorem near_hpResToDemand {P : Plant N} {i : StepIn N} (F : Fl R B ε) (H : StepOk P i) (Z : Sized P i B)
    {done : List Process} {c : Checks} {a : Amt} (ha : amount R P i c .hpResToDemand = .ok a)
    (hn : Process.hpResToDemand ∉ done) (h1 : Safe1 (.hpResToDemand :: done)) (h2 : Safe2 (.hpResToDemand :: done))
    (h5 : Safe5 (.hpResToDemand :: done)) {E s t s' t' : ℚ}
    (z : Sizes i.perf.cop B ε E s t s' t' (weight .hpResToDemand)) (h : Near P i B ε s t done c) :
    Near P i B ε s' t' (.hpResToDemand :: done) (update R .hpResToDemand a c) ∧ AmtNear B s' a := by
  obtain ⟨e1, e2, e3, e4, e5, e6, e7, e8, e9, e10, e11, hc, hdu, hdu2, hB, hpk, hsu, hsu2, hcp, hcp2, hdf, hdf0, hhd⟩ :=
    z.facts H Z
  have hm : ∀ {q : Process}, q ∉ Process.hpResToDemand :: done → q ∉ done := fun h h' => h (List.mem_cons_of_mem _ h')
  have hss : s ≤ s' := by linarith
  have htt : t ≤ t' := by linarith
  simp only [amount, Except.ok.injEq] at ha
  simp only [weight] at e11
  have g := h.grow (p := .hpResToDemand) hss htt (by decide)
  obtain ⟨y, x⟩ := a
  injection ha with hy hx
  have hu1 := h.u1 (h2.hp (by simp))
  have hu0 := h.u0
  have r0 := h.r0
  have r1 := h.r1
  have k0 := h.h0
  have k1 := h.h1
  obtain ⟨b1, b2, b3, b4, b5⟩ :=
    pump_near F H Z z Z.surplus hsu r0 r1 k0 hu0 hu1 (e := x) hy.symm (by rw [← hx, hy])
  have b6 : max c.resLeft 0 ≤ c.resLeft + t := max_le (by linarith) (by linarith)
  have f1 := F.near (x := c.heatUnmet - y) (by linarith) (by linarith)
  have f2 := F.near (x := c.resLeft - x) (by linarith) (by linarith)
  have f3 := F.near (x := c.hpUsage + y) (by linarith) (by linarith)
  have f4 := F.nonneg (x := c.heatUnmet - y) (by linarith)
  refine ⟨?_, ⟨by simp only; linarith, by simp only; linarith, by simp only; linarith, by simp only; linarith⟩⟩
  constructor
  case h0 => exact f4
  case h1 => show R.rnd (c.heatUnmet - y) ≤ _; linarith
  case hmet =>
    intro hb
    have := h.hmet (by simpa using hb)
    show R.rnd (c.heatUnmet - y) ≤ _
    linarith
  case r0 => show _ ≤ R.rnd (c.resLeft - x); linarith
  case r1 => show R.rnd (c.resLeft - x) ≤ _; linarith
  case rmet =>
    intro hb
    have := h.rmet (by simpa using hb)
    show R.rnd (c.resLeft - x) ≤ _
    linarith
  case u0 => show _ ≤ R.rnd (c.hpUsage + y); linarith
  case u1 => intro _; show R.rnd (c.hpUsage + y) ≤ _; linarith
  case a0 =>
    intro hb
    have := h.a0 (hm hb)
    show R.rnd (c.heatUnmet - y) ≤ c.auxLeft + _
    linarith
  all_goals unchanged g

theorem near_eauxResToDemand {P : Plant N} {i : StepIn N} (F : Fl R B ε) (H : StepOk P i) (Z : Sized P i B)
    {done : List Process} {c : Checks} {a : Amt} (ha : amount R P i c .eauxResToDemand = .ok a)
    (hn : Process.eauxResToDemand ∉ done) (h1 : Safe1 (.eauxResToDemand :: done)) (h2 : Safe2 (.eauxResToDemand :: done))
    (h5 : Safe5 (.eauxResToDemand :: done)) {E s t s' t' : ℚ}
    (z : Sizes i.perf.cop B ε E s t s' t' (weight .eauxResToDemand)) (h : Near P i B ε s t done c) :
    Near P i B ε s' t' (.eauxResToDemand :: done) (update R .eauxResToDemand a c) ∧ AmtNear B s' a := by
  obtain ⟨e1, e2, e3, e4, e5, e6, e7, e8, e9, e10, e11, hc, hdu, hdu2, hB, hpk, hsu, hsu2, hcp, hcp2, hdf, hdf0, hhd⟩ :=
    z.facts H Z
  have hm : ∀ {q : Process}, q ∉ Process.eauxResToDemand :: done → q ∉ done := fun h h' => h (List.mem_cons_of_mem _ h')
  have hss : s ≤ s' := by linarith
  have htt : t ≤ t' := by linarith
  simp only [amount, Except.ok.injEq] at ha
  simp only [weight] at e11
  have g := h.grow (p := .eauxResToDemand) hss htt (by decide)
  have r0 := h.r0
  have r1 := h.r1
  have k0 := h.h0
  have k1 := h.h1
  have hau : -s ≤ c.auxLeft ∧ c.auxLeft ≤ B + s := by
    rcases h.a1 with h | h
    · exact h
    · exact absurd (h.cons_cons _) h1
  obtain ⟨x, hx, hy⟩ : ∃ x, x = eauxResToDemand P.aux c.auxLeft c.resLeft c.heatUnmet ∧ a = ⟨x, x⟩ :=
    ⟨_, rfl, ha.symm⟩
  subst hy
  have b : -(s + t) ≤ x ∧ x ≤ c.heatUnmet ∧ x ≤ c.resLeft + t ∧ x ≤ c.auxLeft + s := by
    rw [hx]; unfold eauxResToDemand; split_ifs
    · refine ⟨le_min (le_min ?_ ?_) ?_, min_le_right _ _, ?_, ?_⟩
      · linarith [hau.1]
      · linarith
      · linarith
      · exact ((min_le_left _ _).trans (min_le_right _ _)).trans (by linarith)
      · exact ((min_le_left _ _).trans (min_le_left _ _)).trans (by linarith)
    · exact ⟨by linarith, k0, by linarith, by linarith [hau.1]⟩
  obtain ⟨b1, b2, b3, b4⟩ := b
  obtain ⟨au0, au1⟩ := hau
  have f1 := F.near (x := c.heatUnmet - x) (by linarith) (by linarith)
  have f2 := F.near (x := c.resLeft - x) (by linarith) (by linarith)
  have f3 := F.near (x := c.auxLeft - x) (by linarith) (by linarith)
  have f4 := F.nonneg (x := c.heatUnmet - x) (by linarith)
  refine ⟨?_, ⟨by simp only; linarith, by simp only; linarith, by simp only; linarith, by simp only; linarith⟩⟩
  constructor
  case h0 => exact f4
  case h1 => show R.rnd (c.heatUnmet - x) ≤ _; linarith
  case hmet =>
    intro hb
    have := h.hmet (by simpa using hb)
    show R.rnd (c.heatUnmet - x) ≤ _
    linarith
  case r0 => show _ ≤ R.rnd (c.resLeft - x); linarith
  case r1 => show R.rnd (c.resLeft - x) ≤ _; linarith
  case rmet =>
    intro hb
    have := h.rmet (by simpa using hb)
    show R.rnd (c.resLeft - x) ≤ _
    linarith
  case a0 =>
    intro hb
    have := h.a0 (hm hb)
    show R.rnd (c.heatUnmet - x) ≤ R.rnd (c.auxLeft - x) + _
    linarith
  case a1 =>
    left
    constructor
    · show _ ≤ R.rnd (c.auxLeft - x); linarith
    · show R.rnd (c.auxLeft - x) ≤ _; linarith
  all_goals unchanged g

theorem near_hpImportToDemand {P : Plant N} {i : StepIn N} (F : Fl R B ε) (H : StepOk P i) (Z : Sized P i B)
    {done : List Process} {c : Checks} {a : Amt} (ha : amount R P i c .hpImportToDemand = .ok a)
    (hn : Process.hpImportToDemand ∉ done) (h1 : Safe1 (.hpImportToDemand :: done)) (h2 : Safe2 (.hpImportToDemand :: done))
    (h5 : Safe5 (.hpImportToDemand :: done)) {E s t s' t' : ℚ}
    (z : Sizes i.perf.cop B ε E s t s' t' (weight .hpImportToDemand)) (h : Near P i B ε s t done c) :
    Near P i B ε s' t' (.hpImportToDemand :: done) (update R .hpImportToDemand a c) ∧ AmtNear B s' a := by
  obtain ⟨e1, e2, e3, e4, e5, e6, e7, e8, e9, e10, e11, hc, hdu, hdu2, hB, hpk, hsu, hsu2, hcp, hcp2, hdf, hdf0, hhd⟩ :=
    z.facts H Z
  have hm : ∀ {q : Process}, q ∉ Process.hpImportToDemand :: done → q ∉ done := fun h h' => h (List.mem_cons_of_mem _ h')
  have hss : s ≤ s' := by linarith
  have htt : t ≤ t' := by linarith
  simp only [amount, Except.ok.injEq] at ha
  simp only [weight] at e11
  have g := h.grow (p := .hpImportToDemand) hss htt (by decide)
  have hu1 := h.u1 (h2.hp (by simp))
  have hu0 := h.u0
  have k0 := h.h0
  have k1 := h.h1
  have sp := F.near (x := i.perf.duty - c.hpUsage) (by linarith) (by linarith)
  obtain ⟨y, x⟩ := a
  injection ha with hy hx
  have b : -(45 * ε) ≤ y ∧ y ≤ c.heatUnmet ∧ y ≤ i.perf.duty - c.hpUsage + t + 3 * ε := by
    rw [← hy]; split_ifs
    · exact ⟨by linarith, k0, by linarith⟩
    · refine ⟨le_min (by linarith) ?_, min_le_left _ _, (min_le_right _ _).trans ?_⟩
      · show _ ≤ R.rnd (i.perf.duty - c.hpUsage); linarith
      · show R.rnd (i.perf.duty - c.hpUsage) ≤ _; linarith
  obtain ⟨b1, b2, b3⟩ := b
  have hx' : x = elecUsage R P.hp y i.perf := by rw [← hx, ← hy]
  have b4 := elecUsage_low F (hp := P.hp) hc hdu (σ := 45 * ε) (by linarith) (by linarith) b1
  have b5 := elecUsage_top F (hp := P.hp) hc b2 k0 (by linarith)
  rw [← hx'] at b4 b5
  have f1 := F.near (x := c.heatUnmet - y) (by linarith) (by linarith)
  have f3 := F.near (x := c.hpUsage + y) (by linarith) (by linarith)
  have f4 := F.nonneg (x := c.heatUnmet - y) (by linarith)
  refine ⟨?_, ⟨by simp only; linarith, by simp only; linarith, by simp only; linarith, by simp only; linarith⟩⟩
  constructor
  case h0 => exact f4
  case h1 => show R.rnd (c.heatUnmet - y) ≤ _; linarith
  case hmet =>
    intro hb
    have := h.hmet (by simpa using hb)
    show R.rnd (c.heatUnmet - y) ≤ _
    linarith
  case u0 => show _ ≤ R.rnd (c.hpUsage + y); linarith
  case u1 => intro _; show R.rnd (c.hpUsage + y) ≤ _; linarith
  case a0 =>
    intro hb
    have := h.a0 (hm hb)
    show R.rnd (c.heatUnmet - y) ≤ c.auxLeft + _
    linarith
  all_goals unchanged g

theorem near_tsToDemand {P : Plant N} {i : StepIn N} (F : Fl R B ε) (H : StepOk P i) (Z : Sized P i B)
    {done : List Process} {c : Checks} {a : Amt} (ha : amount R P i c .tsToDemand = .ok a)
    (hn : Process.tsToDemand ∉ done) (h1 : Safe1 (.tsToDemand :: done)) (h2 : Safe2 (.tsToDemand :: done))
    (h5 : Safe5 (.tsToDemand :: done)) {E s t s' t' : ℚ}
    (z : Sizes i.perf.cop B ε E s t s' t' (weight .tsToDemand)) (h : Near P i B ε s t done c) :
    Near P i B ε s' t' (.tsToDemand :: done) (update R .tsToDemand a c) ∧ AmtNear B s' a := by
  obtain ⟨e1, e2, e3, e4, e5, e6, e7, e8, e9, e10, e11, hc, hdu, hdu2, hB, hpk, hsu, hsu2, hcp, hcp2, hdf, hdf0, hhd⟩ :=
    z.facts H Z
  have hm : ∀ {q : Process}, q ∉ Process.tsToDemand :: done → q ∉ done := fun h h' => h (List.mem_cons_of_mem _ h')
  have hss : s ≤ s' := by linarith
  have htt : t ≤ t' := by linarith
  simp only [amount] at ha
  simp only [weight] at e11
  have g := h.grow (p := .tsToDemand) hss htt (by decide)
  simp only [except_bind_ok, except_pure_ok] at ha
  obtain ⟨m, hmm, ha⟩ := ha
  have k0 := h.h0
  have k1 := h.h1
  have c0 := h.c0
  have c1 := h.c1
  have dz := h.dfresh hn
  have m0 := H.tank_nonneg _ _ hmm
  have mB := Z.tank _ _ hmm
  obtain ⟨x, hx, hy⟩ : ∃ x, x = tsToDemand R m c.heatUnmet c.tsDischarge c.tsCharge ∧ a = ⟨x, x⟩ :=
    ⟨_, rfl, ha.symm⟩
  subst hy
  have g1 := F.near (x := m - c.tsDischarge) (by linarith) (by linarith)
  have g2 := F.near (x := R.rnd (m - c.tsDischarge) + c.tsCharge) (by linarith) (by linarith)
  have b : -(s + 2 * ε) ≤ x ∧ x ≤ c.heatUnmet ∧ x ≤ m + c.tsCharge + 2 * ε := by
    rw [hx]
    refine ⟨le_min (by linarith) ?_, min_le_left _ _, (min_le_right _ _).trans ?_⟩
    · show _ ≤ R.rnd (R.rnd (m - c.tsDischarge) + c.tsCharge); linarith
    · show R.rnd (R.rnd (m - c.tsDischarge) + c.tsCharge) ≤ _; linarith
  obtain ⟨b1, b2, b3⟩ := b
  have f1 := F.near (x := c.heatUnmet - x) (by linarith) (by linarith)
  have f3 := F.near (x := c.tsDischarge + x) (by linarith) (by linarith)
  have f4 := F.nonneg (x := c.heatUnmet - x) (by linarith)
  refine ⟨?_, ⟨by simp only; linarith, by simp only; linarith, by simp only; linarith, by simp only; linarith⟩⟩
  constructor
  case h0 => exact f4
  case h1 => show R.rnd (c.heatUnmet - x) ≤ _; linarith
  case hmet =>
    intro hb
    have := h.hmet (by simpa using hb)
    show R.rnd (c.heatUnmet - x) ≤ _
    linarith
  case d0 => show _ ≤ R.rnd (c.tsDischarge + x); linarith
  case d1 => show R.rnd (c.tsDischarge + x) ≤ _; linarith
  case dfresh => intro hb; exact absurd List.mem_cons_self hb
  case room =>
    intro m' hm' hb
    have := h.room m' hm' (hm hb)
    show c.tsCharge ≤ m' + R.rnd (c.tsDischarge + x) + _
    linarith
  case avail =>
    intro m' hm'
    rw [hm'] at hmm
    injection hmm with hmm
    show R.rnd (c.tsDischarge + x) ≤ m' + c.tsCharge + _
    linarith
  case a0 =>
    intro hb
    have := h.a0 (hm hb)
    show R.rnd (c.heatUnmet - x) ≤ c.auxLeft + _
    linarith
  all_goals unchanged g

theorem near_esToHpToDemand {P : Plant N} {i : StepIn N} (F : Fl R B ε) (H : StepOk P i) (Z : Sized P i B)
    {done : List Process} {c : Checks} {a : Amt} (ha : amount R P i c .esToHpToDemand = .ok a)
    (hn : Process.esToHpToDemand ∉ done) (h1 : Safe1 (.esToHpToDemand :: done)) (h2 : Safe2 (.esToHpToDemand :: done))
    (h5 : Safe5 (.esToHpToDemand :: done)) {E s t s' t' : ℚ}
    (z : Sizes i.perf.cop B ε E s t s' t' (weight .esToHpToDemand)) (h : Near P i B ε s t done c) :
    Near P i B ε s' t' (.esToHpToDemand :: done) (update R .esToHpToDemand a c) ∧ AmtNear B s' a := by
  obtain ⟨e1, e2, e3, e4, e5, e6, e7, e8, e9, e10, e11, hc, hdu, hdu2, hB, hpk, hsu, hsu2, hcp, hcp2, hdf, hdf0, hhd⟩ :=
    z.facts H Z
  have hm : ∀ {q : Process}, q ∉ Process.esToHpToDemand :: done → q ∉ done := fun h h' => h (List.mem_cons_of_mem _ h')
  have hss : s ≤ s' := by linarith
  have htt : t ≤ t' := by linarith
  simp only [amount, Except.ok.injEq] at ha
  simp only [weight] at e11
  have g := h.grow (p := .esToHpToDemand) hss htt (by decide)
  have hni := h5.es (by simp)
  obtain ⟨y, x⟩ := a
  injection ha with hy hx
  have hu1 := h.u1 (h2.hp (by simp))
  have hu0 := h.u0
  have r0 := h.s0 hni
  have r1 := h.s1 hni
  have k0 := h.h0
  have k1 := h.h1
  obtain ⟨b1, b2, b3, b4, b5⟩ :=
    pump_near F H Z z Z.battery hcp r0 r1 k0 hu0 hu1 (e := x) hy.symm (by rw [← hx, hy])
  have b6 : max c.soc 0 ≤ c.soc + t := max_le (by linarith) (by linarith)
  have f1 := F.near (x := c.heatUnmet - y) (by linarith) (by linarith)
  have f2 := F.near (x := c.soc + -x) (by linarith) (by linarith)
  have f4 := F.nonneg (x := c.heatUnmet - y) (by linarith)
  refine ⟨?_, ⟨by simp only; linarith, by simp only; linarith, by simp only; linarith, by simp only; linarith⟩⟩
  constructor
  case h0 => exact f4
  case h1 => show R.rnd (c.heatUnmet - y) ≤ _; linarith
  case hmet =>
    intro hb
    have := h.hmet (by simpa using hb)
    show R.rnd (c.heatUnmet - y) ≤ _
    linarith
  case s0 => intro _; show _ ≤ R.rnd (c.soc + -x); linarith
  case s1 => intro _; show R.rnd (c.soc + -x) ≤ _; linarith
  case a0 =>
    intro hb
    have := h.a0 (hm hb)
    show R.rnd (c.heatUnmet - y) ≤ c.auxLeft + _
    linarith
  all_goals unchanged g

theorem near_auxToDemand {P : Plant N} {i : StepIn N} (F : Fl R B ε) (H : StepOk P i) (Z : Sized P i B)
    {done : List Process} {c : Checks} {a : Amt} (ha : amount R P i c .auxToDemand = .ok a)
    (hn : Process.auxToDemand ∉ done) (h1 : Safe1 (.auxToDemand :: done)) (h2 : Safe2 (.auxToDemand :: done))
    (h5 : Safe5 (.auxToDemand :: done)) {E s t s' t' : ℚ}
    (z : Sizes i.perf.cop B ε E s t s' t' (weight .auxToDemand)) (h : Near P i B ε s t done c) :
    Near P i B ε s' t' (.auxToDemand :: done) (update R .auxToDemand a c) ∧ AmtNear B s' a := by
  obtain ⟨e1, e2, e3, e4, e5, e6, e7, e8, e9, e10, e11, hc, hdu, hdu2, hB, hpk, hsu, hsu2, hcp, hcp2, hdf, hdf0, hhd⟩ :=
    z.facts H Z
  have hm : ∀ {q : Process}, q ∉ Process.auxToDemand :: done → q ∉ done := fun h h' => h (List.mem_cons_of_mem _ h')
  have hss : s ≤ s' := by linarith
  have htt : t ≤ t' := by linarith
  simp only [amount, Except.ok.injEq] at ha
  simp only [weight] at e11
  subst ha
  have k0 := h.h0
  have k1 := h.h1
  have hz : R.rnd (c.heatUnmet - c.heatUnmet) = 0 := by rw [sub_self]; exact F.zero
  have au : (-s' ≤ R.rnd (c.auxLeft - c.heatUnmet) ∧ R.rnd (c.auxLeft - c.heatUnmet) ≤ B + s') ∨
      [Process.auxToDemand, .eauxResToTs].Sublist (Process.auxToDemand :: done) := by
    by_cases h11 : Process.eauxResToTs ∈ done
    · right; exact (List.singleton_sublist.mpr h11).cons_cons _
    · rcases h.a1 with h3 | h3
      · have := h.a0 h11
        have f := F.near (x := c.auxLeft - c.heatUnmet) (by linarith [h3.2]) (by linarith [h3.2])
        left; constructor <;> linarith [h3.2]
      · exact absurd (h3.subset (by simp)) h11
  obtain ⟨e0, e1, emet0, emet, h0, h1, hmet, r0, r1, rmet, s0, s1, u0, u1, d0, d1, df, c0, c1, room, avail, a0,
    a1⟩ := h
  refine ⟨⟨e0, (by linarith : c.elecUnmet ≤ _), fun hb hb2 => emet0 (by simpa using hb) (hm hb2),
    fun hb => emet (by simpa using hb), hz.ge, hz.le.trans (by linarith), fun _ => hz.le.trans (by linarith),
    (by linarith : _ ≤ c.resLeft), (by linarith : c.resLeft ≤ _),
    fun hb => (by linarith [rmet (by simpa using hb)] : c.resLeft ≤ _),
    fun hb => (by linarith [s0 (hm hb)] : _ ≤ c.soc), fun hb => (by linarith [s1 (hm hb)] : c.soc ≤ _),
    (by linarith : _ ≤ c.hpUsage), fun hb => (by linarith [u1 (hm hb)] : c.hpUsage ≤ _),
    (by linarith : _ ≤ c.tsDischarge), (by linarith : c.tsDischarge ≤ _), fun hb => df (hm hb),
    (by linarith : _ ≤ c.tsCharge), (by linarith : c.tsCharge ≤ _),
    fun m hmm hb => (by linarith [room m hmm (hm hb)] : c.tsCharge ≤ m + c.tsDischarge + s'),
    fun m hmm => (by linarith [avail m hmm] : c.tsDischarge ≤ m + c.tsCharge + s'), fun hb => ?_, au⟩, ?_⟩
  · rcases au with h3 | h3
    · show R.rnd (c.heatUnmet - c.heatUnmet) ≤ R.rnd (c.auxLeft - c.heatUnmet) + s'
      linarith [h3.1]
    · exact absurd (h3.subset (by simp)) hb
  · constructor <;> simp only [Amt.scalar] <;> linarith

theorem near_hpResToTs {P : Plant N} {i : StepIn N} (F : Fl R B ε) (H : StepOk P i) (Z : Sized P i B)
    {done : List Process} {c : Checks} {a : Amt} (ha : amount R P i c .hpResToTs = .ok a)
    (hn : Process.hpResToTs ∉ done) (h1 : Safe1 (.hpResToTs :: done)) (h2 : Safe2 (.hpResToTs :: done))
    (h5 : Safe5 (.hpResToTs :: done)) {E s t s' t' : ℚ}
    (z : Sizes i.perf.cop B ε E s t s' t' (weight .hpResToTs)) (h : Near P i B ε s t done c) :
    Near P i B ε s' t' (.hpResToTs :: done) (update R .hpResToTs a c) ∧ AmtNear B s' a := by
  obtain ⟨e1, e2, e3, e4, e5, e6, e7, e8, e9, e10, e11, hc, hdu, hdu2, hB, hpk, hsu, hsu2, hcp, hcp2, hdf, hdf0, hhd⟩ :=
    z.facts H Z
  have hm : ∀ {q : Process}, q ∉ Process.hpResToTs :: done → q ∉ done := fun h h' => h (List.mem_cons_of_mem _ h')
  have hss : s ≤ s' := by linarith
  have htt : t ≤ t' := by linarith
  simp only [amount] at ha
  simp only [weight] at e11
  have g := h.grow (p := .hpResToTs) hss htt (by decide)
  simp only [except_bind_ok, except_pure_ok] at ha
  obtain ⟨m, hmm, ha⟩ := ha
  have hni := h2.hp (by simp)
  have hu1 := h.u1 hni
  have hu0 := h.u0
  have r0 := h.r0
  have r1 := h.r1
  have c0 := h.c0
  have c1 := h.c1
  have d0 := h.d0
  have d1 := h.d1
  have rm := h.room m hmm hni
  have m0 := H.tank_nonneg _ _ hmm
  have mB := Z.tank _ _ hmm
  have p0 : -(t * i.perf.cop) ≤ c.resLeft * i.perf.cop := by nlinarith
  have p1 : c.resLeft * i.perf.cop ≤ B + s * i.perf.cop := by nlinarith [Z.surplus]
  have q := F.near (x := c.resLeft * i.perf.cop) (by linarith) (by linarith)
  have sp := F.near (x := i.perf.duty - c.hpUsage) (by linarith) (by linarith)
  have g1 := F.near (x := m + c.tsDischarge) (by linarith) (by linarith)
  have g2 := F.near (x := R.rnd (m + c.tsDischarge) - c.tsCharge) (by linarith) (by linarith)
  obtain ⟨y, x⟩ := a
  injection ha with hy hx
  have b : -(s + 46 / 64 * E) ≤ y ∧ y ≤ i.perf.duty - c.hpUsage + ε ∧ y ≤ m + c.tsDischarge - c.tsCharge + 2 * ε ∧
      y ≤ R.rnd (c.resLeft * i.perf.cop) := by
    rw [← hy]
    refine ⟨le_min (le_min ?_ ?_) ?_, ?_, ?_, (min_le_left _ _).trans (min_le_right _ _)⟩
    · show _ ≤ R.rnd (i.perf.duty - c.hpUsage); linarith
    · show _ ≤ R.rnd (c.resLeft * i.perf.cop); linarith
    · show _ ≤ R.rnd (R.rnd (m + c.tsDischarge) - c.tsCharge); linarith
    · refine ((min_le_left _ _).trans (min_le_left _ _)).trans ?_
      show R.rnd (i.perf.duty - c.hpUsage) ≤ _; linarith
    · refine (min_le_right _ _).trans ?_
      show R.rnd (R.rnd (m + c.tsDischarge) - c.tsCharge) ≤ _; linarith
  obtain ⟨b1, b2, b3, b4⟩ := b
  have hx' : x = elecUsage R P.hp y i.perf := by rw [← hx, ← hy]
  have b5 := elecUsage_low F (hp := P.hp) hc hdu (σ := s + 46 / 64 * E) (by linarith) (by linarith) b1
  have b6 := elecUsage_high F (hp := P.hp) (p := i.perf) (x := c.resLeft) hc (by linarith) (by linarith)
    (fun _ => b4)
  rw [← hx'] at b5 b6
  have b7 : max c.resLeft 0 ≤ c.resLeft + t := max_le (by linarith) (by linarith)
  have f1 := F.near (x := c.tsCharge + y) (by linarith) (by linarith)
  have f2 := F.near (x := c.resLeft - x) (by linarith) (by linarith)
  have f3 := F.near (x := c.hpUsage + y) (by linarith) (by linarith)
  refine ⟨?_, ⟨by simp only; linarith, by simp only; linarith, by simp only; linarith, by simp only; linarith⟩⟩
  constructor
  case r0 => show _ ≤ R.rnd (c.resLeft - x); linarith
  case r1 => show R.rnd (c.resLeft - x) ≤ _; linarith
  case rmet =>
    intro hb
    have := h.rmet (by simpa using hb)
    show R.rnd (c.resLeft - x) ≤ _
    linarith
  case u0 => show _ ≤ R.rnd (c.hpUsage + y); linarith
  case u1 => intro _; show R.rnd (c.hpUsage + y) ≤ _; linarith
  case c0 => show _ ≤ R.rnd (c.tsCharge + y); linarith
  case c1 => show R.rnd (c.tsCharge + y) ≤ _; linarith
  case room =>
    intro m' hm' hb
    rw [hm'] at hmm
    injection hmm with hmm
    show R.rnd (c.tsCharge + y) ≤ m' + c.tsDischarge + _
    linarith
  case avail =>
    intro m' hm'
    have := h.avail m' hm'
    show c.tsDischarge ≤ m' + R.rnd (c.tsCharge + y) + _
    linarith
  all_goals unchanged g

theorem near_eauxResToTs {P : Plant N} {i : StepIn N} (F : Fl R B ε) (H : StepOk P i) (Z : Sized P i B)
    {done : List Process} {c : Checks} {a : Amt} (ha : amount R P i c .eauxResToTs = .ok a)
    (hn : Process.eauxResToTs ∉ done) (h1 : Safe1 (.eauxResToTs :: done)) (h2 : Safe2 (.eauxResToTs :: done))
    (h5 : Safe5 (.eauxResToTs :: done)) {E s t s' t' : ℚ}
    (z : Sizes i.perf.cop B ε E s t s' t' (weight .eauxResToTs)) (h : Near P i B ε s t done c) :
    Near P i B ε s' t' (.eauxResToTs :: done) (update R .eauxResToTs a c) ∧ AmtNear B s' a := by
  obtain ⟨e1, e2, e3, e4, e5, e6, e7, e8, e9, e10, e11, hc, hdu, hdu2, hB, hpk, hsu, hsu2, hcp, hcp2, hdf, hdf0, hhd⟩ :=
    z.facts H Z
  have hm : ∀ {q : Process}, q ∉ Process.eauxResToTs :: done → q ∉ done := fun h h' => h (List.mem_cons_of_mem _ h')
  have hss : s ≤ s' := by linarith
  have htt : t ≤ t' := by linarith
  simp only [amount] at ha
  simp only [weight] at e11
  have g := h.grow (p := .eauxResToTs) hss htt (by decide)
  have hni := h2.hp (by simp)
  have r0 := h.r0
  have r1 := h.r1
  have c0 := h.c0
  have c1 := h.c1
  have d0 := h.d0
  have d1 := h.d1
  have k0 := h.h0
  have au : -s ≤ c.auxLeft ∧ c.auxLeft ≤ B + s := by
    rcases h.a1 with h3 | h3
    · exact h3
    · exact absurd (h3.subset (by simp)) hn
  obtain ⟨au0, au1⟩ := au
  have key : ∃ x, a = ⟨x, x⟩ ∧ -(s + 2 * ε + t) ≤ x ∧ x ≤ c.auxLeft + s ∧ x ≤ c.resLeft + t ∧
      c.tsCharge + x ≤ 3 * B + s ∧ (∀ m, P.tank.maxInOut i.hour .charging i.nodes = .ok m →
        c.tsCharge + x ≤ m + c.tsDischarge + s + 2 * ε) := by
    split_ifs at ha
    · simp only [except_bind_ok, except_pure_ok] at ha
      obtain ⟨m, hmm, ha⟩ := ha
      have rm := h.room m hmm hni
      have m0 := H.tank_nonneg _ _ hmm
      have mB := Z.tank _ _ hmm
      have g1 := F.near (x := m + c.tsDischarge) (by linarith) (by linarith)
      have g2 := F.near (x := R.rnd (m + c.tsDischarge) - c.tsCharge) (by linarith) (by linarith)
      have hle : min (min c.auxLeft c.resLeft) (chargeLeft R m c.tsDischarge c.tsCharge) ≤
          R.rnd (R.rnd (m + c.tsDischarge) - c.tsCharge) := min_le_right _ _
      refine ⟨_, ha.symm, le_min (le_min (by linarith) (by linarith)) ?_,
        ((min_le_left _ _).trans (min_le_left _ _)).trans (by linarith),
        ((min_le_left _ _).trans (min_le_right _ _)).trans (by linarith), by linarith, fun m' hm' => ?_⟩
      · show _ ≤ R.rnd (R.rnd (m + c.tsDischarge) - c.tsCharge); linarith
      · rw [hm'] at hmm
        injection hmm with hmm
        linarith
    · cases ha
      refine ⟨0, rfl, by linarith, by linarith, by linarith, by linarith,
        fun m hmm => by linarith [h.room m hmm hni]⟩
  obtain ⟨x, hxa, b1, b2, b3, b4, b5⟩ := key
  subst hxa
  have f1 := F.near (x := c.tsCharge + x) (by linarith) (by linarith)
  have f2 := F.near (x := c.resLeft - x) (by linarith) (by linarith)
  have f3 := F.near (x := c.auxLeft - x) (by linarith) (by linarith)
  refine ⟨?_, ⟨by simp only; linarith, by simp only; linarith, by simp only; linarith, by simp only; linarith⟩⟩
  constructor
  case r0 => show _ ≤ R.rnd (c.resLeft - x); linarith
  case r1 => show R.rnd (c.resLeft - x) ≤ _; linarith
  case rmet =>
    intro hb
    have := h.rmet (by simpa using hb)
    show R.rnd (c.resLeft - x) ≤ _
    linarith
  case c0 => show _ ≤ R.rnd (c.tsCharge + x); linarith
  case c1 => show R.rnd (c.tsCharge + x) ≤ _; linarith
  case room =>
    intro m' hm' hb
    have := b5 m' hm'
    show R.rnd (c.tsCharge + x) ≤ m' + c.tsDischarge + _
    linarith
  case avail =>
    intro m' hm'
    have := h.avail m' hm'
    show c.tsDischarge ≤ m' + R.rnd (c.tsCharge + x) + _
    linarith
  case a0 => intro hb; exact absurd List.mem_cons_self hb
  case a1 =>
    left
    constructor
    · show _ ≤ R.rnd (c.auxLeft - x); linarith
    · show R.rnd (c.auxLeft - x) ≤ _; linarith
  all_goals unchanged g

theorem near_hpImportToTs {P : Plant N} {i : StepIn N} (F : Fl R B ε) (H : StepOk P i) (Z : Sized P i B)
    {done : List Process} {c : Checks} {a : Amt} (ha : amount R P i c .hpImportToTs = .ok a)
    (hn : Process.hpImportToTs ∉ done) (h1 : Safe1 (.hpImportToTs :: done)) (h2 : Safe2 (.hpImportToTs :: done))
    (h5 : Safe5 (.hpImportToTs :: done)) {E s t s' t' : ℚ}
    (z : Sizes i.perf.cop B ε E s t s' t' (weight .hpImportToTs)) (h : Near P i B ε s t done c) :
    Near P i B ε s' t' (.hpImportToTs :: done) (update R .hpImportToTs a c) ∧ AmtNear B s' a := by
  obtain ⟨e1, e2, e3, e4, e5, e6, e7, e8, e9, e10, e11, hc, hdu, hdu2, hB, hpk, hsu, hsu2, hcp, hcp2, hdf, hdf0, hhd⟩ :=
    z.facts H Z
  have hm : ∀ {q : Process}, q ∉ Process.hpImportToTs :: done → q ∉ done := fun h h' => h (List.mem_cons_of_mem _ h')
  have hss : s ≤ s' := by linarith
  have htt : t ≤ t' := by linarith
  simp only [amount] at ha
  simp only [weight] at e11
  have g := h.grow (p := .hpImportToTs) hss htt (by decide)
  simp only [except_bind_ok, except_pure_ok] at ha
  obtain ⟨m, hmm, ha⟩ := ha
  have hu1 := h.u1 hn
  have hu0 := h.u0
  have c0 := h.c0
  have c1 := h.c1
  have d0 := h.d0
  have d1 := h.d1
  have rm := h.room m hmm hn
  have m0 := H.tank_nonneg _ _ hmm
  have mB := Z.tank _ _ hmm
  have sp := F.near (x := i.perf.duty - c.hpUsage) (by linarith) (by linarith)
  have g1 := F.near (x := m + c.tsDischarge) (by linarith) (by linarith)
  have g2 := F.near (x := R.rnd (m + c.tsDischarge) - c.tsCharge) (by linarith) (by linarith)
  obtain ⟨y, x⟩ := a
  injection ha with hy hx
  have hts := z.hts
  have b : -(2 * s + 7 * ε) ≤ y ∧ y ≤ B + s + 2 * ε + 1 / 200 ∧
      c.tsCharge + y ≤ 3 * B + s := by
    rw [← hy]; split_ifs
    · exact ⟨by linarith, by linarith, by linarith⟩
    · set w := min (R.sub i.perf.duty c.hpUsage) (chargeLeft R m c.tsDischarge c.tsCharge) with hw
      have w1 : w ≤ R.rnd (i.perf.duty - c.hpUsage) := min_le_left _ _
      have w2 : w ≤ R.rnd (R.rnd (m + c.tsDischarge) - c.tsCharge) := min_le_right _ _
      have w0 : -(s + 3 * ε) ≤ w := by
        refine le_min ?_ ?_
        · show _ ≤ R.rnd (i.perf.duty - c.hpUsage); linarith
        · show _ ≤ R.rnd (R.rnd (m + c.tsDischarge) - c.tsCharge); linarith
      have v0 := pyRound_ge_double 2 (by linarith) w0
      have v1 := (pyRound_bounds w 2).1
      norm_num at v1
      have f := F.near (x := pyRound w 2) (by linarith) (by linarith)
      have hr : R.round w 2 = R.rnd (pyRound w 2) := rfl
      rw [hr]
      exact ⟨by linarith, by linarith, by linarith⟩
  obtain ⟨b1, b2, b3⟩ := b
  have hx' : x = elecUsage R P.hp y i.perf := by rw [← hx, ← hy]
  have b5 := elecUsage_low F (hp := P.hp) hc hdu (σ := 2 * s + 7 * ε) (by linarith) (by linarith) b1
  have b6 := elecUsage_top F (hp := P.hp) hc b2 (by linarith) (by linarith)
  rw [← hx'] at b5 b6
  have f1 := F.near (x := c.tsCharge + y) (by linarith) (by linarith)
  have f3 := F.near (x := c.hpUsage + y) (by linarith) (by linarith)
  refine ⟨?_, ⟨by simp only; linarith, by simp only; linarith, by simp only; linarith, by simp only; linarith⟩⟩
  constructor
  case u0 => show _ ≤ R.rnd (c.hpUsage + y); linarith
  case u1 => intro hb; exact absurd List.mem_cons_self hb
  case c0 => show _ ≤ R.rnd (c.tsCharge + y); linarith
  case c1 => show R.rnd (c.tsCharge + y) ≤ _; linarith
  case room => intro m' hm' hb; exact absurd List.mem_cons_self hb
  case avail =>
    intro m' hm'
    have := h.avail m' hm'
    show c.tsDischarge ≤ m' + R.rnd (c.tsCharge + y) + _
    linarith
  all_goals unchanged g

theorem near_resToEs {P : Plant N} {i : StepIn N} (F : Fl R B ε) (H : StepOk P i) (Z : Sized P i B)
    {done : List Process} {c : Checks} {a : Amt} (ha : amount R P i c .resToEs = .ok a)
    (hn : Process.resToEs ∉ done) (h1 : Safe1 (.resToEs :: done)) (h2 : Safe2 (.resToEs :: done))
    (h5 : Safe5 (.resToEs :: done)) {E s t s' t' : ℚ}
    (z : Sizes i.perf.cop B ε E s t s' t' (weight .resToEs)) (h : Near P i B ε s t done c) :
    Near P i B ε s' t' (.resToEs :: done) (update R .resToEs a c) ∧ AmtNear B s' a := by
  obtain ⟨e1, e2, e3, e4, e5, e6, e7, e8, e9, e10, e11, hc, hdu, hdu2, hB, hpk, hsu, hsu2, hcp, hcp2, hdf, hdf0, hhd⟩ :=
    z.facts H Z
  have hm : ∀ {q : Process}, q ∉ Process.resToEs :: done → q ∉ done := fun h h' => h (List.mem_cons_of_mem _ h')
  have hss : s ≤ s' := by linarith
  have htt : t ≤ t' := by linarith
  simp only [amount, Except.ok.injEq] at ha
  simp only [weight] at e11
  have g := h.grow (p := .resToEs) hss htt (by decide)
  have hni := h2.es
  have q0 := h.s0 hni
  have q1 := h.s1 hni
  have r0 := h.r0
  have r1 := h.r1
  have hcm := H.es.chargeMax_nonneg
  have g1 := F.near (x := P.es.capacity - c.soc) (by linarith) (by linarith)
  obtain ⟨x, hx, hy⟩ : ∃ x, x = maxCharging R P.es c.resLeft c.soc ∧ a = ⟨x, x⟩ := ⟨_, rfl, ha.symm⟩
  subst hy
  have b : -(s + ε) ≤ x ∧ x ≤ c.resLeft + t ∧ x ≤ P.es.capacity - c.soc + ε ∧ -t - ε ≤ c.soc + x := by
    have hw : x = min (if c.resLeft ≥ 0 ∧ c.resLeft ≤ P.es.chargeMax then c.resLeft
        else if c.resLeft ≥ 0 ∧ c.resLeft ≥ P.es.chargeMax then P.es.chargeMax else 0)
        (R.rnd (P.es.capacity - c.soc)) := hx
    set y := (if c.resLeft ≥ 0 ∧ c.resLeft ≤ P.es.chargeMax then c.resLeft
        else if c.resLeft ≥ 0 ∧ c.resLeft ≥ P.es.chargeMax then P.es.chargeMax else 0) with hy
    have y0 : 0 ≤ y ∧ y ≤ c.resLeft + t := by
      rw [hy]
      split_ifs with h3 h4
      · exact ⟨h3.1, by linarith⟩
      · exact ⟨hcm, by linarith [h4.2]⟩
      · exact ⟨le_rfl, by linarith⟩
    have w1 : x ≤ y := by rw [hw]; exact min_le_left _ _
    have w2 : x ≤ R.rnd (P.es.capacity - c.soc) := by rw [hw]; exact min_le_right _ _
    refine ⟨?_, by linarith [y0.2], by linarith, ?_⟩
    · rw [hw]; exact le_min (by linarith [y0.1]) (by linarith)
    · rcases le_total y (R.rnd (P.es.capacity - c.soc)) with h3 | h3
      · rw [hw, min_eq_left h3]; linarith [y0.1]
      · rw [hw, min_eq_right h3]; linarith
  obtain ⟨b1, b2, b3, b4⟩ := b
  have f1 := F.near (x := c.resLeft - x) (by linarith) (by linarith)
  have f2 := F.near (x := c.soc + x) (by linarith) (by linarith)
  refine ⟨?_, ⟨by simp only; linarith, by simp only; linarith, by simp only; linarith, by simp only; linarith⟩⟩
  constructor
  case r0 => show _ ≤ R.rnd (c.resLeft - x); linarith
  case r1 => show R.rnd (c.resLeft - x) ≤ _; linarith
  case rmet =>
    intro hb
    have := h.rmet (by simpa using hb)
    show R.rnd (c.resLeft - x) ≤ _
    linarith
  case s0 => intro _; show _ ≤ R.rnd (c.soc + x); linarith
  case s1 => intro _; show R.rnd (c.soc + x) ≤ _; linarith
  all_goals unchanged g

theorem near_importToEs {P : Plant N} {i : StepIn N} (F : Fl R B ε) (H : StepOk P i) (Z : Sized P i B)
    {done : List Process} {c : Checks} {a : Amt} (ha : amount R P i c .importToEs = .ok a)
    (hn : Process.importToEs ∉ done) (h1 : Safe1 (.importToEs :: done)) (h2 : Safe2 (.importToEs :: done))
    (h5 : Safe5 (.importToEs :: done)) {E s t s' t' : ℚ}
    (z : Sizes i.perf.cop B ε E s t s' t' (weight .importToEs)) (h : Near P i B ε s t done c) :
    Near P i B ε s' t' (.importToEs :: done) (update R .importToEs a c) ∧ AmtNear B s' a := by
  obtain ⟨e1, e2, e3, e4, e5, e6, e7, e8, e9, e10, e11, hc, hdu, hdu2, hB, hpk, hsu, hsu2, hcp, hcp2, hdf, hdf0, hhd⟩ :=
    z.facts H Z
  have hm : ∀ {q : Process}, q ∉ Process.importToEs :: done → q ∉ done := fun h h' => h (List.mem_cons_of_mem _ h')
  have hss : s ≤ s' := by linarith
  have htt : t ≤ t' := by linarith
  simp only [amount, Except.ok.injEq] at ha
  simp only [weight] at e11
  have g := h.grow (p := .importToEs) hss htt (by decide)
  have q0 := h.s0 hn
  have q1 := h.s1 hn
  have hcm := H.es.chargeMax_nonneg
  have hcm2 := Z.chargeMax
  have k1 := H.es.selfDischarge_nonneg
  have k2 := H.es.selfDischarge_le_one
  have k3 := H.es.chargeEff_nonneg
  have k4 := H.es.chargeEff_le_one
  have g1 := F.near (x := P.es.capacity - c.soc) (by linarith) (by linarith)
  obtain ⟨x, hx, hy⟩ : ∃ x, x = chargeToCapacity R P.es c.soc ∧ a = ⟨x, x⟩ := ⟨_, rfl, ha.symm⟩
  subst hy
  have b : -(2 * s + t + 6 * ε) ≤ x ∧ x ≤ B := by
    set y := R.rnd (P.es.capacity - c.soc) with hy
    have hw : x = min (R.rnd (y + R.rnd (R.rnd (c.soc * P.es.selfDischarge) + R.rnd (y * P.es.chargeEff))))
        P.es.chargeMax := hx
    have l1 : -t ≤ c.soc * P.es.selfDischarge := by nlinarith
    have l2 : c.soc * P.es.selfDischarge ≤ 2 * B := by nlinarith
    have l3 : -(s + ε) ≤ y * P.es.chargeEff := by nlinarith
    have l4 : y * P.es.chargeEff ≤ 2 * B := by nlinarith
    have f1 := F.near (x := c.soc * P.es.selfDischarge) (by linarith) (by linarith)
    have f2 := F.near (x := y * P.es.chargeEff) (by linarith) (by linarith)
    have f3 := F.near (x := R.rnd (c.soc * P.es.selfDischarge) + R.rnd (y * P.es.chargeEff)) (by linarith) (by linarith)
    have f4 := F.near (x := y + R.rnd (R.rnd (c.soc * P.es.selfDischarge) + R.rnd (y * P.es.chargeEff)))
      (by linarith) (by linarith)
    rw [hw]
    exact ⟨le_min (by linarith) (by linarith), (min_le_right _ _).trans hcm2⟩
  obtain ⟨b1, b2⟩ := b
  refine ⟨?_, ⟨by simp only; linarith, by simp only; linarith, by simp only; linarith, by simp only; linarith⟩⟩
  constructor
  case s0 => intro hb; exact absurd List.mem_cons_self hb
  case s1 => intro hb; exact absurd List.mem_cons_self hb
  all_goals unchanged g

theorem near_resToExport {P : Plant N} {i : StepIn N} (F : Fl R B ε) (H : StepOk P i) (Z : Sized P i B)
    {done : List Process} {c : Checks} {a : Amt} (ha : amount R P i c .resToExport = .ok a)
    (hn : Process.resToExport ∉ done) (h1 : Safe1 (.resToExport :: done)) (h2 : Safe2 (.resToExport :: done))
    (h5 : Safe5 (.resToExport :: done)) {E s t s' t' : ℚ}
    (z : Sizes i.perf.cop B ε E s t s' t' (weight .resToExport)) (h : Near P i B ε s t done c) :
    Near P i B ε s' t' (.resToExport :: done) (update R .resToExport a c) ∧ AmtNear B s' a := by
  obtain ⟨e1, e2, e3, e4, e5, e6, e7, e8, e9, e10, e11, hc, hdu, hdu2, hB, hpk, hsu, hsu2, hcp, hcp2, hdf, hdf0, hhd⟩ :=
    z.facts H Z
  have hm : ∀ {q : Process}, q ∉ Process.resToExport :: done → q ∉ done := fun h h' => h (List.mem_cons_of_mem _ h')
  have hss : s ≤ s' := by linarith
  have htt : t ≤ t' := by linarith
  simp only [amount, Except.ok.injEq] at ha
  simp only [weight] at e11
  subst ha
  have k0 := h.r0
  have k1 := h.r1
  have hz : R.rnd (c.resLeft - c.resLeft) = 0 := by rw [sub_self]; exact F.zero
  obtain ⟨e0, e1, emet0, emet, h0, h1, hmet, r0, r1, rmet, s0, s1, u0, u1, d0, d1, df, c0, c1, room, avail, a0,
    a1⟩ := h
  refine ⟨⟨e0, (by linarith : c.elecUnmet ≤ _), fun hb hb2 => emet0 (by simpa using hb) (hm hb2),
    fun hb => emet (by simpa using hb), h0, (by linarith : c.heatUnmet ≤ _),
    fun hb => (by linarith [hmet (by simpa using hb)] : c.heatUnmet ≤ _), le_trans (by linarith) hz.ge,
    hz.le.trans (by linarith), fun _ => hz.le.trans (by linarith),
    fun hb => (by linarith [s0 (hm hb)] : _ ≤ c.soc), fun hb => (by linarith [s1 (hm hb)] : c.soc ≤ _),
    (by linarith : _ ≤ c.hpUsage), fun hb => (by linarith [u1 (hm hb)] : c.hpUsage ≤ _),
    (by linarith : _ ≤ c.tsDischarge), (by linarith : c.tsDischarge ≤ _), fun hb => df (hm hb),
    (by linarith : _ ≤ c.tsCharge), (by linarith : c.tsCharge ≤ _),
    fun m hmm hb => (by linarith [room m hmm (hm hb)] : c.tsCharge ≤ m + c.tsDischarge + s'),
    fun m hmm => (by linarith [avail m hmm] : c.tsDischarge ≤ m + c.tsCharge + s'),
    fun hb => (by linarith [a0 (hm hb)] : c.heatUnmet ≤ c.auxLeft + s'),
    a1.imp (fun h => ⟨(by linarith [h.1] : _ ≤ c.auxLeft), (by linarith [h.2] : c.auxLeft ≤ _)⟩)
      (fun h => h.cons _)⟩, ?_⟩
  constructor <;> simp only [Amt.scalar] <;> linarith

theorem near_step {P : Plant N} {i : StepIn N} (F : Fl R B ε) (H : StepOk P i) (Z : Sized P i B)
    {done : List Process} {c : Checks} {p : Process} {a : Amt} (ha : amount R P i c p = .ok a) (hn : p ∉ done)
    (h1 : Safe1 (p :: done)) (h2 : Safe2 (p :: done)) (h5 : Safe5 (p :: done)) {E s t s' t' : ℚ}
    (z : Sizes i.perf.cop B ε E s t s' t' (weight p)) (h : Near P i B ε s t done c) :
    Near P i B ε s' t' (p :: done) (update R p a c) ∧ AmtNear B s' a := by
  cases p
  · exact near_resToDemand F H Z ha hn h1 h2 h5 z h
  · exact near_esToDemand F H Z ha hn h1 h2 h5 z h
  · exact near_importToDemand F H Z ha hn h1 h2 h5 z h
  · exact near_hpResToDemand F H Z ha hn h1 h2 h5 z h
  · exact near_eauxResToDemand F H Z ha hn h1 h2 h5 z h
  · exact near_tsToDemand F H Z ha hn h1 h2 h5 z h
  · exact near_esToHpToDemand F H Z ha hn h1 h2 h5 z h
  · exact near_hpImportToDemand F H Z ha hn h1 h2 h5 z h
  · exact near_auxToDemand F H Z ha hn h1 h2 h5 z h
  · exact near_hpResToTs F H Z ha hn h1 h2 h5 z h
  · exact near_eauxResToTs F H Z ha hn h1 h2 h5 z h
  · exact near_hpImportToTs F H Z ha hn h1 h2 h5 z h
  · exact near_resToEs F H Z ha hn h1 h2 h5 z h
  · exact near_importToEs F H Z ha hn h1 h2 h5 z h
  · exact near_resToExport F H Z ha hn h1 h2 h5 z h

end Rounded
end Verif
