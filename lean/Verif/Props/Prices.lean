import Verif.Spec.Compare
import Verif.Lemmas.Run
import Verif.Props.Run

/-!
# Prices move money, not energy (C104)
-/

set_option autoImplicit false

namespace Verif
open Spec FixedOrder
variable {N : Type}

theorem ok_then {α β : Type} (a : α) (k : α → Except PyErr β) : (Except.ok a >>= k) = k a := rfl

theorem withMoney_self (r : Results N) : withMoney (moneyOf r) r = r := rfl

theorem energyOf_withMoney (m : Money) (r : Results N) : energyOf (withMoney m r) = energyOf r := rfl

theorem eq_withMoney {r r' : Results N} (h : energyOf r' = energyOf r) :
    r' = withMoney (moneyOf r') r := by
  have h1 : withMoney (moneyOf r') (energyOf r') = r' := rfl
  have h2 : withMoney (moneyOf r') (energyOf r) = withMoney (moneyOf r') r := rfl
  rw [← h2, ← h, h1]

/-- The plant with other prices. -/
def priced (P : Plant N) (x c : ℚ) : Plant N :=
  { P with exportPrice := x, aux := { P.aux with cost := c } }

/-- The hour with another price. -/
def pricedIn (i : StepIn N) (p : ℚ) : StepIn N := { i with importPrice := p }

theorem amount_priced (P : Plant N) (i : StepIn N) (x c p : ℚ) (k : Checks) (q : Process) :
    amount (priced P x c) (pricedIn i p) k q = amount P i k q := by
  cases q <;> rfl

theorem record_money (m : Money) (q : Process) (a : Amt) (r : Results N) :
    record q a (withMoney m r) = withMoney m (record q a r) := by
  cases q <;> rfl

theorem runOrder_priced (P : Plant N) (i : StepIn N) (x c p : ℚ) (key : ℤ → Except PyErr Process)
    (m : Money) : ∀ (order : List ℤ) (k : Checks) (r : Results N),
    runOrder (priced P x c) (pricedIn i p) key order (k, withMoney m r)
      = (runOrder P i key order (k, r)).map (fun s => (s.1, withMoney m s.2)) := by
  intro order
  induction order with
  | nil => intro k r; rfl
  | cons n ns ih =>
    intro k r
    simp only [runOrder]
    cases key n with
    | error e => rfl
    | ok q =>
      simp only [ok_then, runProcess, amount_priced]
      cases amount P i k q with
      | error e => rfl
      | ok a =>
        simp only [ok_then, pure, Except.pure, record_money]
        exact ih _ _

theorem rule_priced (P : Plant N) (i : StepIn N) (x c p : ℚ) (m : Money) (b : Bool) (k : Checks)
    (r : Results N) : minOutputRule (priced P x c) (pricedIn i p) b k (withMoney m r)
      = (minOutputRule P i b k r).map (withMoney m) := by
  unfold minOutputRule
  dsimp only
  have e1 : (withMoney m r).hp = r.hp := rfl
  have e2 : minOut (priced P x c) (pricedIn i p) = minOut P i := rfl
  rw [e1, e2]
  by_cases h1 : r.hp.heatTotalOutput < minOut P i ∧ r.hp.heatTotalOutput > minTrigger b
  · rw [if_pos h1, if_pos h1]
    show ((P.tank.maxInOut i.hour .charging i.nodes) >>= _) = _
    cases P.tank.maxInOut i.hour .charging i.nodes with
    | error e => rfl
    | ok t =>
      simp only [ok_then]
      by_cases h2 : minOut P i - r.hp.heatTotalOutput > t + k.tsDischarge - k.tsCharge
      · rw [if_pos h2, if_pos h2]
        cases b with
        | true =>
          simp only [if_true, hpOffBelow]
          show ((P.tank.maxInOut i.hour .discharging i.nodes) >>= _) = _
          cases P.tank.maxInOut i.hour .discharging i.nodes with
          | error e => rfl
          | ok t' =>
            simp only [ok_then]
            by_cases h3 : P.tank.capacity = 0
            · rw [if_pos h3, if_pos (show (priced P x c).tank.capacity = 0 from h3)]
              rfl
            · rw [if_neg h3, if_neg (show ¬ (priced P x c).tank.capacity = 0 from h3)]
              show ((P.tank.newNodes i.hour .discharging i.nodes 0 (min t' i.heatDemand)) >>= _) = _
              cases P.tank.newNodes i.hour .discharging i.nodes 0 (min t' i.heatDemand) <;> rfl
        | false =>
          simp only [Bool.false_eq_true, if_false, hpOffAbove]
          by_cases h3 : P.tank.capacity = 0
          · rw [if_pos h3, if_pos (show (priced P x c).tank.capacity = 0 from h3)]
            rfl
          · rw [if_neg h3, if_neg (show ¬ (priced P x c).tank.capacity = 0 from h3)]
            show (((P.tank.newNodes i.hour .discharging i.nodes 0 i.heatDemand).map some) >>= _) = _
            cases P.tank.newNodes i.hour .discharging i.nodes 0 i.heatDemand <;> rfl
      · rw [if_neg h2, if_neg h2]
        simp only [hpRaise]
        by_cases h3 : P.tank.capacity = 0
        · rw [if_pos h3, if_pos (show (priced P x c).tank.capacity = 0 from h3)]
          rfl
        · rw [if_neg h3, if_neg (show ¬ (priced P x c).tank.capacity = 0 from h3)]
          show ((P.tank.newNodes i.hour (stateOf (tsMatchOf b k + (minOut P i - r.hp.heatTotalOutput)))
            i.nodes (r.hp.heatTotalOutput + (minOut P i - r.hp.heatTotalOutput)) i.heatDemand)
            >>= _) = _
          cases P.tank.newNodes i.hour
            (stateOf (tsMatchOf b k + (minOut P i - r.hp.heatTotalOutput)))
            i.nodes (r.hp.heatTotalOutput + (minOut P i - r.hp.heatTotalOutput)) i.heatDemand <;> rfl
  · rw [if_neg h1, if_neg h1]
    rfl

/-- What a timestep does with other prices: the same, but for the money. -/
theorem step_priced (P : Plant N) (i : StepIn N) (x c p : ℚ) (b : Bool) (order : List ℤ) :
    (step (priced P x c) (pricedIn i p) b order).map energyOf
      = (step P i b order).map energyOf := by
  unfold step dispatch
  have h0 : initResults (priced P x c) (pricedIn i p) b
      = withMoney ⟨p, if b then x else 0, 0, 0, 0, 0⟩ (initResults P i b) := rfl
  have h1 : initChecks (priced P x c) (pricedIn i p) = initChecks P i := rfl
  rw [h0, h1, runOrder_priced]
  cases runOrder P i (if b then keyBelow else keyAbove) order (initChecks P i, initResults P i b) with
  | error e => rfl
  | ok s =>
    simp only [Except.map, ok_then]
    set m : Money := ⟨p, if b then x else 0, 0, 0, 0, 0⟩
    have h2 : tankUpdate (priced P x c) (pricedIn i p) b s.1
        (totals1 (priced P x c) b (withMoney m s.2)) = tankUpdate P i b s.1 (totals1 P b s.2) := rfl
    rw [h2]
    cases tankUpdate P i b s.1 (totals1 P b s.2) with
    | error e => rfl
    | ok nodes =>
      simp only [ok_then, pure, Except.pure]
      have h3 : energyOf (totals2 (priced P x c) (pricedIn i p) b nodes
          (totals1 (priced P x c) b (withMoney m s.2)))
          = energyOf (totals2 P i b nodes (totals1 P b s.2)) := rfl
      rw [eq_withMoney h3, rule_priced]
      cases minOutputRule P i b s.1 (totals2 P i b nodes (totals1 P b s.2)) <;> rfl

theorem except_map_congr {α β : Type} {x y : Except PyErr α} {f : α → β} (h : x.map f = y.map f) :
    (∃ e, x = .error e ∧ y = .error e) ∨ ∃ a b, x = .ok a ∧ y = .ok b ∧ f a = f b := by
  cases x with
  | error e =>
    cases y with
    | error e' =>
      left
      simp only [Except.map, Except.error.injEq] at h
      exact ⟨e, rfl, by rw [h]⟩
    | ok b => simp [Except.map] at h
  | ok a =>
    cases y with
    | error e' => simp [Except.map] at h
    | ok b =>
      right
      simp only [Except.map, Except.ok.injEq] at h
      exact ⟨a, b, rfl, rfl, h⟩

theorem lookup_bind {α β : Type} {l l' : List α} {t : ℕ} {R : α → α → Prop} (h : Option.Rel R l[t]? l'[t]?)
    (f : α → Except PyErr β) (g : α → Except PyErr β)
    {γ : Type} (w : β → γ) (hfg : ∀ x x', R x x' → (f x).map w = (g x').map w) :
    (lookup l t >>= f).map w = (lookup l' t >>= g).map w := by
  unfold lookup
  generalize l[t]? = a at h
  generalize l'[t]? = b at h
  cases h with
  | some hr => exact hfg _ _ hr
  | none => rfl

theorem hour_priced {S S' : RunIn N} (h : OtherPrices S S') (rows : List Tools.Row) {t : ℕ}
    (hs : SameSide S S' t) (nodes : N) (soc : ℚ) : (hourStep S rows t nodes soc).map energyOf
      = (hourStep S' rows t nodes soc).map energyOf := by
  have e1 : S'.heatDemand = S.heatDemand := by rw [h.same]
  have e2 : S'.perf = S.perf := by rw [h.same]
  have e3 : S'.orderAbove = S.orderAbove := by rw [h.same]
  have e4 : S'.orderBelow = S.orderBelow := by rw [h.same]
  have e5 : generation S' = generation S := by rw [h.same]; rfl
  have e6 : wind S' = wind S := by rw [h.same]; rfl
  have e7 : S'.pv = S.pv := by rw [h.same]
  have e8 : S'.elecDemand = S.elecDemand := by rw [h.same]
  have e9 : plant S' = priced (plant S) S'.exportPrice S'.aux.cost := by rw [h.same]; rfl
  unfold hourStep
  rw [e1, e2, e3, e4, e5, e6, e7, e8, e9]
  cases lookup S.heatDemand t with
  | error e => rfl
  | ok heat =>
    simp only [ok_then]
    refine lookup_bind hs _ _ energyOf (fun p p' hp => ?_)
    cases lookup rows t with
    | error e => rfl
    | ok row =>
      simp only [ok_then]
      cases lookupPerf S.perf t with
      | error e => rfl
      | ok perf =>
        simp only [ok_then]
        have key : ∀ b order, ((step (plant S) (hourIn t heat p row perf nodes soc) b order >>= fun r =>
              (do
                let gen ← lookup (generation S) t
                let wnd ← lookup (wind S) t
                let pv ← lookup S.pv t
                let elec ← lookup S.elecDemand t
                return complete row gen wnd pv elec heat r : Except PyErr (Results N)))).map energyOf
            = ((step (priced (plant S) S'.exportPrice S'.aux.cost)
              (hourIn t heat p' row perf nodes soc) b order >>= fun r =>
              (do
                let gen ← lookup (generation S) t
                let wnd ← lookup (wind S) t
                let pv ← lookup S.pv t
                let elec ← lookup S.elecDemand t
                return complete row gen wnd pv elec heat r : Except PyErr (Results N)))).map energyOf := by
          intro b order
          have := step_priced (plant S) (hourIn t heat p row perf nodes soc) S'.exportPrice S'.aux.cost
            p' b order
          rcases except_map_congr this with ⟨e, x1, x2⟩ | ⟨a, c, x1, x2, x3⟩
          · rw [show step (priced (plant S) S'.exportPrice S'.aux.cost)
              (hourIn t heat p' row perf nodes soc) b order = .error e from x1, x2]
          · rw [show step (priced (plant S) S'.exportPrice S'.aux.cost)
              (hourIn t heat p' row perf nodes soc) b order = .ok a from x1, x2]
            simp only [ok_then]
            cases lookup (generation S) t with
            | error e => rfl
            | ok gen =>
              cases lookup (wind S) t with
              | error e => rfl
              | ok wnd =>
                cases lookup S.pv t with
                | error e => rfl
                | ok pv =>
                  cases lookup S.elecDemand t with
                  | error e => rfl
                  | ok elec =>
                    have k : a = withMoney (moneyOf a) c := eq_withMoney x3
                    rw [k]
                    rfl
        by_cases hp1 : p > S.setpoint
        · rw [if_pos hp1, if_pos (hp.mp hp1)]
          exact key false S.orderAbove
        · rw [if_neg hp1, if_neg (fun hh => hp1 (hp.mpr hh))]
          exact key true S.orderBelow

theorem runFrom_priced {S S' : RunIn N} (h : OtherPrices S S') (rows : List Tools.Row) :
    ∀ (n t : ℕ) (_ : ∀ j, t ≤ j → j < t + n → SameSide S S' j) (nodes : N) (soc : ℚ),
      (runFrom S rows t n nodes soc).map (List.map energyOf)
      = (runFrom S' rows t n nodes soc).map (List.map energyOf) := by
  intro n
  induction n with
  | zero => intro t hs nodes soc; rfl
  | succ n ih =>
    intro t hs nodes soc
    simp only [runFrom]
    rcases except_map_congr (hour_priced h rows (hs t le_rfl (by omega)) nodes soc) with ⟨e, x1, x2⟩ | ⟨a, c, x1, x2, x3⟩
    · rw [x1, x2]; rfl
    · rw [x1, x2]
      simp only [ok_then]
      have k : a = withMoney (moneyOf a) c := eq_withMoney x3
      have k1 : a.ts.finalNodesTemp = c.ts.finalNodesTemp := by rw [k]; rfl
      have k2 : a.es.finalSoc = c.es.finalSoc := by rw [k]; rfl
      rw [k1, k2]
      rcases except_map_congr (ih (t + 1) (fun j h1 h2 => hs j (by omega) (by omega)) (c.ts.finalNodesTemp.getD nodes) c.es.finalSoc) with
        ⟨e, y1, y2⟩ | ⟨l, l', y1, y2, y3⟩
      · rw [y1, y2]; rfl
      · rw [y1, y2]
        simp only [ok_then, pure, Except.pure, Except.map, List.map_cons, y3, x3]

/-- C104: changing prices, without moving the import price of any hour of the run across the setpoint, changes no
energy flow and no state of a store in any hour; and a run goes through exactly if the other does. -/
theorem C104_prices_move_money_only {S S' : RunIn N} (h : OtherPrices S S') {first n : ℕ}
    (hs : ∀ t, first ≤ t → t < first + n → SameSide S S' t) :
    (runTimesteps S first n).map (List.map energyOf)
      = (runTimesteps S' first n).map (List.map energyOf) := by
  unfold runTimesteps
  have e5 : generation S' = generation S := by rw [h.same]; rfl
  have e8 : S'.elecDemand = S.elecDemand := by rw [h.same]
  have e9 : S'.tank = S.tank := by rw [h.same]
  have e10 : S'.es = S.es := by rw [h.same]
  rw [e5, e8, e9, e10]
  cases Tools.surplusDeficitFixed (generation S) S.elecDemand with
  | error e => rfl
  | ok rows =>
    simp only [ok_then]
    by_cases hl : first + n > 8760
    · rw [if_pos hl, if_pos hl]
    · rw [if_neg hl, if_neg hl]
      exact runFrom_priced h rows n first hs _ _

/-! ### A change of currency -/

/-- An hour's results in another currency. -/
def Spec.inCurrencyR (k : ℚ) (r : Results N) : Results N := withMoney ((moneyOf r).times k) r

theorem moneyOf_record (q : Process) (a : Amt) (r : Results N) :
    moneyOf (record q a r) = moneyOf r := by
  cases q <;> rfl

theorem moneyOf_runOrder {P : Plant N} {i : StepIn N} {key : ℤ → Except PyErr Process}
    {order : List ℤ} {s s' : Checks × Results N} (h : runOrder P i key order s = .ok s') :
    moneyOf s'.2 = moneyOf s.2 := by
  obtain ⟨ps, -, hr⟩ := runOrder_ok h
  exact runProcs_induct (fun _ t => moneyOf t.2 = moneyOf s.2)
    (fun _ q _ r a _ hh => (moneyOf_record q a r).trans hh) ps [] _ _ hr rfl

theorem moneyOf_rule {P : Plant N} {i : StepIn N} {b : Bool} {c : Checks} {r r' : Results N}
    (h : minOutputRule P i b c r = .ok r') : moneyOf r' = moneyOf r := by
  cases rule_outcome h with
  | same h _ => subst h; rfl
  | raise nodes _ h => subst h; rfl
  | offAbove nodes _ _ h => subst h; rfl
  | offBelow nodes dis _ _ _ h => subst h; rfl

theorem step_currency (k : ℚ) (P : Plant N) (i : StepIn N) (b : Bool) (order : List ℤ) :
    step (priced P (k * P.exportPrice) (k * P.aux.cost)) (pricedIn i (k * i.importPrice)) b order
      = (step P i b order).map (inCurrencyR k) := by
  unfold step dispatch
  have h0 : initResults (priced P (k * P.exportPrice) (k * P.aux.cost))
      (pricedIn i (k * i.importPrice)) b
      = withMoney ((moneyOf (initResults P i b)).times k) (initResults P i b) := by
    simp only [initResults, priced, pricedIn, withMoney, moneyOf, Money.times, mul_zero]
    cases b <;> simp
  have h1 : initChecks (priced P (k * P.exportPrice) (k * P.aux.cost))
      (pricedIn i (k * i.importPrice)) = initChecks P i := rfl
  rw [h0, h1, runOrder_priced]
  cases hro : runOrder P i (if b then keyBelow else keyAbove) order
      (initChecks P i, initResults P i b) with
  | error e => rfl
  | ok s =>
    have hmo : moneyOf s.2 = moneyOf (initResults P i b) := moneyOf_runOrder hro
    rw [← hmo]
    simp only [Except.map, ok_then]
    have h2 : tankUpdate (priced P (k * P.exportPrice) (k * P.aux.cost))
        (pricedIn i (k * i.importPrice)) b s.1
        (totals1 (priced P (k * P.exportPrice) (k * P.aux.cost)) b
          (withMoney ((moneyOf s.2).times k) s.2)) = tankUpdate P i b s.1 (totals1 P b s.2) := rfl
    rw [h2]
    cases tankUpdate P i b s.1 (totals1 P b s.2) with
    | error e => rfl
    | ok nodes =>
      simp only [ok_then, pure, Except.pure]
      have h3 : totals2 (priced P (k * P.exportPrice) (k * P.aux.cost))
          (pricedIn i (k * i.importPrice)) b nodes
          (totals1 (priced P (k * P.exportPrice) (k * P.aux.cost)) b
            (withMoney ((moneyOf s.2).times k) s.2))
          = withMoney ((moneyOf (totals2 P i b nodes (totals1 P b s.2))).times k)
            (totals2 P i b nodes (totals1 P b s.2)) := by
        have : moneyOf (totals2 (priced P (k * P.exportPrice) (k * P.aux.cost))
          (pricedIn i (k * i.importPrice)) b nodes
          (totals1 (priced P (k * P.exportPrice) (k * P.aux.cost)) b
            (withMoney ((moneyOf s.2).times k) s.2)))
            = (moneyOf (totals2 P i b nodes (totals1 P b s.2))).times k := by
          simp only [moneyOf, Money.times, totals2, totals1, withMoney, priced, Money.mk.injEq,
            true_and]
          rcases Bool.eq_false_or_eq_true P.aux.electric with hel | hel
          · simp only [hel, if_true]
            refine ⟨?_, ?_, ?_, ?_⟩ <;> ring
          · simp only [hel, Bool.false_eq_true, if_false]
            refine ⟨?_, ?_, ?_, ?_⟩ <;> ring
        rw [← this]
        exact eq_withMoney rfl
      rw [h3, rule_priced]
      cases hru : minOutputRule P i b s.1 (totals2 P i b nodes (totals1 P b s.2)) with
      | error e => rfl
      | ok r =>
        rw [← moneyOf_rule hru]
        rfl

theorem lookup_map {α β : Type} (f : α → β) (l : List α) (t : ℕ) :
    lookup (l.map f) t = (lookup l t).map f := by
  unfold lookup
  rw [List.getElem?_map]
  cases l[t]? <;> rfl

theorem hour_currency {k : ℚ} (hk : 0 < k) (S : RunIn N) (rows : List Tools.Row) (t : ℕ)
    (nodes : N) (soc : ℚ) : hourStep (inCurrency k S) rows t nodes soc
      = (hourStep S rows t nodes soc).map (inCurrencyR k) := by
  unfold hourStep
  show (lookup S.heatDemand t >>= _) = _
  cases lookup S.heatDemand t with
  | error e => rfl
  | ok heat =>
    simp only [ok_then]
    show (lookup (S.importPrice.map (k * ·)) t >>= _) = _
    rw [lookup_map]
    cases lookup S.importPrice t with
    | error e => rfl
    | ok p =>
      simp only [ok_then, Except.map]
      cases lookup rows t with
      | error e => rfl
      | ok row =>
        simp only [ok_then]
        show (lookupPerf S.perf t >>= _) = _
        cases lookupPerf S.perf t with
        | error e => rfl
        | ok perf =>
          simp only [ok_then]
          have hside : (k * p > (inCurrency k S).setpoint) ↔ p > S.setpoint := by
            show k * S.setpoint < k * p ↔ _
            exact mul_lt_mul_iff_right₀ hk
          have key : ∀ b order, step (plant (inCurrency k S)) (hourIn t heat (k * p) row perf nodes soc)
              b order = (step (plant S) (hourIn t heat p row perf nodes soc) b order).map
                (inCurrencyR k) :=
            fun b order => step_currency k (plant S) (hourIn t heat p row perf nodes soc) b order
          have rest : ∀ b order, ((step (plant (inCurrency k S))
              (hourIn t heat (k * p) row perf nodes soc) b order >>= fun r =>
              (do
                let gen ← lookup (generation S) t
                let wnd ← lookup (wind S) t
                let pv ← lookup S.pv t
                let elec ← lookup S.elecDemand t
                return complete row gen wnd pv elec heat r : Except PyErr (Results N))))
            = ((step (plant S) (hourIn t heat p row perf nodes soc) b order >>= fun r =>
              (do
                let gen ← lookup (generation S) t
                let wnd ← lookup (wind S) t
                let pv ← lookup S.pv t
                let elec ← lookup S.elecDemand t
                return complete row gen wnd pv elec heat r : Except PyErr (Results N)))).map
                  (inCurrencyR k) := by
            intro b order
            rw [key]
            cases step (plant S) (hourIn t heat p row perf nodes soc) b order with
            | error e => rfl
            | ok r =>
              simp only [Except.map, ok_then]
              cases lookup (generation S) t with
              | error e => rfl
              | ok gen =>
                cases lookup (wind S) t with
                | error e => rfl
                | ok wnd =>
                  cases lookup S.pv t with
                  | error e => rfl
                  | ok pv =>
                    cases lookup S.elecDemand t with
                    | error e => rfl
                    | ok elec => rfl
          by_cases hp1 : p > S.setpoint
          · rw [if_pos hp1, if_pos (hside.mpr hp1)]
            exact rest false S.orderAbove
          · rw [if_neg hp1, if_neg (fun hh => hp1 (hside.mp hh))]
            exact rest true S.orderBelow

/-- C104: with all prices and the setpoint in another currency the controller does the same, and every
price and every amount of money is converted. -/
theorem C104_change_of_currency {k : ℚ} (hk : 0 < k) (S : RunIn N) (first n : ℕ) :
    runTimesteps (inCurrency k S) first n
      = (runTimesteps S first n).map (List.map (inCurrencyR k)) := by
  unfold runTimesteps
  show (Tools.surplusDeficitFixed (generation S) S.elecDemand >>= _) = _
  cases Tools.surplusDeficitFixed (generation S) S.elecDemand with
  | error e => rfl
  | ok rows =>
    simp only [ok_then]
    by_cases hl : first + n > 8760
    · rw [if_pos hl, if_pos hl]
      rfl
    · rw [if_neg hl, if_neg hl]
      show runFrom (inCurrency k S) rows first n S.tank.initTemps S.es.initState = _
      generalize S.tank.initTemps = nodes
      generalize S.es.initState = soc
      clear hl
      induction n generalizing first nodes soc with
      | zero => rfl
      | succ n ih =>
        simp only [runFrom, hour_currency hk]
        cases hourStep S rows first nodes soc with
        | error e => rfl
        | ok r =>
          simp only [Except.map, ok_then]
          show (runFrom (inCurrency k S) rows (first + 1) n (r.ts.finalNodesTemp.getD nodes)
            r.es.finalSoc >>= _) = _
          rw [ih]
          cases runFrom S rows (first + 1) n (r.ts.finalNodesTemp.getD nodes) r.es.finalSoc <;> rfl

/-- The sample year in pence and in pounds: the same import, a hundredth of the cost. -/
example : ∃ rs, runTimesteps sampleRun 0 24 = .ok rs ∧
    runTimesteps (inCurrency (1 / 100) sampleRun) 0 24 = .ok (rs.map (inCurrencyR (1 / 100))) ∧
    ∀ r : Results Unit, (inCurrencyR (1 / 100) r).grid.cashflow = 1 / 100 * r.grid.cashflow := by
  obtain ⟨rs, h⟩ := sampleRun_runs 0 24 (by decide)
  refine ⟨rs, h, ?_, fun _ => rfl⟩
  rw [C104_change_of_currency (by norm_num), h]
  rfl

/-- The sample year with twice the import price and another export price: the same energy. -/
example : (runTimesteps sampleRun 0 24).map (List.map energyOf)
    = (runTimesteps { sampleRun with importPrice := List.replicate 8760 200, exportPrice := 7 } 0
        24).map (List.map energyOf) :=
  C104_prices_move_money_only ⟨rfl⟩ fun t _ ht => by
    have ht' : t < 8760 := by omega
    unfold SameSide
    rw [show sampleRun.importPrice = List.replicate 8760 100 from rfl, List.getElem?_replicate, if_pos ht']
    dsimp only
    rw [List.getElem?_replicate, if_pos ht']
    exact .some (by norm_num [sampleRun])

end Verif
