import Verif.Spec.Tank
import Mathlib.Algebra.Order.BigOperators.Group.List
import Mathlib.Algebra.BigOperators.Ring.List
import Mathlib.Tactic.IntervalCases

/-!
# Helper lemmas about the hot water tank
-/

set_option autoImplicit false

namespace Verif.Tank
open Spec

/-! ### Lists -/

theorem temp_eq {nodes : List ℚ} {i : ℕ} (h : i < nodes.length) : temp nodes i = nodes[i] := by
  simp [temp, h]

theorem temp_mem {nodes : List ℚ} {i : ℕ} (h : i < nodes.length) : temp nodes i ∈ nodes := by
  rw [temp_eq h]; exact List.getElem_mem h

theorem temp_anti {nodes : List ℚ} (hs : Stratified nodes) {i j : ℕ} (hij : i ≤ j)
    (hj : j < nodes.length) : temp nodes j ≤ temp nodes i := by
  rw [temp_eq hj, temp_eq (lt_of_le_of_lt hij hj)]
  rcases Nat.lt_or_eq_of_le hij with h | h
  · exact List.pairwise_iff_getElem.1 hs i j _ _ h
  · subst h; exact le_refl _

theorem sortDown_length (xs : List ℚ) : (sortDown xs).length = xs.length :=
  List.length_insertionSort _ _

theorem sortDown_perm (xs : List ℚ) : (sortDown xs).Perm xs := List.perm_insertionSort _ _

theorem sortDown_stratified (xs : List ℚ) : Stratified (sortDown xs) :=
  List.pairwise_insertionSort _ _

theorem mem_sortDown {xs : List ℚ} {x : ℚ} : x ∈ sortDown xs ↔ x ∈ xs := (sortDown_perm xs).mem_iff

theorem orderedInsert_le {x y : ℚ} {s b : List ℚ} (hxy : x ≤ y) (hb : Stratified (y :: b))
    (h : List.Forall₂ (· ≤ ·) s b) :
    List.Forall₂ (· ≤ ·) (List.orderedInsert (· ≥ ·) x s) (y :: b) := by
  induction h generalizing y with
  | nil => simpa using hxy
  | @cons z w s' b' hzw hrest ih =>
    rw [List.orderedInsert_cons]
    have hwy : w ≤ y := (List.pairwise_cons.1 hb).1 w (by simp)
    split_ifs with hx
    · exact .cons hxy (.cons hzw hrest)
    · refine .cons (le_trans hzw hwy) (ih ?_ (List.pairwise_cons.1 hb).2)
      exact le_trans (le_of_lt (not_le.1 hx)) hzw

theorem sortDown_le {a b : List ℚ} (hb : Stratified b) (h : List.Forall₂ (· ≤ ·) a b) :
    List.Forall₂ (· ≤ ·) (sortDown a) b := by
  induction h with
  | nil => exact .nil
  | cons hxy hr ih =>
    exact orderedInsert_le hxy hb (ih (List.pairwise_cons.1 hb).2)

/-! ### The last flagged node -/

theorem lastFlag_aux (flag : ℕ → ℚ) (d : ℕ) : ∀ n : ℕ,
    (List.range n).foldl (fun acc j => if flag j = 1 then j else acc) d = d
      ∧ (∀ j < n, flag j ≠ 1) ∨
    ∃ c < n, (List.range n).foldl (fun acc j => if flag j = 1 then j else acc) d = c
      ∧ flag c = 1 ∧ ∀ j < n, c < j → flag j ≠ 1 := by
  intro n
  induction n with
  | zero => left; simp
  | succ n ih =>
    rw [List.range_succ, List.foldl_append]
    simp only [List.foldl_cons, List.foldl_nil]
    by_cases hn : flag n = 1
    · right
      refine ⟨n, Nat.lt_succ_self n, by rw [if_pos hn], hn, fun j hj hc => absurd hj (by omega)⟩
    · rw [if_neg hn]
      rcases ih with ⟨h1, h2⟩ | ⟨c, hc, h1, h2, h3⟩
      · left
        refine ⟨h1, fun j hj => ?_⟩
        rcases Nat.lt_succ_iff_lt_or_eq.1 hj with h | h
        · exact h2 j h
        · rw [h]; exact hn
      · right
        refine ⟨c, by omega, h1, h2, fun j hj hcj => ?_⟩
        rcases Nat.lt_succ_iff_lt_or_eq.1 hj with h | h
        · exact h3 j h hcj
        · rw [h]; exact hn

theorem lastFlag_cases (n : ℕ) (flag : ℕ → ℚ) :
    (lastFlag n flag = n ∧ ∀ j < n, flag j ≠ 1) ∨
      (lastFlag n flag < n ∧ flag (lastFlag n flag) = 1 ∧ ∀ j < n, lastFlag n flag < j → flag j ≠ 1) := by
  rcases lastFlag_aux flag n n with h | ⟨c, hc, h1, h2, h3⟩
  · exact .inl h
  · right
    have h1' : lastFlag n flag = c := h1
    rw [h1']; exact ⟨hc, h2, h3⟩

theorem lastFlag_of_unique {n c : ℕ} {flag : ℕ → ℚ} (hc : c < n) (h1 : flag c = 1)
    (h : ∀ j < n, flag j = 1 → j = c) : lastFlag n flag = c := by
  rcases lastFlag_cases n flag with ⟨_, h2⟩ | ⟨h2, h3, _⟩
  · exact absurd h1 (h2 c hc)
  · exact h _ h2 h3

theorem lastFlag_of_none {n : ℕ} {flag : ℕ → ℚ} (h : ∀ j < n, flag j ≠ 1) : lastFlag n flag = n := by
  rcases lastFlag_cases n flag with ⟨h1, _⟩ | ⟨h2, h3, _⟩
  · exact h1
  · exact absurd h3 (h _ h2)

/-! ### Specific heat -/

theorem roundHalfEven_range {q : ℚ} {a b : ℤ} (h0 : (a : ℚ) ≤ q) (h1 : q ≤ b) :
    a ≤ roundHalfEven q ∧ roundHalfEven q ≤ b := by
  have hf : (⌊q⌋ : ℚ) ≤ q := Int.floor_le q
  have hf2 : q < ⌊q⌋ + 1 := Int.lt_floor_add_one q
  have ha : a ≤ ⌊q⌋ := Int.le_floor.2 h0
  have key : (⌊q⌋ : ℚ) < q → ⌊q⌋ + 1 ≤ b := by
    intro h
    have : (⌊q⌋ : ℚ) < b := lt_of_lt_of_le h h1
    exact_mod_cast this
  have hb : ⌊q⌋ ≤ b := by
    have : (⌊q⌋ : ℚ) ≤ b := le_trans hf h1
    exact_mod_cast this
  unfold roundHalfEven
  dsimp only
  split_ifs with h2 h3 h4
  · exact ⟨ha, hb⟩
  · exact ⟨by omega, key (by linarith)⟩
  · exact ⟨ha, hb⟩
  · exact ⟨by omega, key (by linarith [show q - ⌊q⌋ ≥ 1/2 from not_lt.1 h2])⟩

theorem roundHalfEven_dist (q : ℚ) : |q - roundHalfEven q| ≤ 1 / 2 := by
  have hf : (⌊q⌋ : ℚ) ≤ q := Int.floor_le q
  have hf2 : q < ⌊q⌋ + 1 := Int.lt_floor_add_one q
  unfold roundHalfEven
  dsimp only
  rw [abs_le]
  split_ifs with h2 h3 h4 <;> push_cast <;> constructor <;> linarith

theorem specificHeat_ok {t : ℚ} (h0 : 0 ≤ t) (h1 : t ≤ 100) :
    ∃ c, specificHeat t = .ok c ∧ 4178 ≤ c ∧ c ≤ 4217 := by
  obtain ⟨ha, hb⟩ := roundHalfEven_range (q := t / 10) (a := 0) (b := 10)
    (by push_cast; linarith) (by push_cast; linarith)
  unfold specificHeat
  rw [if_pos ⟨h1, h0⟩]
  unfold pyRoundTens
  generalize roundHalfEven (t / 10) = z at ha hb
  interval_cases z <;> refine ⟨_, rfl, ?_, ?_⟩ <;> norm_num

theorem specificHeat_bounds {t c : ℚ} (h : specificHeat t = .ok c) :
    0 ≤ t ∧ t ≤ 100 ∧ 4178 ≤ c ∧ c ≤ 4217 := by
  by_cases ht : 100 ≥ t ∧ t ≥ 0
  · obtain ⟨c', hc', h1, h2⟩ := specificHeat_ok ht.2 ht.1
    rw [h] at hc'
    cases hc'
    exact ⟨ht.2, ht.1, h1, h2⟩
  · unfold specificHeat at h
    rw [if_neg ht] at h
    cases h

theorem cps_ok {nodes cs : List ℚ} (h : cps nodes = .ok cs) :
    cs.length = nodes.length ∧ ∀ i < nodes.length,
      specificHeat (temp nodes i) = .ok (cs.getD i 0) := by
  induction nodes generalizing cs with
  | nil => cases h; exact ⟨rfl, fun i hi => absurd hi (by simp)⟩
  | cons t ts ih =>
    unfold cps at h
    split at h
    · cases h
    · rename_i c hc
      split at h
      · cases h
      · rename_i cs' hcs
        cases h
        obtain ⟨h1, h2⟩ := ih hcs
        refine ⟨by simp [h1], fun i hi => ?_⟩
        cases i with
        | zero => simpa [temp] using hc
        | succ i => simpa [temp] using h2 i (by simpa using hi)

theorem cps_pos {nodes cs : List ℚ} (h : cps nodes = .ok cs) {i : ℕ} (hi : i < nodes.length) :
    4178 ≤ cs.getD i 0 := (specificHeat_bounds ((cps_ok h).2 i hi)).2.2.1

theorem env_ok {tk : Tank} {hour : ℕ} {nodes cs : List ℚ} {k amb : ℚ}
    (h : env tk hour nodes = .ok (cs, k, amb)) :
    cps nodes = .ok cs ∧ tk.kValue = .ok k ∧ tk.ambTemp hour = .ok amb := by
  unfold env at h
  split at h
  · cases h
  · rename_i cs' h1
    split at h
    · cases h
    · rename_i k' h2
      split at h
      · cases h
      · rename_i amb' h3
        cases h
        exact ⟨h1, h2, h3⟩

theorem kValue_pos {tk : Tank} {k : ℚ} (h : tk.kValue = .ok k) : 0 < k := by
  unfold kValue at h
  split_ifs at h <;> cases h <;> norm_num

/-! ### One Euler step -/

theorem nodeMass_pos {tk : Tank} (h : UsableTank tk) : 0 < tk.nodeMass := by
  have : (0 : ℚ) < tk.number := by exact_mod_cast lt_of_lt_of_le (by norm_num) h.2
  exact div_pos h.1 this

/-- Heat exchanged with the surroundings by a node, as a temperature change. -/
def lossTerm (tk : Tank) (e : StepEnv) (t cp : ℚ) : ℚ :=
  (tk.wall * e.k * (e.amb - t) + tk.connection) / (tk.nodeMass * cp)

theorem lossTerm_lossless {tk : Tank} (h : Lossless tk) (e : StepEnv) (t cp : ℚ) :
    lossTerm tk e t cp = 0 := by
  unfold lossTerm; rw [h.1, h.2]; simp

/-- The part of the slope that moves water. -/
def flowTerm (tk : Tank) (state : TankState) (nodes : List ℚ) (net : NetTemps) (i : ℕ) : ℚ :=
  let mf := mixing tk.number state nodes net.source net.flow i
  mf.Fcnt * temp nodes (i - 1) + mf.Fdnb * temp nodes (i + 1)
    + chargeFlag state nodes net.source i * net.source
    + dischargeBottom tk.number state nodes net.flow i * net.ret
    - (dischargeFlag state nodes net.flow i + mf.Fdnt + mf.Fcnb + chargeOut tk.number state i)
      * temp nodes i

theorem Fcnt_zero (n : ℕ) (state : TankState) (nodes : List ℚ) (s f : ℚ) :
    (mixing n state nodes s f 0).Fcnt = 0 := by
  cases state <;> simp [mixing]

theorem Fdnb_last (n : ℕ) (state : TankState) (nodes : List ℚ) (s f : ℚ) :
    (mixing n state nodes s f (n - 1)).Fdnb = 0 := by
  cases state <;> simp [mixing]

theorem slope_eq {tk : Tank} (hu : UsableTank tk) (e : StepEnv) (state : TankState)
    (nodes : List ℚ) (net : NetTemps) (i : ℕ) {cp : ℚ} (hcp : 4178 ≤ cp) :
    slope tk e state nodes net i cp =
      e.m / tk.nodeMass * flowTerm tk state nodes net i + lossTerm tk e (temp nodes i) cp := by
  have hM := nodeMass_pos hu
  have hM' : tk.nodeMass ≠ 0 := ne_of_gt hM
  have hcp' : cp ≠ 0 := by intro h; rw [h] at hcp; norm_num at hcp
  have h0 := Fcnt_zero tk.number state nodes net.source net.flow
  have h1 := Fdnb_last tk.number state nodes net.source net.flow
  unfold slope flowTerm lossTerm coefA coefB coefC coefD
  dsimp only
  split_ifs with ha hb
  · subst ha
    rw [h0]
    field_simp
    ring
  · subst hb
    rw [h1]
    field_simp
    ring
  · field_simp
    ring

theorem flow_standby (tk : Tank) (nodes : List ℚ) (net : NetTemps) (i : ℕ) :
    flowTerm tk .standby nodes net i = 0 := by
  simp [flowTerm, mixing, dischargeFlag, chargeFlag, chargeOut, dischargeBottom]

/-! ### Discharging a stratified tank -/

theorem dischargeFlag_strat {nodes : List ℚ} (hs : Stratified nodes) {flow : ℚ} {i : ℕ}
    (hi : i < nodes.length) :
    dischargeFlag .discharging nodes flow i = if i = 0 ∧ flow ≤ temp nodes 0 then 1 else 0 := by
  unfold dischargeFlag
  dsimp only
  split_ifs with h1 h2 h3
  · rfl
  · rfl
  · exfalso
    have := temp_anti hs (show i - 1 ≤ i by omega) hi
    linarith [h3.1, h3.2]
  · rfl

/-- The same for a profile nowhere above the flow temperature, in any order. -/
theorem dischargeFlag_cool {nodes : List ℚ} {flow : ℚ} (hc : ∀ t ∈ nodes, t ≤ flow) {i : ℕ}
    (hi : i < nodes.length) :
    dischargeFlag .discharging nodes flow i = if i = 0 ∧ flow ≤ temp nodes 0 then 1 else 0 := by
  unfold dischargeFlag
  dsimp only
  split_ifs with h1 h2 h3
  · rfl
  · rfl
  · exfalso
    have := hc _ (temp_mem hi)
    linarith [h3.1]
  · rfl

theorem flow_discharging {tk : Tank} (hu : UsableTank tk) {nodes : List ℚ} (net : NetTemps)
    (hf : ∀ j < tk.number, dischargeFlag .discharging nodes net.flow j
      = if j = 0 ∧ net.flow ≤ temp nodes 0 then 1 else 0) {i : ℕ} (hi : i < tk.number) :
    flowTerm tk .discharging nodes net i =
      if net.flow ≤ temp nodes 0 then
        (if i = tk.number - 1 then net.ret else temp nodes (i + 1)) - temp nodes i
      else 0 := by
  have hn : 2 ≤ tk.number := hu.2
  by_cases h : net.flow ≤ temp nodes 0
  · have hlast : lastFlag tk.number (dischargeFlag .discharging nodes net.flow) = 0 := by
      apply lastFlag_of_unique (by omega)
      · rw [hf 0 (by omega), if_pos ⟨rfl, h⟩]
      · intro j hj h1
        rw [hf j hj] at h1
        by_contra hne
        rw [if_neg (by tauto)] at h1
        norm_num at h1
    have hany : (List.range tk.number).any
        (fun j => dischargeFlag .discharging nodes net.flow j = 1) = true := by
      rw [List.any_eq_true]
      refine ⟨0, by simp; omega, ?_⟩
      rw [hf 0 (by omega), if_pos ⟨rfl, h⟩]
      simp
    rw [if_pos h]
    unfold flowTerm dischargeBottom
    dsimp only
    rw [if_pos hany, hf i hi]
    unfold mixing
    dsimp only
    rw [hlast]
    simp only [chargeFlag, chargeOut, ge_iff_le, h, and_true]
    by_cases h0 : i = 0
    · subst h0
      have : ¬ (0 = tk.number - 1) := by omega
      simp [this]
    · by_cases hb : i = tk.number - 1
      · have : ¬ (tk.number - 1 = 0) := by omega
        simp [hb, this]
      · simp [h0, hb]
  · have hnone : ∀ j < tk.number, dischargeFlag .discharging nodes net.flow j = 0 := by
      intro j hj
      rw [hf j hj, if_neg (by tauto)]
    have hlast : lastFlag tk.number (dischargeFlag .discharging nodes net.flow) = tk.number :=
      lastFlag_of_none (fun j hj => by rw [hnone j hj]; norm_num)
    have hany : ¬ (List.range tk.number).any
        (fun j => dischargeFlag .discharging nodes net.flow j = 1) = true := by
      rw [List.any_eq_true]
      rintro ⟨j, hj, h1⟩
      rw [hnone j (by simpa using hj)] at h1
      simp at h1
    rw [if_neg h]
    unfold flowTerm dischargeBottom
    dsimp only
    rw [if_neg hany, hnone i hi]
    unfold mixing
    dsimp only
    rw [hlast]
    have : i ≤ tk.number := by omega
    simp [chargeFlag, chargeOut, hi, this]

/-! ### Charging a stratified tank -/

/-- The flag of node `i` while charging, for any profile. -/
theorem chargeFlag_eq (nodes : List ℚ) (source : ℚ) (i : ℕ) :
    chargeFlag .charging nodes source i =
      if source ≥ temp nodes i ∧ (i = 0 ∨ source ≤ temp nodes (i - 1)) then 1 else 0 := by
  unfold chargeFlag
  dsimp only
  by_cases h0 : i = 0
  · subst h0
    rcases le_total (temp nodes 0) source with h | h
    · simp [h]
    · by_cases h' : temp nodes 0 ≤ source
      · simp [h']
      · simp [h, h']
  · simp [h0]

/-- Without a tie exactly one node takes the hot water: the first one colder than it. -/
theorem charge_unique {nodes : List ℚ} (hs : Stratified nodes) {source : ℚ}
    (hne : source ∉ nodes) (hne0 : nodes ≠ [])
    (hb : temp nodes (nodes.length - 1) < source) :
    ∃ c < nodes.length, ∀ i < nodes.length,
      (chargeFlag .charging nodes source i = if i = c then 1 else 0) ∧
      (i < c → source < temp nodes i) ∧ (c ≤ i → temp nodes i < source) := by
  have hlen : 0 < nodes.length := List.length_pos_iff.2 hne0
  have hex : ∃ c, c < nodes.length ∧ temp nodes c < source := ⟨nodes.length - 1, by omega, hb⟩
  classical
  let c := Nat.find hex
  have hc : c < nodes.length ∧ temp nodes c < source := Nat.find_spec hex
  have hmin : ∀ j < c, ¬ (j < nodes.length ∧ temp nodes j < source) := fun j hj => Nat.find_min hex hj
  have hgt : ∀ j < c, source < temp nodes j := by
    intro j hj
    have hjl : j < nodes.length := by omega
    have h1 : ¬ temp nodes j < source := fun h => hmin j hj ⟨hjl, h⟩
    rcases lt_or_eq_of_le (not_lt.1 h1) with h | h
    · exact h
    · exact absurd (h ▸ temp_mem hjl) hne
  have hlt : ∀ j, c ≤ j → j < nodes.length → temp nodes j < source := fun j hj hjl =>
    lt_of_le_of_lt (temp_anti hs hj hjl) hc.2
  refine ⟨c, hc.1, fun i hi => ⟨?_, hgt i, fun h => hlt i h hi⟩⟩
  rw [chargeFlag_eq]
  by_cases hic : i = c
  · rw [if_pos hic, if_pos]
    refine ⟨by rw [hic]; exact le_of_lt hc.2, ?_⟩
    by_cases h0 : i = 0
    · exact .inl h0
    · exact .inr (le_of_lt (hgt (i - 1) (by omega)))
  · rw [if_neg hic, if_neg]
    rintro ⟨h1, h2⟩
    rcases Nat.lt_or_gt_of_ne hic with h | h
    · linarith [hgt i h]
    · rcases h2 with h2 | h2
      · omega
      · linarith [hlt (i - 1) (by omega) (by omega)]

theorem flow_charging {tk : Tank} {nodes : List ℚ} (net : NetTemps) {c i : ℕ}
    (hc : c < tk.number) (hi : i < tk.number)
    (hf : ∀ j < tk.number, chargeFlag .charging nodes net.source j = if j = c then 1 else 0) :
    flowTerm tk .charging nodes net i =
      if i < c then 0 else if i = c then net.source - temp nodes i
      else temp nodes (i - 1) - temp nodes i := by
  have hlast : lastFlag tk.number (chargeFlag .charging nodes net.source) = c :=
    lastFlag_of_unique hc (by rw [hf c hc, if_pos rfl]) (fun j hj h1 => by
      by_contra hne
      rw [hf j hj, if_neg hne] at h1
      norm_num at h1)
  unfold flowTerm dischargeBottom
  dsimp only
  rw [hf i hi]
  unfold mixing
  dsimp only
  rw [hlast]
  simp only [dischargeFlag, chargeOut]
  rcases Nat.lt_trichotomy i c with h | h | h
  · have h1 : i ≤ c := by omega
    have h2 : ¬ i = c := by omega
    have h3 : ¬ i = tk.number - 1 := by omega
    simp [h, h1, h2, h3]
  · subst h
    by_cases hb : i = tk.number - 1
    · simp [← hb]
    · simp [hb]
  · have h1 : ¬ i ≤ c := by omega
    have h2 : ¬ i = c := by omega
    have h3 : ¬ i < c := by omega
    by_cases hb : i = tk.number - 1
    · simp [← hb, h1, h2, h3]
    · simp [h1, h2, h3, hb]

/-! ### Results of a step -/

theorem euler_ok {tk : Tank} {e : StepEnv} {cs nodes new : List ℚ} {state : TankState} {net : NetTemps}
    (h : euler tk e cs state nodes net = .ok new) :
    new = (List.range tk.number).map (fun i =>
      temp nodes i + slope tk e state nodes net i (cs.getD i 0)) := by
  unfold euler at h
  split_ifs at h
  cases h; rfl

theorem internalStep_ok {tk : Tank} {hour : ℕ} {state : TankState} {net : NetTemps} {th de : ℚ}
    {nodes new : List ℚ} (h : internalStep tk hour state net th de nodes = .ok new) :
    ∃ m1 cs k amb, massFlow state net th de (temp nodes (tk.number - 1)) (temp nodes 0) = .ok m1 ∧
      cps nodes = .ok cs ∧ tk.kValue = .ok k ∧ tk.ambTemp hour = .ok amb ∧
      new = sortDown ((List.range tk.number).map (fun i => temp nodes i +
        slope tk ⟨min m1 tk.nodeMass, k, amb⟩ state nodes net i (cs.getD i 0))) := by
  unfold internalStep at h
  split at h
  · cases h
  · rename_i m1 hm
    split at h
    · cases h
    · rename_i cs k amb he
      split at h
      · cases h
      · rename_i new' hn
        cases h
        obtain ⟨h1, h2, h3⟩ := env_ok he
        exact ⟨m1, cs, k, amb, hm, h1, h2, h3, by rw [euler_ok hn]⟩

theorem internalStep_number {tk : Tank} {hour : ℕ} {state : TankState} {net : NetTemps} {th de : ℚ}
    {nodes new : List ℚ} (h : internalStep tk hour state net th de nodes = .ok new) :
    tk.number ≠ 1 := by
  intro hn
  unfold internalStep at h
  split at h
  · cases h
  · split at h
    · cases h
    · split at h
      · cases h
      · rename_i hx
        unfold euler at hx
        rw [if_pos hn] at hx
        cases hx

theorem internalStep_shape {tk : Tank} {hour : ℕ} {state : TankState} {net : NetTemps} {th de : ℚ}
    {nodes new : List ℚ} (h : internalStep tk hour state net th de nodes = .ok new) :
    Stratified new ∧ new.length = tk.number := by
  obtain ⟨m1, cs, k, amb, _, _, _, _, rfl⟩ := internalStep_ok h
  exact ⟨sortDown_stratified _, by rw [sortDown_length]; simp⟩

theorem profiles_all {tk : Tank} {hour : ℕ} {state : TankState} {net : NetTemps} {th de : ℚ}
    (I : List ℚ → Prop)
    (hstep : ∀ a b, I a → internalStep tk hour state net th de a = .ok b → I b) :
    ∀ (t : ℕ) (nodes : List ℚ) (ps : List (List ℚ)), I nodes →
      profiles tk hour state net th de t nodes = .ok ps → ps.length = t ∧ ∀ p ∈ ps, I p := by
  intro t
  induction t with
  | zero => intro nodes ps _ h; cases h; exact ⟨rfl, by simp⟩
  | succ t ih =>
    intro nodes ps hI h
    unfold profiles at h
    split at h
    · cases h
    · rename_i new hn
      split at h
      · cases h
      · rename_i rest hr
        cases h
        have h1 := hstep _ _ hI hn
        obtain ⟨h2, h3⟩ := ih new rest h1 hr
        refine ⟨by simp [h2], fun p hp => ?_⟩
        rcases List.mem_cons.1 hp with h4 | h4
        · rw [h4]; exact h1
        · exact h3 p h4

theorem stepCount_range {tk : Tank} (h : 1 ≤ tk.number) (m : ℚ) :
    1 ≤ stepCount tk m ∧ stepCount tk m ≤ tk.number := by
  unfold stepCount
  have h1 : (1 : ℤ) ≤ max (min (tk.number : ℤ) ⌈m / tk.nodeMass⌉) 1 := le_max_right _ _
  have h2 : max (min (tk.number : ℤ) ⌈m / tk.nodeMass⌉) 1 ≤ (tk.number : ℤ) :=
    max_le (min_le_left _ _) (by exact_mod_cast h)
  omega

theorem newNodesTemp_profiles {tk : Tank} {hour : ℕ} {state : TankState} {net : NetTemps}
    {nodes : List ℚ} {th de : ℚ} {ps : List (List ℚ)}
    (h : newNodesTemp tk hour state net nodes th de = .ok (.profiles ps)) :
    nodes.length = tk.number ∧ tk.capacity ≠ 0 ∧ 1 ≤ tk.number ∧
      ¬ (nodes.sum = net.source * nodes.length ∧ state = .charging) ∧
      ∃ mf, massFlow state net th de (temp nodes (tk.number - 1)) (temp nodes 0) = .ok mf ∧
        profiles tk hour state net (th * 3600 / stepCount tk (mf * 3600))
          (de * 3600 / stepCount tk (mf * 3600)) (stepCount tk (mf * 3600)) nodes = .ok ps := by
  unfold newNodesTemp at h
  split_ifs at h with h1 h2 h3 h4
  · cases h
  · cases h
  · split at h
    · cases h
    · rename_i mf hm
      dsimp only at h
      split at h
      · cases h
      · rename_i ps' hp
        cases h
        exact ⟨by simpa using h1, h2, by omega, h3, mf, hm, hp⟩

theorem massFlow_discharging_nonneg {net : NetTemps} {th de b t m : ℚ}
    (h : massFlow .discharging net th de b t = .ok m) : 0 ≤ m := by
  unfold massFlow at h
  dsimp only at h
  split at h
  · cases h
  · split at h
    · cases h
    · split at h
      · cases h
      · cases h; exact abs_nonneg _

theorem ratio_range {m M : ℚ} (hM : 0 < M) (hm : 0 ≤ m) :
    0 ≤ min m M / M ∧ min m M / M ≤ 1 := by
  refine ⟨div_nonneg (le_min hm hM.le) hM.le, ?_⟩
  rw [div_le_one hM]; exact min_le_right _ _

theorem convex_bounds {r a b lo hi : ℚ} (h0 : 0 ≤ r) (h1 : r ≤ 1) (ha : lo ≤ a ∧ a ≤ hi)
    (hb : lo ≤ b ∧ b ≤ hi) : lo ≤ a + (r * (b - a) + 0) ∧ a + (r * (b - a) + 0) ≤ hi := by
  have e : a + (r * (b - a) + 0) = (1 - r) * a + r * b := by ring
  rw [e]
  constructor
  · nlinarith [mul_le_mul_of_nonneg_left ha.1 (sub_nonneg.2 h1), mul_le_mul_of_nonneg_left hb.1 h0]
  · nlinarith [mul_le_mul_of_nonneg_left ha.2 (sub_nonneg.2 h1), mul_le_mul_of_nonneg_left hb.2 h0]

/-! ### Heat content -/

theorem sum_telescope_down (T : ℕ → ℚ) (x : ℚ) (n : ℕ) :
    ((List.range (n + 1)).map (fun i => (if i = n then x else T (i + 1)) - T i)).sum = x - T 0 := by
  have h : ∀ k ≤ n, ((List.range k).map (fun i => (if i = n then x else T (i + 1)) - T i)).sum
      = T k - T 0 := by
    intro k
    induction k with
    | zero => intro _; simp
    | succ k ih =>
      intro hk
      rw [List.range_succ, List.map_append, List.sum_append, ih (by omega)]
      have : ¬ k = n := by omega
      simp [this]
  rw [List.range_succ, List.map_append, List.sum_append, h n (le_refl n)]
  simp

theorem sum_telescope_up (T : ℕ → ℚ) (x : ℚ) (c : ℕ) : ∀ n, c < n →
    ((List.range n).map (fun i => if i < c then 0 else if i = c then x - T i
      else T (i - 1) - T i)).sum = x - T (n - 1) := by
  have h0 : ∀ k ≤ c, ((List.range k).map (fun i => if i < c then (0 : ℚ) else if i = c then x - T i
      else T (i - 1) - T i)).sum = 0 := by
    intro k
    induction k with
    | zero => intro _; simp
    | succ k ih =>
      intro hk
      rw [List.range_succ, List.map_append, List.sum_append, ih (by omega)]
      have : k < c := by omega
      simp [this]
  intro n
  induction n with
  | zero => intro h; omega
  | succ n ih =>
    intro hc
    rw [List.range_succ, List.map_append, List.sum_append]
    rcases Nat.lt_succ_iff_lt_or_eq.1 hc with h | h
    · rw [ih h]
      have h1 : ¬ n < c := by omega
      have h2 : ¬ n = c := by omega
      simp [h1, h2]
    · subst h
      rw [h0 c (le_refl c)]
      simp

theorem sum_temps {nodes : List ℚ} {n : ℕ} (h : nodes.length = n) :
    ((List.range n).map (fun i => temp nodes i)).sum = nodes.sum := by
  subst h
  congr 1
  apply List.ext_getElem
  · simp
  · intro i h1 h2
    simp [temp_eq h2]

theorem sum_new {nodes : List ℚ} {n : ℕ} (hl : nodes.length = n) (r : ℚ) (f g : ℕ → ℚ)
    (h : ∀ i < n, f i = temp nodes i + r * g i) :
    ((List.range n).map f).sum = nodes.sum + r * ((List.range n).map g).sum := by
  have e : (List.range n).map f = (List.range n).map (fun i => temp nodes i + r * g i) :=
    List.map_congr_left (fun i hi => h i (by simpa using hi))
  rw [e, List.sum_map_add, sum_temps hl, List.sum_map_mul_left]

theorem safeDiv_ok {a b q : ℚ} (h : safeDiv a b = .ok q) : b ≠ 0 ∧ q = a / b := by
  unfold safeDiv at h
  split_ifs at h with hb
  cases h
  exact ⟨hb, rfl⟩

theorem sourceMass_ok {net : NetTemps} {th s cp : ℚ} (hcp : specificHeat net.source = .ok cp)
    (h : sourceMass net th = .ok s) : s * net.sourceDelta = th / (cp / 1000) := by
  unfold sourceMass at h
  rw [hcp] at h
  obtain ⟨h1, rfl⟩ := safeDiv_ok h
  have h2 : cp / 1000 ≠ 0 := left_ne_zero_of_mul h1
  have h3 := right_ne_zero_of_mul h1
  field_simp

theorem networkMass_ok {net : NetTemps} {de d cp : ℚ} (hcp : specificHeat net.flow = .ok cp)
    (h : networkMass net de = .ok d) : d * (net.flow - net.ret) = de / (cp / 1000) := by
  unfold networkMass at h
  rw [hcp] at h
  obtain ⟨h1, rfl⟩ := safeDiv_ok h
  have h2 : cp / 1000 ≠ 0 := left_ne_zero_of_mul h1
  have h3 := right_ne_zero_of_mul h1
  field_simp

theorem massFlow_charging_ok {net : NetTemps} {th de b t m cps cpf : ℚ}
    (hs : specificHeat net.source = .ok cps) (hf : specificHeat net.flow = .ok cpf)
    (h : massFlow .charging net th de b t = .ok m) :
    net.source - b ≠ 0 ∧ m = (th / (cps / 1000) - de / (cpf / 1000)) / (net.source - b) := by
  unfold massFlow at h
  dsimp only at h
  split at h
  · cases h
  · rename_i s h1
    split at h
    · cases h
    · rename_i d h2
      rw [sourceMass_ok hs h1, networkMass_ok hf h2] at h
      exact safeDiv_ok h

theorem massFlow_discharging_ok {net : NetTemps} {th de b t m cps cpf : ℚ}
    (hs : specificHeat net.source = .ok cps) (hf : specificHeat net.flow = .ok cpf)
    (h : massFlow .discharging net th de b t = .ok m) :
    t - net.ret ≠ 0 ∧ m = |(de / (cpf / 1000) - th / (cps / 1000)) / (t - net.ret)| := by
  unfold massFlow at h
  dsimp only at h
  split at h
  · cases h
  · rename_i d h2
    split at h
    · cases h
    · rename_i s h1
      rw [sourceMass_ok hs h1, networkMass_ok hf h2] at h
      split at h
      · cases h
      · rename_i x hx
        cases h
        obtain ⟨h3, rfl⟩ := safeDiv_ok hx
        exact ⟨h3, rfl⟩

/-! ### The offered energy -/

theorem stepEnergy_nonneg {tk : Tank} (hc : 0 ≤ tk.capacity) {state : TankState} {net : NetTemps}
    (hr : net.ret ≤ net.flow) {cp : ℚ} (hcp : 0 ≤ cp) (nodes : List ℚ) :
    0 ≤ stepEnergy tk state net cp nodes := by
  have hM : 0 ≤ tk.nodeMass := div_nonneg hc (Nat.cast_nonneg _)
  unfold stepEnergy
  split_ifs with h1 h2
  · exact mul_nonneg (mul_nonneg hM hcp) (by linarith [h1.2])
  · exact mul_nonneg (mul_nonneg hM hcp) (by linarith [h2.2])
  · exact le_refl _

theorem energyLoop_nonneg {tk : Tank} (hc : 0 ≤ tk.capacity) {hour : ℕ} {state : TankState}
    {net : NetTemps} (hr : net.ret ≤ net.flow) {cp : ℚ} (hcp : 0 ≤ cp) :
    ∀ (t : ℕ) (nodes : List ℚ) (e : ℚ),
      energyLoop tk hour state net cp t nodes = .ok e → 0 ≤ e := by
  intro t
  induction t with
  | zero => intro nodes e h; cases h; exact le_refl _
  | succ t ih =>
    intro nodes e h
    unfold energyLoop at h
    split at h
    · cases h
    · split at h
      · cases h
      · split at h
        · cases h
        · rename_i rest hr'
          cases h
          exact add_nonneg (stepEnergy_nonneg hc hr hcp nodes) (ih _ _ hr')

/-- An invariant of the profile under which nothing is offered. -/
theorem energyLoop_zero {tk : Tank} {hour : ℕ} {state : TankState} {net : NetTemps} {cp : ℚ}
    (I : List ℚ → Prop) (h0 : ∀ a, I a → stepEnergy tk state net cp a = 0)
    (hstep : ∀ a b cs k amb, I a → cps a = .ok cs → tk.kValue = .ok k → tk.ambTemp hour = .ok amb →
      euler tk ⟨tk.nodeMass, k, amb⟩ cs state a net = .ok b → I b) :
    ∀ (t : ℕ) (nodes : List ℚ) (e : ℚ), I nodes →
      energyLoop tk hour state net cp t nodes = .ok e → e = 0 := by
  intro t
  induction t with
  | zero => intro nodes e _ h; cases h; rfl
  | succ t ih =>
    intro nodes e hI h
    unfold energyLoop at h
    split at h
    · cases h
    · rename_i cs k amb he
      split at h
      · cases h
      · rename_i new hn
        split at h
        · cases h
        · rename_i rest hr'
          cases h
          obtain ⟨h1, h2, h3⟩ := env_ok he
          rw [h0 _ hI, ih _ _ (hstep _ _ _ _ _ hI h1 h2 h3 hn) hr', add_zero]

theorem maxEnergy_loop {tk : Tank} {hour : ℕ} {state : TankState} {net : NetTemps} {nodes : List ℚ}
    {e : ℚ} (h : maxEnergy tk hour state net nodes = .ok e) :
    e = 0 ∨ ∃ cp total, specificHeat net.source = .ok cp ∧
      energyLoop tk hour state net cp (tk.number - 1) nodes = .ok total ∧ e = total / 3600000 := by
  unfold maxEnergy at h
  split_ifs at h with h1 h2 h3 h4
  · cases h; exact .inl rfl
  · cases h; exact .inl rfl
  · cases h; exact .inl rfl
  · right
    split at h
    · cases h
    · split at h
      · cases h
      · rename_i cp hcp
        split at h
        · cases h
        · rename_i total ht
          cases h
          exact ⟨cp, total, hcp, ht, rfl⟩

theorem map_range_mem {n : ℕ} {f : ℕ → ℚ} {x : ℚ} (h : x ∈ (List.range n).map f) :
    ∃ i < n, x = f i := by
  obtain ⟨i, hi, rfl⟩ := List.mem_map.1 h
  exact ⟨i, by simpa using hi, rfl⟩

end Verif.Tank
