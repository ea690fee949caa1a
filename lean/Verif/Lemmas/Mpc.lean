import Verif.Model.Mpc

/-! # Helper lemmas about the predictive controller -/

set_option autoImplicit false

namespace Verif
namespace Mpc
variable {N : Type}

/-- What a successful `solve` did. -/
theorem solve_ok {S : MpcIn N} {g : ℕ → ℕ → Except PyErr Point} {hour a final : ℕ} {prev : Carry N}
    {r : MpcResults N} {c : Carry N} (h : solve S g hour a final prev = .ok (r, c)) :
    hour + 2 ≤ final ∧ ∃ p f nodes, g hour a = .ok p ∧
      tankFlows (S.tank.maxInOut 1 1 .charging prev.nodes) (S.tank.maxInOut 1 1 .discharging prev.nodes) p = .ok f ∧
      finalNodes S hour prev f = .ok nodes ∧ r = report S (hour + 1) p f nodes ∧ c = ⟨nodes⟩ := by
  unfold solve at h
  split at h
  · cases h
  · split at h
    · cases h
    · rename_i p hp
      split_ifs at h with hf
      split at h
      · cases h
      · rename_i f hfl
        split at h
        · cases h
        · rename_i nodes hn
          injection h with h
          injection h with h1 h2
          exact ⟨by omega, p, f, nodes, hp, hfl, hn, h1.symm, h2.symm⟩

theorem horizonEnd_le (S : MpcIn N) (hour : ℕ) : horizonEnd S hour ≤ 8759 ∧ horizonEnd S hour ≤ hour + S.horizon := by
  unfold horizonEnd; split_ifs <;> omega

/-- A result that comes from the optimiser's answer for the hour before `t`. -/
def Solved (S : MpcIn N) (g : ℕ → ℕ → Except PyErr Point) (t : ℕ) (r : MpcResults N) : Prop :=
  ∃ hour a p prev f nodes, t = hour + 1 ∧ g hour a = .ok p ∧
    tankFlows (S.tank.maxInOut 1 1 .charging prev) (S.tank.maxInOut 1 1 .discharging prev) p = .ok f ∧
    finalNodes S hour ⟨prev⟩ f = .ok nodes ∧ r = report S t p f nodes

theorem solved_of_solve {S : MpcIn N} {g : ℕ → ℕ → Except PyErr Point} {hour a final : ℕ} {prev : Carry N}
    {r : MpcResults N} {c : Carry N} (h : solve S g hour a final prev = .ok (r, c)) :
    Solved S g (hour + 1) r := by
  obtain ⟨_, p, f, nodes, h1, h2, h3, h4, _⟩ := solve_ok h
  exact ⟨hour, a, p, prev.nodes, f, nodes, rfl, h1, h2, h3, h4⟩

theorem hourStep_first {S : MpcIn N} {g : ℕ → ℕ → Except PyErr Point} {first : ℕ} {L L' : Lists N}
    (h : hourStep S g first first L = .ok L') :
    ∃ r n, L'.results = L.results ++ [opening S first, r] ∧ L'.next = L.next ++ [fresh S, n] ∧
      solve S g first 0 (horizonEnd S first) (fresh S) = .ok (r, n) := by
  unfold hourStep at h
  rw [if_pos (Or.inl rfl), if_pos rfl] at h
  split at h
  · cases h
  · rename_i r n hs
    injection h with h
    subst h
    exact ⟨r, n, by simp, by simp, hs⟩

theorem hourStep_last {S : MpcIn N} {g : ℕ → ℕ → Except PyErr Point} {first : ℕ} {L L' : Lists N}
    (hne : (8758 : ℕ) ≠ first) (h : hourStep S g first 8758 L = .ok L') :
    L'.results = L.results ++ [opening S first] ∧ L'.next = L.next ++ [fresh S] := by
  unfold hourStep at h
  rw [if_pos (Or.inr rfl), if_neg hne] at h
  injection h with h
  subst h
  exact ⟨rfl, rfl⟩

theorem hourStep_mid {S : MpcIn N} {g : ℕ → ℕ → Except PyErr Point} {first hour : ℕ} {L L' : Lists N}
    (h1 : hour ≠ first) (h2 : hour ≠ 8758) (h : hourStep S g first hour L = .ok L') :
    ∃ r n, L'.results = L.results ++ [r] ∧ L'.next = L.next ++ [n] ∧ Solved S g (hour + 1) r := by
  unfold hourStep at h
  rw [if_neg (by tauto)] at h
  dsimp only at h
  split at h
  · rename_i r n hs
    injection h with h
    subst h
    refine ⟨r, n, rfl, rfl, ?_⟩
    split at hs
    · cases hs
    · exact solved_of_solve hs
  · split at h
    · cases h
    · rename_i r n hs
      injection h with h
      subst h
      exact ⟨r, n, rfl, rfl, solved_of_solve hs⟩

/-- The loop after the first hour appends one result an hour, the one of hour 8758 being the opening
result of the run again. -/
theorem hours_ok {S : MpcIn N} {g : ℕ → ℕ → Except PyErr Point} {first : ℕ} :
    ∀ (k hour : ℕ) (L L' : Lists N), first < hour → hours S g first k hour L = .ok L' →
      ∃ rs : List (MpcResults N), L'.results = L.results ++ rs ∧ rs.length = k ∧
        ∀ i r, rs[i]? = some r →
          (hour + i ≠ 8758 → Solved S g (hour + i + 1) r) ∧ (hour + i = 8758 → r = opening S first)
  | 0, hour, L, L', _, h => by
    unfold hours at h
    injection h with h
    subst h
    exact ⟨[], by simp, rfl, by simp⟩
  | k + 1, hour, L, L', hlt, h => by
    unfold hours at h
    split at h
    · cases h
    · rename_i L1 hs
      obtain ⟨rs, hr, hl, hi⟩ := hours_ok k (hour + 1) L1 L' (by omega) h
      have hone : ∃ r, L1.results = L.results ++ [r] ∧
          (hour ≠ 8758 → Solved S g (hour + 1) r) ∧ (hour = 8758 → r = opening S first) := by
        by_cases h8 : hour = 8758
        · subst h8
          exact ⟨_, (hourStep_last (by omega) hs).1, fun hh => absurd rfl hh, fun _ => rfl⟩
        · obtain ⟨r, n, h1, _, h3⟩ := hourStep_mid (by omega) h8 hs
          exact ⟨r, h1, fun _ => h3, fun hh => absurd hh h8⟩
      obtain ⟨r0, h0, ha, hb⟩ := hone
      refine ⟨r0 :: rs, by rw [hr, h0]; simp, by simp [hl], ?_⟩
      intro i r hir
      cases i with
      | zero =>
        simp only [List.getElem?_cons_zero, Option.some.injEq] at hir
        subst hir
        exact ⟨ha, hb⟩
      | succ i =>
        simp only [List.getElem?_cons_succ] at hir
        have := hi i r hir
        rw [show hour + 1 + i = hour + (i + 1) by ring] at this
        exact this

/-- The list a run of at least two hours returns. -/
theorem run_shape {S : MpcIn N} {g : ℕ → ℕ → Except PyErr Point} {first n : ℕ} {rs : List (MpcResults N)}
    (hn : 2 ≤ n) (h : movingHorizon S g first n = .ok rs) :
    first + n ≤ 8760 ∧ rs.length = n ∧ rs[0]? = some (opening S first) ∧
      first + 2 ≤ horizonEnd S first ∧
      ∀ i r, 1 ≤ i → rs[i]? = some r →
        (first + i ≠ 8759 ∨ i = 1 → Solved S g (first + i) r) ∧
        (first + i = 8759 → 2 ≤ i → r = opening S first) := by
  unfold movingHorizon at h
  split_ifs at h with hy
  split at h
  · cases h
  · rename_i L hL
    injection h with h
    subst h
    obtain ⟨k, rfl⟩ : ∃ k, n = k + 2 := ⟨n - 2, by omega⟩
    simp only [show k + 2 - 1 = k + 1 by omega] at hL
    unfold hours at hL
    split at hL
    · cases hL
    · rename_i L1 hs
      obtain ⟨r1, n1, hr1, _, hsol⟩ := hourStep_first hs
      obtain ⟨rest, hr, hl, hi⟩ := hours_ok k (first + 1) L1 L (by omega) hL
      have hall : L.results = opening S first :: r1 :: rest := by rw [hr, hr1]; simp
      refine ⟨by omega, by rw [hall]; simp [hl], by rw [hall]; rfl, (solve_ok hsol).1, ?_⟩
      intro i r hi1 hir
      rw [hall] at hir
      obtain ⟨j, rfl⟩ : ∃ j, i = j + 1 := ⟨i - 1, by omega⟩
      rw [List.getElem?_cons_succ] at hir
      cases j with
      | zero =>
        simp only [List.getElem?_cons_zero, Option.some.injEq] at hir
        subst hir
        exact ⟨fun _ => solved_of_solve hsol, fun _ h2 => by omega⟩
      | succ j =>
        rw [List.getElem?_cons_succ] at hir
        have := hi j r hir
        refine ⟨fun hh => ?_, fun hh _ => this.2 (by omega)⟩
        have h3 := this.1 (by omega)
        rwa [show first + 1 + j + 1 = first + (j + 1 + 1) by ring] at h3

/-- A `solve` succeeds when its parts do; `Q` says which node temperatures are in order. -/
theorem solve_succeeds {S : MpcIn N} {g : ℕ → ℕ → Except PyErr Point} {hour a final : ℕ} {prev : Carry N}
    {Q : N → Prop} (hm : ∀ i t s nodes, Q nodes → ∃ v, S.tank.maxInOut i t s nodes = .ok v)
    (hn : S.tank.capacity ≠ 0 → ∀ i t s nodes c d, Q nodes → ∃ v, S.tank.newNodes i t s nodes c d = .ok v ∧ Q v)
    (he : S.aux.electric = true ∨ S.tank.capacity = 0) (hf : hour + 2 ≤ final)
    (hg : ∃ p, g hour a = .ok p) (hq : Q prev.nodes) :
    ∃ r c, solve S g hour a final prev = .ok (r, c) ∧ Q c.nodes := by
  obtain ⟨p, hp⟩ := hg
  obtain ⟨v0, hv0⟩ := hm hour hour .discharging prev.nodes hq
  obtain ⟨vc, hvc⟩ := hm 1 1 .charging prev.nodes hq
  obtain ⟨vd, hvd⟩ := hm 1 1 .discharging prev.nodes hq
  have hfl : ∃ f, tankFlows (.ok vc) (.ok vd) p = .ok f := by
    unfold tankFlows
    dsimp only
    split_ifs <;> exact ⟨_, rfl⟩
  obtain ⟨f, hfl⟩ := hfl
  have hnod : ∃ nodes, finalNodes S hour prev f = .ok nodes ∧ Q nodes := by
    unfold finalNodes
    by_cases hc : S.tank.capacity = 0
    · exact ⟨_, if_pos hc, hq⟩
    · rw [if_neg hc, if_pos (he.resolve_right hc)]
      exact hn hc _ _ _ _ _ _ hq
  obtain ⟨nodes, hnod, hq'⟩ := hnod
  refine ⟨report S (hour + 1) p f nodes, ⟨nodes⟩, ?_, hq'⟩
  unfold solve
  simp only [hv0, hp, if_neg (by omega : ¬ final < hour + 2), hvc, hvd, hfl, hnod]

/-- The loop succeeds if the optimiser solves every hour at one of its two attempts. -/
theorem hours_succeeds {S : MpcIn N} {g : ℕ → ℕ → Except PyErr Point} {first last : ℕ}
    {Q : N → Prop} (hm : ∀ i t s nodes, Q nodes → ∃ v, S.tank.maxInOut i t s nodes = .ok v)
    (hn : S.tank.capacity ≠ 0 → ∀ i t s nodes c d, Q nodes → ∃ v, S.tank.newNodes i t s nodes c d = .ok v ∧ Q v)
    (h0 : Q S.tank.initTemps) (he : S.aux.electric = true ∨ S.tank.capacity = 0) (hh : 2 ≤ S.horizon)
    (hg : ∀ hour, first < hour → hour < last → hour ≤ 8757 → (∃ p, g hour 0 = .ok p) ∨ (∃ p, g hour 1 = .ok p)) :
    ∀ (k hour : ℕ) (L : Lists N), first < hour → hour + k ≤ last → hour + k ≤ 8759 →
      L.next.length = hour - first + 1 → (∀ c ∈ L.next, Q c.nodes) → ∃ L', hours S g first k hour L = .ok L'
  | 0, _, L, _, _, _, _, _ => ⟨L, rfl⟩
  | k + 1, hour, L, h1, hlast, h2, h3, h4 => by
    have hadd : ∀ c : Carry N, Q c.nodes → ∀ c' ∈ L.next ++ [c], Q c'.nodes := by
      intro c hc c' hm'
      rcases List.mem_append.mp hm' with h | h
      · exact h4 c' h
      · rw [List.mem_singleton.mp h]
        exact hc
    have hstep : ∃ L1, hourStep S g first hour L = .ok L1 ∧ L1.next.length = hour + 1 - first + 1 ∧
        ∀ c ∈ L1.next, Q c.nodes := by
      unfold hourStep
      by_cases h8 : hour = 8758
      · rw [if_pos (Or.inr h8), if_neg (by omega)]
        exact ⟨_, rfl, by simp [h3]; omega, hadd _ h0⟩
      · rw [if_neg (by omega)]
        have hend : hour + 2 ≤ horizonEnd S hour := by
          unfold horizonEnd
          split_ifs <;> omega
        have hget : L.next[hour - first]? = some (L.next[hour - first]'(by omega)) := List.getElem?_eq_getElem _
        have hq := h4 _ (List.getElem_mem (by omega : hour - first < L.next.length))
        dsimp only
        rw [hget]
        dsimp only
        cases hs : solve S g hour 0 (horizonEnd S hour) (L.next[hour - first]'(by omega)) with
        | ok v =>
          obtain ⟨r, c⟩ := v
          have hgo : ∃ p, g hour 0 = .ok p := by
            unfold solve at hs
            split at hs
            · cases hs
            · split at hs
              · cases hs
              · rename_i p hp
                exact ⟨p, hp⟩
          obtain ⟨r', c', hok, hq'⟩ := solve_succeeds hm hn he hend hgo hq
          rw [hs] at hok
          cases hok
          exact ⟨_, rfl, by simp [h3]; omega, hadd _ hq'⟩
        | error e =>
          have hg1 : ∃ p, g hour 1 = .ok p := by
            rcases hg hour h1 (by omega) (by omega) with hg0 | hg1
            · obtain ⟨r, c, hok, -⟩ := solve_succeeds hm hn he hend hg0 hq
              rw [hs] at hok
              cases hok
            · exact hg1
          obtain ⟨r, c, hok, hq'⟩ := solve_succeeds hm hn he hend hg1 (prev := fresh S) h0
          simp only [hok]
          exact ⟨_, rfl, by simp [h3]; omega, hadd _ hq'⟩
    obtain ⟨L1, hL1, hlen, hall⟩ := hstep
    unfold hours
    rw [hL1]
    exact hours_succeeds hm hn h0 he hh hg k (hour + 1) L1 (by omega) (by omega) (by omega) hlen hall

theorem fill_length {cap : ℕ → Except PyErr ℚ} {first : ℕ} :
    ∀ (k timestep : ℕ) (xs ys : List ℚ), fill cap first k timestep xs = .ok ys →
      ys.length = xs.length ∧ (0 < k → timestep - first + k ≤ xs.length ∨ timestep < first)
  | 0, _, xs, ys, h => by
    injection h with h
    subst h
    exact ⟨rfl, by omega⟩
  | k + 1, timestep, xs, ys, h => by
    unfold fill at h
    split_ifs at h with ht
    split at h
    · cases h
    · split at h
      · cases h
      · rename_i xs' hst
        unfold store at hst
        split_ifs at hst with hlt
        injection hst with hst
        subst hst
        obtain ⟨h1, h2⟩ := fill_length k (timestep + 1) _ ys h
        rw [List.length_set] at h1 h2
        refine ⟨h1, fun _ => ?_⟩
        rcases Nat.eq_zero_or_pos k with rfl | hk
        · omega
        · have := h2 hk
          omega

theorem fill_succeeds {cap : ℕ → Except PyErr ℚ} {first : ℕ} (hc : ∀ t < 8760, ∃ v, cap t = .ok v) :
    ∀ (k timestep : ℕ) (xs : List ℚ), first ≤ timestep → timestep + k ≤ 8760 →
      timestep - first + k ≤ xs.length → ∃ ys, fill cap first k timestep xs = .ok ys
  | 0, _, xs, _, _, _ => ⟨xs, rfl⟩
  | k + 1, timestep, xs, h1, h2, h3 => by
    obtain ⟨v, hv⟩ := hc timestep (by omega)
    unfold fill
    rw [if_pos (by omega), hv]
    simp only [store, if_pos (by omega : timestep - first < xs.length)]
    exact fill_succeeds hc k (timestep + 1) _ (by omega) (by omega) (by rw [List.length_set]; omega)

/-- What the loop writes. -/
theorem fill_get {cap : ℕ → Except PyErr ℚ} {first : ℕ} :
    ∀ (k timestep : ℕ) (xs ys : List ℚ), first ≤ timestep → fill cap first k timestep xs = .ok ys →
      (∀ i, i < timestep - first → ys[i]? = xs[i]?) ∧
      (∀ t, timestep ≤ t → t < timestep + k → ∃ v, cap t = .ok v ∧ ys[t - first]? = some v) ∧
      (∀ i, timestep - first + k ≤ i → ys[i]? = xs[i]?)
  | 0, _, xs, ys, _, h => by
    injection h with h
    subst h
    exact ⟨fun _ _ => rfl, fun t h1 h2 => by omega, fun _ _ => rfl⟩
  | k + 1, timestep, xs, ys, hle, h => by
    unfold fill at h
    split_ifs at h with ht
    split at h
    · cases h
    · rename_i v hv
      split at h
      · cases h
      · rename_i xs' hst
        unfold store at hst
        split_ifs at hst with hlt
        injection hst with hst
        subst hst
        obtain ⟨h1, h2, h3⟩ := fill_get k (timestep + 1) _ ys (by omega) h
        refine ⟨fun i hi => ?_, fun t ha hb => ?_, fun i hi => ?_⟩
        · rw [h1 i (by omega), List.getElem?_set_ne (by omega)]
        · by_cases hte : t = timestep
          · subst hte
            refine ⟨v, hv, ?_⟩
            rw [h1 _ (by omega), List.getElem?_set_self hlt]
          · exact h2 t (by omega) (by omega)
        · rw [h3 i (by omega), List.getElem?_set_ne (by omega)]

end Mpc
end Verif
