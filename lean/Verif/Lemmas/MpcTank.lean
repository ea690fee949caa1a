import Verif.Lemmas.Mpc

/-! # Helper lemmas: how the predictive controller hands the tank from one hour to the next -/

set_option autoImplicit false

namespace Verif
namespace Mpc
variable {N : Type}

/-- `r` is the result of hour `t`, and the tank it starts from is the one `before` left, or on the second
attempt the tank of the start of the run. -/
def FollowsOn (S : MpcIn N) (g : ℕ → ℕ → Except PyErr Point) (t : ℕ) (before r : MpcResults N) : Prop :=
  ∃ hour a p prev f nodes, t = hour + 1 ∧ g hour a = .ok p ∧
    (a = 0 ∧ before.ts.finalNodesTemp = some prev ∨ a = 1 ∧ prev = S.tank.initTemps) ∧
    tankFlows (S.tank.maxInOut 1 1 .charging prev) (S.tank.maxInOut 1 1 .discharging prev) p = .ok f ∧
    finalNodes S hour ⟨prev⟩ f = .ok nodes ∧ r = report S t p f nodes

/-- The loop invariant before hour `hour`: the two lists run in parallel, and every result follows on
from the one before it. -/
structure Chain (S : MpcIn N) (g : ℕ → ℕ → Except PyErr Point) (first hour : ℕ) (L : Lists N) : Prop where
  len : L.results.length = hour - first + 1
  len' : L.next.length = hour - first + 1
  linked : ∀ (j : ℕ) (b : MpcResults N) (c : Carry N), L.results[j]? = some b → L.next[j]? = some c → b.ts.finalNodesTemp = some c.nodes
  steps : ∀ (i : ℕ) (b r : MpcResults N), L.results[i]? = some b → L.results[i + 1]? = some r → first + i ≠ 8758 →
    FollowsOn S g (first + i + 1) b r

theorem followsOn_of_solve {S : MpcIn N} {g : ℕ → ℕ → Except PyErr Point} {hour a final : ℕ} {prev : Carry N}
    {b r : MpcResults N} {c : Carry N} (h : solve S g hour a final prev = .ok (r, c))
    (hp : a = 0 ∧ b.ts.finalNodesTemp = some prev.nodes ∨ a = 1 ∧ prev.nodes = S.tank.initTemps) :
    FollowsOn S g (hour + 1) b r ∧ r.ts.finalNodesTemp = some c.nodes := by
  obtain ⟨_, p, f, nodes, h1, h2, h3, h4, h5⟩ := solve_ok h
  subst h4 h5
  exact ⟨⟨hour, a, p, prev.nodes, f, nodes, rfl, h1, hp, h2, h3, rfl⟩, rfl⟩

/-- Appending one pair keeps the invariant. -/
theorem Chain.snoc {S : MpcIn N} {g : ℕ → ℕ → Except PyErr Point} {first hour : ℕ} {L : Lists N}
    (hc : Chain S g first hour L) (hlt : first < hour) {r : MpcResults N} {c : Carry N}
    (hl : r.ts.finalNodesTemp = some c.nodes)
    (hs : ∀ b, L.results[hour - first]? = some b → hour ≠ 8758 → FollowsOn S g (hour + 1) b r) :
    Chain S g first (hour + 1) ⟨L.results ++ [r], L.next ++ [c]⟩ := by
  have h1 := hc.len
  have h2 := hc.len'
  refine ⟨by simp only [List.length_append, List.length_singleton]; omega,
    by simp only [List.length_append, List.length_singleton]; omega, ?_, ?_⟩
  · intro j b c' hb hc'
    by_cases hj : j < L.results.length
    · rw [List.getElem?_append_left hj] at hb
      rw [List.getElem?_append_left (by omega)] at hc'
      exact hc.linked j b c' hb hc'
    · have hj' : j = L.results.length := by
        have := (List.getElem?_eq_some_iff.mp hb).1
        simp only [List.length_append, List.length_singleton] at this
        omega
      subst hj'
      rw [List.getElem?_concat_length] at hb
      rw [h1, ← h2, List.getElem?_concat_length] at hc'
      cases Option.some.inj hb
      cases Option.some.inj hc'
      exact hl
  · intro i b r' hb hr' hne
    by_cases hi : i + 1 < L.results.length
    · rw [List.getElem?_append_left hi] at hr'
      rw [List.getElem?_append_left (by omega)] at hb
      exact hc.steps i b r' hb hr' hne
    · have hi' : i + 1 = L.results.length := by
        have := (List.getElem?_eq_some_iff.mp hr').1
        simp only [List.length_append, List.length_singleton] at this
        omega
      rw [hi', List.getElem?_concat_length] at hr'
      cases Option.some.inj hr'
      rw [List.getElem?_append_left (by omega)] at hb
      have hi2 : i = hour - first := by omega
      subst hi2
      have := hs b hb (by omega)
      rwa [show first + (hour - first) + 1 = hour + 1 by omega]

/-- One hour keeps the invariant. -/
theorem Chain.step {S : MpcIn N} {g : ℕ → ℕ → Except PyErr Point} {first hour : ℕ} {L L' : Lists N}
    (hc : Chain S g first hour L) (hlt : first < hour) (h : hourStep S g first hour L = .ok L') :
    Chain S g first (hour + 1) L' := by
  by_cases h8 : hour = 8758
  · subst h8
    unfold hourStep at h
    rw [if_pos (Or.inr rfl), if_neg (by omega)] at h
    cases Except.ok.inj h
    exact hc.snoc hlt rfl (fun _ _ hne => absurd rfl hne)
  · unfold hourStep at h
    rw [if_neg (by omega)] at h
    dsimp only at h
    split at h
    · rename_i r n hs
      cases Except.ok.inj h
      split at hs
      · cases hs
      · rename_i prev hprev
        have hb : ∃ b, L.results[hour - first]? = some b := by
          have := hc.len
          exact ⟨_, List.getElem?_eq_getElem (by omega)⟩
        obtain ⟨b, hb⟩ := hb
        have hlk := hc.linked _ b prev hb hprev
        have := followsOn_of_solve (b := b) hs (Or.inl ⟨rfl, hlk⟩)
        refine hc.snoc hlt this.2 (fun b' hb' _ => ?_)
        rw [hb] at hb'
        cases Option.some.inj hb'
        exact this.1
    · split at h
      · cases h
      · rename_i r n hs
        cases Except.ok.inj h
        have : ∀ b : MpcResults N, _ := fun b => followsOn_of_solve (b := b) hs (Or.inr ⟨rfl, rfl⟩)
        exact hc.snoc hlt (this r).2 (fun b' _ _ => (this b').1)

theorem Chain.hours {S : MpcIn N} {g : ℕ → ℕ → Except PyErr Point} {first : ℕ} :
    ∀ (k hour : ℕ) (L L' : Lists N), first < hour → Chain S g first hour L → hours S g first k hour L = .ok L' →
      Chain S g first (hour + k) L'
  | 0, hour, L, L', _, hc, h => by
    unfold Mpc.hours at h
    cases Except.ok.inj h
    exact hc
  | k + 1, hour, L, L', hlt, hc, h => by
    unfold Mpc.hours at h
    split at h
    · cases h
    · rename_i L1 hs
      have := Chain.hours k (hour + 1) L1 L' (by omega) (hc.step hlt hs) h
      rwa [show hour + 1 + k = hour + (k + 1) by ring] at this

/-- Every result of a run follows on from the one before it, except the one repeated at the end of the
year. -/
theorem run_chain {S : MpcIn N} {g : ℕ → ℕ → Except PyErr Point} {first n i : ℕ} {rs : List (MpcResults N)}
    {b r : MpcResults N} (hn : 2 ≤ n) (h : movingHorizon S g first n = .ok rs)
    (hb : rs[i]? = some b) (hr : rs[i + 1]? = some r) (h8 : first + (i + 1) ≠ 8759) :
    FollowsOn S g (first + (i + 1)) b r := by
  unfold movingHorizon at h
  split_ifs at h with hy
  split at h
  · cases h
  · rename_i L hL
    cases Except.ok.inj h
    obtain ⟨k, rfl⟩ : ∃ k, n = k + 2 := ⟨n - 2, by omega⟩
    rw [show k + 2 - 1 = k + 1 by omega] at hL
    unfold Mpc.hours at hL
    split at hL
    · cases hL
    · rename_i L1 hs
      obtain ⟨r1, n1, hr1, hn1, hsol⟩ := hourStep_first hs
      have hf := followsOn_of_solve (b := opening S first) hsol (Or.inl ⟨rfl, rfl⟩)
      have hc1 : Chain S g first (first + 1) L1 := by
        refine ⟨by rw [hr1]; simp, by rw [hn1]; simp, ?_, ?_⟩
        · intro j b c hb hc
          rw [hr1] at hb
          rw [hn1] at hc
          match j with
          | 0 => cases Option.some.inj hb; cases Option.some.inj hc; rfl
          | 1 => cases Option.some.inj hb; cases Option.some.inj hc; exact hf.2
          | j + 2 => simp at hb
        · intro j b c hb hc _
          rw [hr1] at hb hc
          match j with
          | 0 => cases Option.some.inj hb; cases Option.some.inj hc; exact hf.1
          | j + 1 => simp at hc
      have := (Chain.hours k (first + 1) L1 L (by omega) hc1 hL).steps i b r hb hr (by omega)
      rwa [show first + (i + 1) = first + i + 1 by ring]

end Mpc
end Verif
