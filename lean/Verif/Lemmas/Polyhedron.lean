import Mathlib.Algebra.Order.Field.Rat
import Mathlib.LinearAlgebra.Span.Basic
import Mathlib.RingTheory.Noetherian.Basic
import Mathlib.RingTheory.SimpleRing.Principal
import Mathlib.LinearAlgebra.FiniteDimensional.Basic
import Mathlib.Algebra.BigOperators.Group.Finset.Basic
import Mathlib.Tactic.Linarith
import Mathlib.Tactic.FieldSimp
import Mathlib.Tactic.Ring

/-!
# A linear function bounded below on a polyhedron has a least value there

By elimination of directions (Fourier and Motzkin), so that it holds over the rationals.
-/

set_option autoImplicit false

namespace Verif.Polyhedron
variable {V : Type} [AddCommGroup V] [Module ℚ V]

/-- The point satisfies all of these inequalities, each `0 ≤ f v + a`. -/
def Sat (P : List ((V →ₗ[ℚ] ℚ) × ℚ)) (v : V) : Prop := ∀ c ∈ P, 0 ≤ c.1 v + c.2

/-- The greatest member of a list. -/
theorem greatest (L : List ℚ) (h : L ≠ []) : ∃ m ∈ L, ∀ l ∈ L, l ≤ m := by
  induction L with
  | nil => exact absurd rfl h
  | cons a L ih =>
    by_cases hL : L = []
    · exact ⟨a, by simp, by simp [hL]⟩
    · obtain ⟨m, hm, hb⟩ := ih hL
      rcases le_total a m with h | h
      · exact ⟨m, by simp [hm], fun l hl => (List.mem_cons.mp hl).elim (fun e => e ▸ h) (hb l)⟩
      · exact ⟨a, by simp, fun l hl => (List.mem_cons.mp hl).elim (fun e => e.le) fun h' => (hb l h').trans h⟩

/-- Some number lies between finitely many lower and upper bounds. -/
theorem between (L U : List ℚ) (h : ∀ l ∈ L, ∀ u ∈ U, l ≤ u) : ∃ t, (∀ l ∈ L, l ≤ t) ∧ ∀ u ∈ U, t ≤ u := by
  by_cases hL : L = []
  · subst hL
    by_cases hU : U = []
    · exact ⟨0, by simp, by simp [hU]⟩
    · obtain ⟨m, hm, hb⟩ := greatest (U.map (-·)) (by simpa using hU)
      refine ⟨-m, by simp, fun u hu => ?_⟩
      have := hb (-u) (List.mem_map.mpr ⟨u, hu, rfl⟩)
      linarith
  · obtain ⟨m, hm, hb⟩ := greatest L hL
    exact ⟨m, hb, h m hm⟩

/-- The inequalities that remain when a direction is eliminated. -/
def elim (P : List ((V →ₗ[ℚ] ℚ) × ℚ)) (d : V) : List ((V →ₗ[ℚ] ℚ) × ℚ) :=
  P.filter (fun c => c.1 d = 0) ++
  ((P.filter (fun c => 0 < c.1 d)).flatMap fun p => (P.filter (fun c => c.1 d < 0)).map fun q =>
    ((-(q.1 d)) • p.1 + (p.1 d) • q.1, -(q.1 d) * p.2 + p.1 d * q.2))

theorem sat_elim (P : List ((V →ₗ[ℚ] ℚ) × ℚ)) (d v : V) : Sat (elim P d) v ↔ ∃ t : ℚ, Sat P (v + t • d) := by
  have ev : ∀ (c : (V →ₗ[ℚ] ℚ) × ℚ) (t : ℚ), c.1 (v + t • d) + c.2 = c.1 v + c.2 + t * c.1 d := by
    intro c t
    rw [map_add, map_smul, smul_eq_mul]
    ring
  constructor
  · intro h
    obtain ⟨t, h1, h2⟩ := between ((P.filter (fun c => 0 < c.1 d)).map fun c => -(c.1 v + c.2) / c.1 d)
      ((P.filter (fun c => c.1 d < 0)).map fun c => -(c.1 v + c.2) / c.1 d) (by
        intro l hl u hu
        obtain ⟨p, hp, rfl⟩ := List.mem_map.mp hl
        obtain ⟨q, hq, rfl⟩ := List.mem_map.mp hu
        have hp' : 0 < p.1 d := by simpa using (List.mem_filter.mp hp).2
        have hq' : q.1 d < 0 := by simpa using (List.mem_filter.mp hq).2
        have := h _ (List.mem_append_right _ (List.mem_flatMap.mpr ⟨p, hp, List.mem_map.mpr ⟨q, hq, rfl⟩⟩))
        simp only [LinearMap.add_apply, LinearMap.smul_apply, smul_eq_mul] at this
        rw [← neg_div_neg_eq (-(q.1 v + q.2)), div_le_div_iff₀ hp' (by linarith)]
        linarith)
    refine ⟨t, fun c hc => ?_⟩
    rw [ev]
    rcases lt_trichotomy (c.1 d) 0 with hd | hd | hd
    · have := h2 _ (List.mem_map.mpr ⟨c, List.mem_filter.mpr ⟨hc, by simpa using hd⟩, rfl⟩)
      rw [← neg_div_neg_eq, le_div_iff₀ (by linarith)] at this
      linarith
    · have := h c (List.mem_append_left _ (List.mem_filter.mpr ⟨hc, by simpa using hd⟩))
      rw [hd, mul_zero, add_zero]
      exact this
    · have := h1 _ (List.mem_map.mpr ⟨c, List.mem_filter.mpr ⟨hc, by simpa using hd⟩, rfl⟩)
      rw [div_le_iff₀ hd] at this
      linarith
  · rintro ⟨t, ht⟩ c hc
    rcases List.mem_append.mp hc with hc | hc
    · obtain ⟨hc, hd⟩ := List.mem_filter.mp hc
      have hd : c.1 d = 0 := by simpa using hd
      have := ht c hc
      rw [ev, hd, mul_zero, add_zero] at this
      exact this
    · obtain ⟨p, hp, hc⟩ := List.mem_flatMap.mp hc
      obtain ⟨q, hq, rfl⟩ := List.mem_map.mp hc
      obtain ⟨hp, hp'⟩ := List.mem_filter.mp hp
      obtain ⟨hq, hq'⟩ := List.mem_filter.mp hq
      have hp' : 0 < p.1 d := by simpa using hp'
      have hq' : q.1 d < 0 := by simpa using hq'
      have a := ht p hp
      have b := ht q hq
      rw [ev] at a b
      simp only [LinearMap.add_apply, LinearMap.smul_apply, smul_eq_mul]
      have h1 := mul_nonneg (neg_nonneg.mpr hq'.le) a
      have h2 := mul_nonneg hp'.le b
      linarith

theorem sat_elims (P : List ((V →ₗ[ℚ] ℚ) × ℚ)) (ds : List V) :
    ∃ Q : List ((V →ₗ[ℚ] ℚ) × ℚ), ∀ v, Sat Q v ↔ ∃ w ∈ Submodule.span ℚ {d | d ∈ ds}, Sat P (v + w) := by
  induction ds with
  | nil =>
    refine ⟨P, fun v => ⟨fun h => ⟨0, Submodule.zero_mem _, by rwa [add_zero]⟩, ?_⟩⟩
    rintro ⟨w, hw, h⟩
    have : ({d | d ∈ ([] : List V)} : Set V) = ∅ := by ext; simp
    rw [this, Submodule.span_empty, Submodule.mem_bot] at hw
    rwa [hw, add_zero] at h
  | cons d ds ih =>
    obtain ⟨Q, hQ⟩ := ih
    have e : ({x | x ∈ d :: ds} : Set V) = insert d {x | x ∈ ds} := by ext; simp
    refine ⟨elim Q d, fun v => ?_⟩
    rw [sat_elim, e]
    constructor
    · rintro ⟨t, ht⟩
      obtain ⟨w, hw, h⟩ := (hQ _).mp ht
      exact ⟨t • d + w, Submodule.mem_span_insert.mpr ⟨t, w, hw, rfl⟩, by rwa [← add_assoc]⟩
    · rintro ⟨w, hw, h⟩
      obtain ⟨t, z, hz, rfl⟩ := Submodule.mem_span_insert.mp hw
      exact ⟨t, (hQ _).mpr ⟨z, hz, by rwa [add_assoc]⟩⟩

/-- A linear function bounded below on a polyhedron that is not empty has a least value there. -/
theorem attained [Module.Finite ℚ V] (P : List ((V →ₗ[ℚ] ℚ) × ℚ)) (c : V →ₗ[ℚ] ℚ) {v₀ : V} (h0 : Sat P v₀) {K : ℚ}
    (hK : ∀ v, Sat P v → K ≤ c v) : ∃ v, Sat P v ∧ ∀ u, Sat P u → c v ≤ c u := by
  by_cases hc : ∃ e, c e ≠ 0
  swap
  · push Not at hc
    exact ⟨v₀, h0, fun u _ => by rw [hc, hc]⟩
  obtain ⟨e', he'⟩ := hc
  obtain ⟨e, he⟩ : ∃ e, c e = 1 := ⟨(c e')⁻¹ • e', by rw [map_smul, smul_eq_mul, inv_mul_cancel₀ he']⟩
  obtain ⟨ds, hds⟩ : (LinearMap.ker c).FG := IsNoetherian.noetherian _
  obtain ⟨Q, hQ⟩ := sat_elims P ds.toList
  have hker : Submodule.span ℚ {d | d ∈ ds.toList} = LinearMap.ker c := by
    rw [← hds]
    congr 1
    ext
    simp
  rw [hker] at hQ
  have key : ∀ z : ℚ, Sat Q (z • e) ↔ ∃ v, Sat P v ∧ c v = z := by
    intro z
    rw [hQ]
    constructor
    · rintro ⟨w, hw, h⟩
      refine ⟨_, h, ?_⟩
      rw [map_add, LinearMap.mem_ker.mp hw, map_smul, he, smul_eq_mul]
      ring
    · rintro ⟨v, hv, rfl⟩
      refine ⟨v - c v • e, ?_, by rwa [add_sub_cancel]⟩
      rw [LinearMap.mem_ker, map_sub, map_smul, he, smul_eq_mul]
      ring
  have one : ∀ z : ℚ, Sat Q (z • e) ↔ ∀ f ∈ Q, 0 ≤ z * f.1 e + f.2 := by
    intro z
    unfold Sat
    simp only [map_smul, smul_eq_mul]
  have at0 := (one _).mp ((key _).mpr ⟨v₀, h0, rfl⟩)
  have hne : (Q.filter (fun f => 0 < f.1 e)).map (fun f => -f.2 / f.1 e) ≠ [] := by
    intro h
    rw [List.map_eq_nil_iff, List.filter_eq_nil_iff] at h
    have low : Sat Q ((min (c v₀) (K - 1)) • e) := by
      refine (one _).mpr fun f hf => ?_
      have h1 : f.1 e ≤ 0 := by simpa using h f hf
      have h2 := at0 f hf
      have := mul_nonneg_of_nonpos_of_nonpos (sub_nonpos.mpr (min_le_left (c v₀) (K - 1))) h1
      linarith
    obtain ⟨v, hv, e⟩ := (key _).mp low
    have := hK v hv
    have := min_le_right (c v₀) (K - 1)
    linarith
  obtain ⟨m, hm, hb⟩ := greatest _ hne
  obtain ⟨g, hg, rfl⟩ := List.mem_map.mp hm
  obtain ⟨hgQ, hpos⟩ := List.mem_filter.mp hg
  have hpos : 0 < g.1 e := by simpa using hpos
  have least : ∀ u, Sat P u → -g.2 / g.1 e ≤ c u := by
    intro u hu
    have := (one _).mp ((key _).mpr ⟨u, hu, rfl⟩) g hgQ
    rw [div_le_iff₀ hpos]
    linarith
  have hsat : Sat Q ((-g.2 / g.1 e) • e) := by
    refine (one _).mpr fun f hf => ?_
    rcases lt_or_ge 0 (f.1 e) with h1 | h1
    · have := hb _ (List.mem_map.mpr ⟨f, List.mem_filter.mpr ⟨hf, by simpa using h1⟩, rfl⟩)
      rw [div_le_iff₀ h1] at this
      linarith
    · have h2 := at0 f hf
      have := mul_nonneg_of_nonpos_of_nonpos (sub_nonpos.mpr (least v₀ h0)) h1
      linarith
  obtain ⟨v, hv, e1⟩ := (key _).mp hsat
  exact ⟨v, hv, fun u hu => by rw [e1]; exact least u hu⟩

/-- A linear function plus a number. -/
def Aff (f : V → ℚ) : Prop := ∃ (l : V →ₗ[ℚ] ℚ) (a : ℚ), ∀ v, f v = l v + a

theorem Aff.const (a : ℚ) : Aff fun _ : V => a := ⟨0, a, fun v => by simp⟩

theorem Aff.add {f g : V → ℚ} : Aff f → Aff g → Aff fun v => f v + g v
  | ⟨l, a, h⟩, ⟨m, b, k⟩ => ⟨l + m, a + b, fun v => by dsimp only; rw [h, k, LinearMap.add_apply]; ring⟩

theorem Aff.sub {f g : V → ℚ} : Aff f → Aff g → Aff fun v => f v - g v
  | ⟨l, a, h⟩, ⟨m, b, k⟩ => ⟨l - m, a - b, fun v => by dsimp only; rw [h, k, LinearMap.sub_apply]; ring⟩

theorem Aff.const_mul (c : ℚ) {f : V → ℚ} : Aff f → Aff fun v => c * f v
  | ⟨l, a, h⟩ => ⟨c • l, c * a, fun v => by dsimp only; rw [h, LinearMap.smul_apply, smul_eq_mul]; ring⟩

theorem Aff.mul_const (c : ℚ) {f : V → ℚ} : Aff f → Aff fun v => f v * c
  | ⟨l, a, h⟩ => ⟨c • l, c * a, fun v => by dsimp only; rw [h, LinearMap.smul_apply, smul_eq_mul]; ring⟩

theorem Aff.div_const (c : ℚ) {f : V → ℚ} (hf : Aff f) : Aff fun v => f v / c := by
  simp only [div_eq_mul_inv]
  exact hf.mul_const _

theorem Aff.sum {ι : Type} (s : Finset ι) {f : ι → V → ℚ} (h : ∀ i ∈ s, Aff (f i)) : Aff fun v => ∑ i ∈ s, f i v := by
  classical
  induction s using Finset.induction_on with
  | empty => simpa using Aff.const (V := V) 0
  | insert i s hi ih =>
    simp only [Finset.sum_insert hi]
    exact (h i (by simp)).add (ih fun j hj => h j (by simp [hj]))

/-- A polyhedron. -/
def Poly (p : V → Prop) : Prop := ∃ P : List ((V →ₗ[ℚ] ℚ) × ℚ), ∀ v, p v ↔ Sat P v

theorem Poly.le {f g : V → ℚ} : Aff f → Aff g → Poly fun v => f v ≤ g v
  | ⟨l, a, h⟩, ⟨m, b, k⟩ => ⟨[(m - l, b - a)], fun v => by
    unfold Sat
    simp only [List.mem_singleton, forall_eq, LinearMap.sub_apply]
    rw [h, k]
    constructor <;> intro h <;> linarith⟩

theorem Poly.and {p q : V → Prop} : Poly p → Poly q → Poly fun v => p v ∧ q v
  | ⟨P, h⟩, ⟨Q, k⟩ => ⟨P ++ Q, fun v => by
    dsimp only
    rw [h, k]
    unfold Sat
    simp only [List.forall_mem_append]⟩

theorem Poly.eq {f g : V → ℚ} (hf : Aff f) (hg : Aff g) : Poly fun v => f v = g v := by
  simp only [le_antisymm_iff]
  exact (Poly.le hf hg).and (Poly.le hg hf)

theorem Poly.all {α : Type} (l : List α) {p : α → V → Prop} (h : ∀ a ∈ l, Poly (p a)) : Poly fun v => ∀ a ∈ l, p a v := by
  induction l with
  | nil => exact ⟨[], fun v => by simp [Sat]⟩
  | cons a l ih =>
    simp only [List.forall_mem_cons]
    exact (h a (by simp)).and (ih fun b hb => h b (by simp [hb]))

/-- The same for polyhedra and functions described by properties. -/
theorem Poly.attained [Module.Finite ℚ V] {p : V → Prop} (hp : Poly p) {f : V → ℚ} (hf : Aff f) (h0 : ∃ v, p v) {K : ℚ}
    (hK : ∀ v, p v → K ≤ f v) : ∃ v, p v ∧ ∀ u, p u → f v ≤ f u := by
  obtain ⟨P, hP⟩ := hp
  obtain ⟨l, a, hl⟩ := hf
  obtain ⟨v₀, h0⟩ := h0
  obtain ⟨v, hv, hmin⟩ := Polyhedron.attained P l ((hP _).mp h0) (K := K - a) fun v hv => by
    have := hK v ((hP _).mpr hv)
    rw [hl] at this
    linarith
  refine ⟨v, (hP _).mpr hv, fun u hu => ?_⟩
  rw [hl, hl]
  have := hmin u ((hP _).mp hu)
  linarith

end Verif.Polyhedron
