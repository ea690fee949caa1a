import Verif.Model.Figures
import Verif.Lemmas.ListM
import Mathlib.Tactic.Linarith
import Mathlib.Tactic.NormNum

/-!
# Lemmas about the figures
-/

set_option autoImplicit false

namespace Verif
namespace Figures
open FixedOrder
variable {N : Type} {α : Type}

theorem column_ok {P : Plot N} (h : P.results.length = P.timesteps) (f : Results N → α) :
    column P f = .ok (P.results.map f) := by
  unfold column
  rw [← h, mapM_ok_iff, List.forall₂_iff_get]
  refine ⟨by simp, fun i h1 h2 => ?_⟩
  have hi : i < P.results.length := by simpa using h1
  simp only [List.get_eq_getElem, List.getElem_range, List.getElem_map, List.getElem?_eq_getElem hi]

theorem slice_get (xs : List α) (a n k : ℕ) :
    (Tools.slice xs a (a + n))[k]? = if k < n then xs[a + k]? else none := by
  unfold Tools.slice
  rw [List.getElem?_drop, List.getElem?_take]
  by_cases hk : k < n
  · rw [if_pos (by omega), if_pos hk]
  · rw [if_neg (by omega), if_neg hk]

theorem slice_length {xs : List α} {a n : ℕ} (h : a + n ≤ xs.length) :
    (Tools.slice xs a (a + n)).length = n := by
  unfold Tools.slice
  rw [List.length_drop, List.length_take]
  omega

/-- What is plotted: label `start + k` with the `k`-th value. -/
theorem points_get {start n : ℕ} {xs : List α} {pts : List (ℕ × α)} (h : points start n xs = .ok pts) (k : ℕ) :
    pts[k]? = xs[k]?.map (fun x => (start + k, x)) := by
  unfold points at h
  by_cases hn : xs.length = n
  · rw [if_pos hn] at h
    rw [← Except.ok.inj h, List.zip_eq_zipWith, List.getElem?_zipWith, List.getElem?_map]
    by_cases hk : k < n
    · rw [List.getElem?_range hk]
      cases xs[k]? <;> rfl
    · rw [List.getElem?_eq_none (by rw [hn]; omega : xs.length ≤ k)]
      cases (List.range n)[k]? <;> rfl
  · rw [if_neg hn] at h
    cases h

theorem points_ok {start n : ℕ} {xs : List α} (h : xs.length = n) : ∃ pts, points start n xs = .ok pts :=
  ⟨_, if_pos h⟩

/-- Where the axis of a figure starts: at `first` or, for 'operation', at 0. -/
theorem curve_get {P : Plot N} (hl : P.results.length = P.timesteps) {a n : ℕ}
    (hp : periodTimesteps P = .ok (a, n)) {f : Results N → α} {pts : List (ℕ × α)} (h : curve P f = .ok pts) (k : ℕ) :
    pts[k]? = if k < n then P.results[a + k]?.map (fun r => (a + k, f r)) else none := by
  unfold curve at h
  simp only [column_ok hl, hp, except_bind_ok] at h
  obtain ⟨_, h1, _, h2, h3⟩ := h
  cases Except.ok.inj h1
  cases Except.ok.inj h2
  rw [points_get h3, slice_get, List.getElem?_map]
  split_ifs
  · cases P.results[a + k]? <;> rfl
  · rfl

theorem curveFromZero_get {P : Plot N} (hl : P.results.length = P.timesteps) {a n : ℕ}
    (hp : periodTimesteps P = .ok (a, n)) {f : Results N → α} {pts : List (ℕ × α)}
    (h : curveFromZero P f = .ok pts) (k : ℕ) :
    pts[k]? = if k < n then P.results[a + k]?.map (fun r => (k, f r)) else none := by
  unfold curveFromZero at h
  simp only [column_ok hl, hp, except_bind_ok] at h
  obtain ⟨_, h1, _, h2, h3⟩ := h
  cases Except.ok.inj h1
  cases Except.ok.inj h2
  rw [points_get h3, slice_get, List.getElem?_map]
  split_ifs
  · cases P.results[a + k]? <;> simp
  · rfl

theorem curve_ok {P : Plot N} (hl : P.results.length = P.timesteps) {a n : ℕ}
    (hp : periodTimesteps P = .ok (a, n)) (hw : a + n ≤ P.timesteps) (f : Results N → α) :
    ∃ pts, curve P f = .ok pts := by
  obtain ⟨pts, h⟩ := points_ok (start := a) (slice_length (xs := P.results.map f) (a := a) (n := n)
    (by rw [List.length_map, hl]; exact hw))
  refine ⟨pts, ?_⟩
  unfold curve
  simp only [column_ok hl, hp, except_bind_ok]
  exact ⟨_, rfl, _, rfl, h⟩

theorem curveFromZero_ok {P : Plot N} (hl : P.results.length = P.timesteps) {a n : ℕ}
    (hp : periodTimesteps P = .ok (a, n)) (hw : a + n ≤ P.timesteps) (f : Results N → α) :
    ∃ pts, curveFromZero P f = .ok pts := by
  obtain ⟨pts, h⟩ := points_ok (start := 0) (slice_length (xs := P.results.map f) (a := a) (n := n)
    (by rw [List.length_map, hl]; exact hw))
  refine ⟨pts, ?_⟩
  unfold curveFromZero
  simp only [column_ok hl, hp, except_bind_ok]
  exact ⟨_, rfl, _, rfl, h⟩

theorem drawPeriod_ok {rs : List (Results N)} {n first : ℕ} {pb : Period × Bool} {d : Drawn}
    (h : drawPeriod rs n first pb = .ok d) :
    d.period = pb.1 ∧ operation.mapM (fun q => (q.1, ·) <$> curveFromZero ⟨rs, n, first, pb.1⟩ q.2) = .ok d.operation ∧
    ordinary.mapM (fun q => (q.1, ·) <$> curve ⟨rs, n, first, pb.1⟩ q.2) = .ok d.ordinary ∧
    (∃ x, legend ⟨rs, n, first, pb.1⟩ = .ok x) ∧
    (pb.2 = true → ∃ bs, resBar ⟨rs, n, first, pb.1⟩ = .ok bs ∧ d.bars = some bs) ∧
    (pb.2 = false → d.bars = none) := by
  unfold drawPeriod draw at h
  simp only [except_bind_ok, except_pure_ok] at h
  obtain ⟨_, ⟨a, ha, b, hb, x, hx, rfl⟩, hc⟩ := h
  cases hpb : pb.2 with
  | true =>
    rw [if_pos hpb] at hc
    simp only [except_bind_ok, except_pure_ok, except_map_ok] at hc
    obtain ⟨_, ⟨bs, h1, rfl⟩, rfl⟩ := hc
    exact ⟨rfl, ha, hb, ⟨x, hx⟩, fun _ => ⟨bs, h1, rfl⟩, fun hf => by cases hf⟩
  | false =>
    rw [if_neg (by rw [hpb]; exact Bool.false_ne_true)] at hc
    simp only [except_bind_ok, except_pure_ok] at hc
    obtain ⟨_, rfl, rfl⟩ := hc
    exact ⟨rfl, ha, hb, ⟨x, hx⟩, fun hf => by (cases hf), fun _ => rfl⟩

theorem runPlots_mem {rs : List (Results N)} {n first : ℕ} {ds : List Drawn} (h : runPlots rs n first = .ok ds)
    {d : Drawn} (hd : d ∈ ds) : ∃ pb ∈ periods n, drawPeriod rs n first pb = .ok d := by
  unfold runPlots at h
  rw [mapM_ok_iff] at h
  obtain ⟨i, hi, rfl⟩ := List.getElem_of_mem hd
  rw [List.forall₂_iff_get] at h
  have hi' : i < (periods n).length := by rw [h.1]; exact hi
  exact ⟨(periods n)[i], List.getElem_mem hi', h.2 i hi' hi⟩

/-- Each curve drawn comes from an entry of the list, with its label. -/
theorem curves_forall₂ {g : (Results N → ℚ) → Except PyErr (List (ℕ × ℚ))} {fs : List (Label × (Results N → ℚ))}
    {ys : List Curve} (h : fs.mapM (fun q => (q.1, ·) <$> g q.2) = .ok ys) :
    List.Forall₂ (fun q c => c.1 = q.1 ∧ g q.2 = .ok c.2) fs ys := by
  rw [mapM_ok_iff] at h
  refine h.imp fun q c hc => ?_
  rw [except_map_ok] at hc
  obtain ⟨pts, h1, rfl⟩ := hc
  exact ⟨rfl, h1⟩

theorem mem_curves {g : (Results N → ℚ) → Except PyErr (List (ℕ × ℚ))} {fs : List (Label × (Results N → ℚ))}
    {ys : List Curve} (h : fs.mapM (fun q => (q.1, ·) <$> g q.2) = .ok ys) {c : Curve} (hc : c ∈ ys) :
    ∃ f, (c.1, f) ∈ fs ∧ g f = .ok c.2 := by
  have hf := curves_forall₂ h
  clear h
  induction hf with
  | nil => cases hc
  | @cons q y _ _ h1 _ ih =>
    rcases List.mem_cons.1 hc with rfl | hc
    · exact ⟨q.2, by rw [h1.1]; exact List.mem_cons_self, h1.2⟩
    · obtain ⟨f, h2, h3⟩ := ih hc
      exact ⟨f, List.mem_cons_of_mem _ h2, h3⟩

theorem curves_labels {g : (Results N → ℚ) → Except PyErr (List (ℕ × ℚ))} {fs : List (Label × (Results N → ℚ))}
    {ys : List Curve} (h : fs.mapM (fun q => (q.1, ·) <$> g q.2) = .ok ys) :
    ys.map Prod.fst = fs.map Prod.fst := by
  have hf := curves_forall₂ h
  clear h
  induction hf with
  | nil => rfl
  | cons h1 _ ih => rw [List.map_cons, List.map_cons, ih, h1.1]

theorem labels_of_get {pts : List (ℕ × α)} {rs : List (Results N)} {a b n : ℕ} {f : Results N → α}
    (hl : b + n ≤ rs.length)
    (h : ∀ k, pts[k]? = if k < n then rs[b + k]?.map (fun r => (a + k, f r)) else none) :
    pts.map Prod.fst = List.range' a n := by
  apply List.ext_getElem?
  intro k
  rw [List.getElem?_map, h k]
  by_cases hk : k < n
  · rw [if_pos hk, List.getElem?_eq_getElem (by omega : b + k < rs.length), List.getElem?_range' hk]
    simp
  · rw [if_neg hk, List.getElem?_eq_none (by rw [List.length_range']; omega)]
    rfl

end Figures
end Verif
