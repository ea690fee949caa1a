import Verif.Spec.HeatPumpConfig
import Mathlib.Tactic.NormNum

/-!
# Lemmas on heat pump construction
-/

set_option autoImplicit false

namespace Verif
open Enums HpConfig StrEnum

open Spec

section enums
variable {α : Type} [StrEnum α] [DecidableEq α]

theorem eqMember_iff (a : Arg α) (m : α) : eqMember a m = true ↔ Names a m := by
  cases a with
  | member b => simp [eqMember, Names]
  | text s => simp [eqMember, Names]
  | other => simp [eqMember, Names]

theorem isIn_iff (a : Arg α) (hm : ∀ m : α, m ∈ members (α := α)) :
    isIn a = true ↔ ∃ m, Names a m := by
  unfold isIn
  rw [List.any_eq_true]
  constructor
  · rintro ⟨m, _, h⟩; exact ⟨m, (eqMember_iff a m).1 h⟩
  · rintro ⟨m, h⟩; exact ⟨m, hm m, (eqMember_iff a m).2 h⟩

end enums

theorem hpType_all (m : HPType) : m ∈ members (α := HPType) := by cases m <;> decide
theorem modelName_all (m : ModelName) : m ∈ members (α := ModelName) := by cases m <;> decide
theorem dataInput_all (m : DataInput) : m ∈ members (α := DataInput) := by cases m <;> decide
theorem fuel_all (m : Fuel) : m ∈ members (α := Fuel) := by cases m <;> decide

theorem hpType_inj (x y : HPType) (h : value x = value y) : x = y := by
  cases x <;> cases y <;> first | rfl | (revert h; decide)
theorem modelName_inj (x y : ModelName) (h : value x = value y) : x = y := by
  cases x <;> cases y <;> first | rfl | (revert h; decide)
theorem dataInput_inj (x y : DataInput) (h : value x = value y) : x = y := by
  cases x <;> cases y <;> first | rfl | (revert h; decide)
theorem fuel_inj (x y : Fuel) (h : value x = value y) : x = y := by
  cases x <;> cases y <;> first | rfl | (revert h; decide)

/-- Two names of one argument agree. -/
theorem names_unique {α : Type} [StrEnum α] (hv : ∀ x y : α, value x = value y → x = y)
    {a : Arg α} {m m' : α} (h : Names a m) (h' : Names a m') : m = m' := by
  rcases h with h | h <;> rcases h' with h' | h' <;> rw [h] at h'
  · injection h'
  · cases h'
  · cases h'
  · injection h' with e
    exact hv _ _ e

theorem checkFullYear_ok_iff (t : TempArg) :
    (∃ v, checkFullYear t = .ok v) ↔ FullYearTemp t := by
  rcases t with x | xs | xs
  · exact ⟨fun _ => trivial, fun _ => ⟨_, rfl⟩⟩
  · by_cases h : xs.length = 8760 <;> simp [checkFullYear, FullYearTemp, h]
  · by_cases h : xs.length = 8760 <;> simp [checkFullYear, FullYearTemp, h]

theorem checkFullYear_length {t : TempArg} {v : TempVal} (h : checkFullYear t = .ok v) :
    (raw v).length = 8760 := by
  rcases t with x | xs | xs
  · change Except.ok _ = _ at h
    injection h with h
    rw [← h]
    exact List.length_replicate
  · by_cases hl : xs.length = 8760
    · rw [show checkFullYear (.array xs) = .ok (.array xs) by simp [checkFullYear, hl]] at h
      injection h with h
      rw [← h]
      exact hl
    · simp [checkFullYear, hl] at h
  · by_cases hl : xs.length = 8760
    · rw [show checkFullYear (.series xs) = .ok (.series xs) by simp [checkFullYear, hl]] at h
      injection h with h
      rw [← h]
      exact hl
    · simp [checkFullYear, hl] at h

theorem checkFullYear_error {t : TempArg} {e : PyErr} (h : checkFullYear t = .error e) :
    e = .valueError := by
  rcases t with x | xs | xs
  · change Except.ok _ = _ at h
    cases h
  · by_cases hl : xs.length = 8760 <;> simp [checkFullYear, hl] at h
    exact h.symm
  · by_cases hl : xs.length = 8760 <;> simp [checkFullYear, hl] at h
    exact h.symm

theorem trainCheck_ok_iff (d : TestData) :
    Standard.trainCheck d.xShape d.copShape d.dutyShape = .ok () ↔ ShapesOk d := by
  obtain ⟨x, c, u, ps⟩ := d
  unfold ShapesOk
  dsimp only
  constructor
  · intro h
    unfold Standard.trainCheck at h
    split at h
    · rename_i rows cols
      split_ifs at h with h1
      split at h
      · rename_i c cs d ds
        split_ifs at h with h2 h3
        push Not at h1 h2 h3
        obtain ⟨hc, hd⟩ := h2
        obtain ⟨h0, hcs, hds, hzc, hzd⟩ := h3
        subst h1 hc hd
        refine ⟨rows, Nat.pos_of_ne_zero h0, rfl, ?_, ?_⟩
        · match cs, hcs, hzc with
          | [], _, _ => exact Or.inl rfl
          | [k], _, hk =>
            exact Or.inr ⟨k, Nat.pos_of_ne_zero (by rintro rfl; simp at hk), rfl⟩
          | _ :: _ :: _, h, _ => simp at h
        · match ds, hds, hzd with
          | [], _, _ => exact Or.inl rfl
          | [k], _, hk =>
            exact Or.inr ⟨k, Nat.pos_of_ne_zero (by rintro rfl; simp at hk), rfl⟩
          | _ :: _ :: _, h, _ => simp at h
      · cases h
    · cases h
  · rintro ⟨n, hn, rfl, hc, hd⟩
    rcases hc with rfl | ⟨k, hk, rfl⟩ <;> rcases hd with rfl | ⟨k', hk', rfl⟩ <;>
      simp [Standard.trainCheck, hn.ne', *] <;> omega

theorem names_ne {a : Arg ModelName} {m m' : ModelName} (h : Names a m) (hne : m ≠ m') :
    ¬ eqMember a m' = true := fun h' =>
  hne (names_unique modelName_inj h ((eqMember_iff a m').1 h'))

theorem buildModel_ok_iff (a : HpArgs) : (∃ m, buildModel a = .ok m) ↔ ModelInputsOk a := by
  constructor
  · rintro ⟨m, h⟩
    unfold buildModel at h
    split_ifs at h with h1 h2 h3 h4
    · rw [eqMember_iff _ _] at h1
      cases hc : a.simpleCop with
      | none => rw [hc] at h; cases h
      | some c => exact .simple c h1 hc
    · rw [eqMember_iff _ _] at h2
      cases hc : a.lorentz with
      | none => rw [hc] at h; cases h
      | some c => exact .lorentz c h2 hc
    · rw [eqMember_iff _ _] at h3
      cases hc : a.hpType with
      | member p => exact .generic p h3 hc
      | text s => rw [hc] at h; cases h
      | other => rw [hc] at h; cases h
    · rw [eqMember_iff _ _] at h4
      cases hc : a.standard with
      | none => rw [hc] at h; cases h
      | some d =>
        rw [hc] at h
        dsimp only at h
        cases ht : Standard.trainCheck d.xShape d.copShape d.dutyShape with
        | error e => rw [ht] at h; cases h
        | ok u => exact .standard d h4 hc ((trainCheck_ok_iff d).1 ht)
  · intro h
    unfold buildModel
    cases h with
    | simple c h hc =>
      rw [if_pos ((eqMember_iff _ _).2 h), hc]
      exact ⟨_, rfl⟩
    | lorentz s h hs =>
      rw [if_neg (names_ne h (by decide)), if_pos ((eqMember_iff _ _).2 h), hs]
      exact ⟨_, rfl⟩
    | generic p h hp =>
      rw [if_neg (names_ne h (by decide)), if_neg (names_ne h (by decide)),
        if_pos ((eqMember_iff _ _).2 h), hp]
      exact ⟨_, rfl⟩
    | standard d h hd hs =>
      rw [if_neg (names_ne h (by decide)), if_neg (names_ne h (by decide)),
        if_neg (names_ne h (by decide)), if_pos ((eqMember_iff _ _).2 h), hd]
      dsimp only
      rw [(trainCheck_ok_iff d).2 hs]
      exact ⟨_, rfl⟩

/-- What a successful construction means. -/
theorem construct_ok {a : HpArgs} {o : HpObj} (h : construct a = .ok o) :
    (∃ p, Names a.hpType p) ∧ (∃ d, Names a.dataInput d) ∧ checkFullYear a.flow = .ok o.flow ∧
      checkFullYear a.ret = .ok o.ret ∧ a.ambient.length = 8760 ∧
      buildModel a = .ok o.model ∧ o.hpType = a.hpType ∧ o.capacity = a.capacity ∧
      o.ambientDeltaT = a.ambientDeltaT ∧ o.dataInput = a.dataInput ∧ o.ambient = a.ambient := by
  simp only [construct, bind, Except.bind, pure, Except.pure] at h
  split at h
  · cases h
  rename_i h1
  split at h
  · cases h
  rename_i h2
  split at h
  · cases h
  rename_i f h3
  split at h
  · cases h
  rename_i r h4
  split at h
  · cases h
  rename_i h5
  split at h
  · cases h
  rename_i m h6
  injection h with h
  subst h
  refine ⟨?_, ?_, h3, h4, ?_, h6, rfl, rfl, rfl, rfl, rfl⟩
  · unfold checkType at h1
    split_ifs at h1 with hh
    exact (isIn_iff _ hpType_all).1 hh
  · unfold checkData at h2
    split_ifs at h2 with hh
    exact (isIn_iff _ dataInput_all).1 hh
  · unfold checkAmbient at h5
    split_ifs at h5 with hh
    exact not_not.1 hh

/-- The exceptions of the model setter. -/
theorem buildModel_error {a : HpArgs} {e : PyErr} (h : buildModel a = .error e) :
    (e = .valueError ∧ ((Names a.approach .simple ∧ a.simpleCop = none) ∨
        (Names a.approach .lorentz ∧ a.lorentz = none) ∨
        (Names a.approach .standard ∧ ∀ d, a.standard = some d → ¬ ShapesOk d))) ∨
      (e = .indexError ∧ Names a.approach .standard ∧ ∃ d, a.standard = some d ∧ ¬ ShapesOk d) ∨
      (e = .keyError ∧ ((∀ m, ¬ Names a.approach m) ∨
        (Names a.approach .generic ∧ ∀ p, a.hpType ≠ .member p))) := by
  unfold buildModel at h
  split_ifs at h with h1 h2 h3 h4
  · rw [eqMember_iff _ _] at h1
    cases hc : a.simpleCop with
    | none => rw [hc] at h; injection h with h; exact Or.inl ⟨h.symm, Or.inl ⟨h1, rfl⟩⟩
    | some c => rw [hc] at h; cases h
  · rw [eqMember_iff _ _] at h2
    cases hc : a.lorentz with
    | none => rw [hc] at h; injection h with h; exact Or.inl ⟨h.symm, Or.inr (Or.inl ⟨h2, rfl⟩)⟩
    | some c => rw [hc] at h; cases h
  · rw [eqMember_iff _ _] at h3
    cases hc : a.hpType with
    | member p => rw [hc] at h; cases h
    | text s =>
      rw [hc] at h; injection h with h
      exact Or.inr (Or.inr ⟨h.symm, Or.inr ⟨h3, by simp⟩⟩)
    | other =>
      rw [hc] at h; injection h with h
      exact Or.inr (Or.inr ⟨h.symm, Or.inr ⟨h3, by simp⟩⟩)
  · rw [eqMember_iff _ _] at h4
    cases hc : a.standard with
    | none =>
      rw [hc] at h; injection h with h
      exact Or.inl ⟨h.symm, Or.inr (Or.inr ⟨h4, by simp⟩)⟩
    | some d =>
      rw [hc] at h
      dsimp only at h
      cases ht : Standard.trainCheck d.xShape d.copShape d.dutyShape with
      | ok u => rw [ht] at h; cases h
      | error e' =>
        rw [ht] at h; injection h with h
        subst h
        have hn : ¬ ShapesOk d := by
          rw [← trainCheck_ok_iff, ht]; simp
        have he : e' = .indexError ∨ e' = .valueError := by
          unfold Standard.trainCheck at ht
          split at ht
          · split_ifs at ht
            · injection ht with ht; exact Or.inl ht.symm
            · split at ht
              · split_ifs at ht
                · injection ht with ht; exact Or.inl ht.symm
                · injection ht with ht; exact Or.inr ht.symm
              · injection ht with ht; exact Or.inl ht.symm
          · injection ht with ht; exact Or.inl ht.symm
        rcases he with rfl | rfl
        · exact Or.inr (Or.inl ⟨rfl, h4, d, rfl, hn⟩)
        · refine Or.inl ⟨rfl, Or.inr (Or.inr ⟨h4, ?_⟩)⟩
          rintro d' hd'; injection hd' with hd'; exact hd' ▸ hn
  · injection h with h
    refine Or.inr (Or.inr ⟨h.symm, Or.inl ?_⟩)
    rintro m hm
    have := (eqMember_iff _ _).2 hm
    cases m <;> contradiction

/-- With everything but the model in order, construction fails as the model does. -/
theorem construct_model_error {a : HpArgs} {e : PyErr} (h1 : ∃ p, Names a.hpType p)
    (h2 : ∃ d, Names a.dataInput d) (h3 : FullYearTemp a.flow) (h4 : FullYearTemp a.ret)
    (h5 : a.ambient.length = 8760) : construct a = .error e ↔ buildModel a = .error e := by
  obtain ⟨f, hf⟩ := (checkFullYear_ok_iff _).2 h3
  obtain ⟨r, hr⟩ := (checkFullYear_ok_iff _).2 h4
  have e1 : checkType a.hpType = .ok () := by
    unfold checkType; rw [if_pos ((isIn_iff _ hpType_all).2 h1)]
  have e2 : checkData a.dataInput = .ok () := by
    unfold checkData; rw [if_pos ((isIn_iff _ dataInput_all).2 h2)]
  have e3 : checkAmbient a.ambient = .ok () := by
    unfold checkAmbient; rw [if_neg (not_not.2 h5)]
  simp only [construct, e1, e2, hf, hr, e3, bind, Except.bind, pure, Except.pure]
  cases buildModel a <;> simp

theorem zipWith_mk_map : ∀ {c d : List ℚ}, c.length = d.length →
    (List.zipWith Perf.mk c d).map Perf.cop = c ∧ (List.zipWith Perf.mk c d).map Perf.duty = d
  | [], [], _ => ⟨rfl, rfl⟩
  | [], _ :: _, h => by simp at h
  | _ :: _, [], h => by simp at h
  | a :: c, b :: d, h => by
    obtain ⟨h1, h2⟩ := zipWith_mk_map (c := c) (d := d) (by simpa using h)
    simp [h1, h2]

theorem mkPerformance_ok {c d : List ℚ} {ps : List Perf} (h : mkPerformance c d = .ok ps) :
    c.length = d.length ∧ ps.map Perf.cop = c ∧ ps.map Perf.duty = d := by
  by_cases hl : c.length = d.length
  · simp [mkPerformance, arrayCheck, hl, bind, Except.bind, pure, Except.pure] at h
    exact ⟨hl, h ▸ zipWith_mk_map hl⟩
  · simp [mkPerformance, arrayCheck, hl, bind, Except.bind] at h

theorem mkPerformance_eq {c d : List ℚ} (h : c.length = d.length) :
    mkPerformance c d = .ok (List.zipWith Perf.mk c d) := by
  simp [mkPerformance, arrayCheck, h, bind, Except.bind, pure, Except.pure]

/-- The model a construction chose, by approach. -/
theorem construct_model {a : HpArgs} {o : HpObj} (h : construct a = .ok o) :
    (∀ c, Names a.approach .simple → a.simpleCop = some c → o.model = .simple c a.capacity) ∧
    (∀ s, Names a.approach .lorentz → a.lorentz = some s → o.model = .lorentz s) ∧
    (∀ p, Names a.approach .generic → a.hpType = .member p → o.model = .generic p) ∧
    (∀ d, Names a.approach .standard → a.standard = some d → o.model = .standard d) := by
  obtain ⟨-, -, -, -, -, hm, -⟩ := construct_ok h
  unfold buildModel at hm
  refine ⟨?_, ?_, ?_, ?_⟩
  · intro c hn hc
    rw [if_pos ((eqMember_iff _ _).2 hn), hc] at hm
    injection hm with hm
    exact hm.symm
  · intro s hn hc
    rw [if_neg (names_ne hn (by decide)), if_pos ((eqMember_iff _ _).2 hn), hc] at hm
    injection hm with hm
    exact hm.symm
  · intro p hn hc
    rw [if_neg (names_ne hn (by decide)), if_neg (names_ne hn (by decide)),
      if_pos ((eqMember_iff _ _).2 hn), hc] at hm
    injection hm with hm
    exact hm.symm
  · intro d hn hc
    rw [if_neg (names_ne hn (by decide)), if_neg (names_ne hn (by decide)),
      if_neg (names_ne hn (by decide)), if_pos ((eqMember_iff _ _).2 hn), hc] at hm
    dsimp only at hm
    cases ht : Standard.trainCheck d.xShape d.copShape d.dutyShape with
    | error e => rw [ht] at hm; cases hm
    | ok u =>
      rw [ht] at hm
      injection hm with hm
      exact hm.symm

theorem heatResource_length (o : HpObj) : (heatResource o).length = o.ambient.length := by
  unfold heatResource
  split_ifs <;> exact List.length_map _

theorem heatResource_hour {o : HpObj} {h : ℕ} {row : ℚ × ℚ} (hr : o.ambient[h]? = some row) :
    ∃ t, SourceTemp o.hpType row t ∧ (heatResource o)[h]? = some t := by
  unfold heatResource
  by_cases hn : eqMember o.hpType .ashp = true
  · refine ⟨row.1, ⟨fun _ => rfl, fun h => absurd ((eqMember_iff _ _).1 hn) h⟩, ?_⟩
    rw [if_pos hn, List.getElem?_map, hr]
    rfl
  · refine ⟨row.2, ⟨fun h => absurd ((eqMember_iff _ _).2 h) hn, fun _ => rfl⟩, ?_⟩
    rw [if_neg hn, List.getElem?_map, hr]
    rfl

theorem sourceTemp_unique {a : Arg HPType} {row : ℚ × ℚ} {t t' : ℚ} (h : SourceTemp a row t)
    (h' : SourceTemp a row t') : t = t' := by
  by_cases hn : Names a .ashp
  · rw [h.1 hn, h'.1 hn]
  · rw [h.2 hn, h'.2 hn]

/-- The factor of the standard model. -/
def standardFactor (o : HpObj) : Except PyErr (List ℚ) :=
  if eqMember o.dataInput .integrated then .ok ((heatResource o).map (fun _ => 1))
  else if eqMember o.dataInput .peak then
    if eqMember o.hpType .ashp then .ok ((heatResource o).map peakFactor)
    else .error .valueError
  else .error .valueError

theorem standardFactor_length {o : HpObj} {f : List ℚ} (h : standardFactor o = .ok f) :
    f.length = (heatResource o).length := by
  unfold standardFactor at h
  split_ifs at h <;> injection h with h <;> rw [← h] <;> exact List.length_map _

theorem performance_standard {K : Kernels} {o : HpObj} {d : TestData} (hc : o.capacity ≠ 0)
    (hm : o.model = .standard d) : performance K o =
      (values o.flow).bind (fun flow => (standardFactor o).bind (fun factor =>
        mkPerformance (List.zipWith (· * ·)
            (List.zipWith (Standard.cop (K.fitCop d.points)) (heatResource o) flow) factor)
          (List.zipWith (Standard.duty (K.fitDuty d.points)) (heatResource o) (raw o.flow)))) := by
  unfold performance standardFactor
  rw [if_neg hc, hm]
  cases hv : values o.flow with
  | error e => simp [bind, Except.bind]
  | ok fl =>
    simp only [bind, Except.bind]
    by_cases h1 : eqMember o.dataInput .integrated = true
    · simp only [if_pos h1]
    by_cases h2 : eqMember o.dataInput .peak = true
    · by_cases h3 : eqMember o.hpType .ashp = true
      · simp only [if_neg h1, if_pos h2, if_pos h3]
      · simp only [if_neg h1, if_pos h2, if_neg h3]
    · simp only [if_neg h1, if_neg h2]

theorem values_raw {v : TempVal} {xs : List ℚ} (h : values v = .ok xs) : raw v = xs := by
  cases v
  · cases h
  · injection h

/-- Every successful performance is a `PerformanceArray` of 8760 duties. -/
theorem performance_lengths {K : Kernels} {a : HpArgs} {o : HpObj} {ps : List Perf}
    (hc : construct a = .ok o) (h : performance K o = .ok ps) :
    ∃ c d, mkPerformance c d = .ok ps ∧ d.length = 8760 := by
  obtain ⟨-, -, hf, hr, ha, hm, -, -, -, -, hamb⟩ := construct_ok hc
  by_cases h0 : o.capacity = 0
  · unfold performance at h
    rw [if_pos h0] at h
    exact ⟨_, _, h, List.length_replicate⟩
  cases hmod : o.model with
  | simple c d =>
    unfold performance at h
    rw [if_neg h0, hmod] at h
    exact ⟨_, _, h, List.length_replicate⟩
  | lorentz s =>
    unfold performance at h
    rw [if_neg h0, hmod] at h
    simp only [bind, Except.bind] at h
    split at h
    · cases h
    split at h
    · cases h
    exact ⟨_, _, h, List.length_replicate⟩
  | generic p =>
    unfold performance at h
    rw [if_neg h0, hmod] at h
    simp only [bind, Except.bind] at h
    split at h
    · cases h
    exact ⟨_, _, h, List.length_replicate⟩
  | standard d =>
    rw [performance_standard h0 hmod] at h
    simp only [Except.bind] at h
    split at h
    · cases h
    split at h
    · cases h
    refine ⟨_, _, h, ?_⟩
    rw [List.length_zipWith, heatResource_length, hamb, ha, checkFullYear_length hf]
    rfl

theorem perf_get {c d : List ℚ} {h : ℕ} {x y : ℚ} (hx : c[h]? = some x) (hy : d[h]? = some y) :
    (List.zipWith Perf.mk c d)[h]? = some ⟨x, y⟩ := by
  rw [List.getElem?_zipWith, hx, hy]

theorem replicate_get {n h : ℕ} (x : ℚ) (hh : h < n) : (List.replicate n x)[h]? = some x := by
  rw [List.getElem?_replicate, if_pos hh]

/-- The arguments `init` gives. -/
theorem initArgs_ok {s : Sheet} (h : s.approach ≠ .generic) : ∃ a, initArgs s = .ok a ∧
    a.hpType = .member s.hpType ∧ a.approach = .member s.approach ∧ a.capacity = s.capacity ∧
    a.dataInput = .member s.dataInput ∧ a.flow = .series s.source ∧ a.ret = .scalar s.ret ∧
    a.ambient = s.ambient ∧ (s.approach = .simple → a.simpleCop = some s.simpleCop) ∧
    (s.approach = .lorentz → a.lorentz = some s.lorentz) ∧
    (s.approach = .standard → a.standard = some s.standard) := by
  unfold initArgs
  dsimp only
  cases hs : s.approach <;> first
    | exact absurd hs h
    | exact ⟨_, rfl, rfl, rfl, rfl, rfl, rfl, rfl, rfl, by simp, by simp, by simp⟩

theorem initArgs_valid {s : Sheet} (hs : SheetOk s) {a : HpArgs} (ha : initArgs s = .ok a) :
    ValidConfig a := by
  have hg : s.approach ≠ .generic := by
    intro h
    unfold initArgs at ha
    rw [h] at ha
    cases ha
  obtain ⟨a', ha', h1, h2, h3, h4, h5, h6, h7, h8, h9, h10⟩ := initArgs_ok hg
  rw [ha] at ha'
  injection ha' with ha'
  subst ha'
  refine ⟨⟨_, Or.inl h1⟩, ⟨_, Or.inl h4⟩, by rw [h5]; exact hs.source, by rw [h6]; trivial,
    by rw [h7]; exact hs.ambient, ?_⟩
  cases hm : s.approach with
  | simple => exact .simple _ (Or.inl (by rw [h2, hm])) (h8 hm)
  | lorentz => exact .lorentz _ (Or.inl (by rw [h2, hm])) (h9 hm)
  | generic => exact absurd hm hg
  | standard => exact .standard _ (Or.inl (by rw [h2, hm])) (h10 hm) (hs.standard hm)

end Verif
