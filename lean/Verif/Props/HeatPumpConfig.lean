import Verif.Lemmas.HeatPumpConfig

/-!
# Properties of heat pump construction and yearly performance (C12, C13, C14)
-/

set_option autoImplicit false

namespace Verif
open Enums HpConfig StrEnum

open Spec

/-- C14: construction succeeds exactly for the valid configurations. -/
theorem C14_accepts_iff_valid (a : HpArgs) : (∃ o, construct a = .ok o) ↔ ValidConfig a := by
  constructor
  · rintro ⟨o, h⟩
    obtain ⟨h1, h2, h3, h4, h5, h6, -⟩ := construct_ok h
    exact ⟨h1, h2, (checkFullYear_ok_iff _).1 ⟨_, h3⟩, (checkFullYear_ok_iff _).1 ⟨_, h4⟩, h5,
      (buildModel_ok_iff a).1 ⟨_, h6⟩⟩
  · intro h
    obtain ⟨f, hf⟩ := (checkFullYear_ok_iff _).2 h.flow
    obtain ⟨r, hr⟩ := (checkFullYear_ok_iff _).2 h.ret
    obtain ⟨m, hm⟩ := (buildModel_ok_iff a).2 h.model
    have h1 : checkType a.hpType = .ok () := by
      unfold checkType; rw [if_pos ((isIn_iff _ hpType_all).2 h.hpType)]
    have h2 : checkData a.dataInput = .ok () := by
      unfold checkData; rw [if_pos ((isIn_iff _ dataInput_all).2 h.dataInput)]
    have h3 : checkAmbient a.ambient = .ok () := by
      unfold checkAmbient; rw [if_neg (not_not.2 h.ambient)]
    simp only [construct, h1, h2, hf, hr, h3, hm, bind, Except.bind, pure, Except.pure]
    exact ⟨_, rfl⟩

/-- C14: an invalid pump type, data input or incomplete temperature data raises `ValueError`, whatever
the rest of the configuration. -/
theorem C14_common_failures_raise_value_error {a : HpArgs}
    (h : (∀ p, ¬ Names a.hpType p) ∨ (∀ d, ¬ Names a.dataInput d) ∨ ¬ FullYearTemp a.flow ∨
      ¬ FullYearTemp a.ret ∨ a.ambient.length ≠ 8760) :
    construct a = .error .valueError := by
  by_cases h1 : isIn a.hpType = true
  swap
  · simp [construct, checkType, h1, bind, Except.bind]
  have e1 : checkType a.hpType = .ok () := by simp [checkType, h1]
  by_cases h2 : isIn a.dataInput = true
  swap
  · simp [construct, e1, checkData, h2, bind, Except.bind]
  have e2 : checkData a.dataInput = .ok () := by simp [checkData, h2]
  cases h3 : checkFullYear a.flow with
  | error e =>
    have := checkFullYear_error h3
    subst this
    simp [construct, e1, e2, h3, bind, Except.bind]
  | ok f =>
  cases h4 : checkFullYear a.ret with
  | error e =>
    have := checkFullYear_error h4
    subst this
    simp [construct, e1, e2, h3, h4, bind, Except.bind]
  | ok r =>
  by_cases h5 : a.ambient.length = 8760
  swap
  · have : checkAmbient a.ambient = .error .valueError := by
      unfold checkAmbient; rw [if_pos h5]
    simp only [construct, e1, e2, h3, h4, this, bind, Except.bind]
  exfalso
  obtain ⟨p, hp⟩ := (isIn_iff _ hpType_all).1 h1
  obtain ⟨d, hd⟩ := (isIn_iff _ dataInput_all).1 h2
  rcases h with h | h | h | h | h
  · exact h p hp
  · exact h d hd
  · exact h ((checkFullYear_ok_iff _).1 ⟨_, h3⟩)
  · exact h ((checkFullYear_ok_iff _).1 ⟨_, h4⟩)
  · exact h h5

/-- C14: missing inputs of the chosen model raise `ValueError`. -/
theorem C14_missing_model_inputs_raise_value_error {a : HpArgs} (h1 : ∃ p, Names a.hpType p)
    (h2 : ∃ d, Names a.dataInput d) (h3 : FullYearTemp a.flow) (h4 : FullYearTemp a.ret)
    (h5 : a.ambient.length = 8760)
    (h : (Names a.approach .simple ∧ a.simpleCop = none) ∨
      (Names a.approach .lorentz ∧ a.lorentz = none) ∨
      (Names a.approach .standard ∧ a.standard = none)) :
    construct a = .error .valueError := by
  rw [construct_model_error h1 h2 h3 h4 h5]
  unfold buildModel
  rcases h with ⟨h, hn⟩ | ⟨h, hn⟩ | ⟨h, hn⟩
  · rw [if_pos ((eqMember_iff _ _).2 h), hn]
  · rw [if_neg (names_ne h (by decide)), if_pos ((eqMember_iff _ _).2 h), hn]
  · rw [if_neg (names_ne h (by decide)), if_neg (names_ne h (by decide)),
      if_neg (names_ne h (by decide)), if_pos ((eqMember_iff _ _).2 h), hn]

/-- C14: an unknown model raises `KeyError`. -/
theorem C14_unknown_model_raises_key_error {a : HpArgs} (h1 : ∃ p, Names a.hpType p)
    (h2 : ∃ d, Names a.dataInput d) (h3 : FullYearTemp a.flow) (h4 : FullYearTemp a.ret)
    (h5 : a.ambient.length = 8760) (h : ∀ m, ¬ Names a.approach m) :
    construct a = .error .keyError := by
  rw [construct_model_error h1 h2 h3 h4 h5]
  unfold buildModel
  have hn (m : ModelName) : ¬ eqMember a.approach m = true := fun h' =>
    h m ((eqMember_iff _ _).1 h')
  rw [if_neg (hn _), if_neg (hn _), if_neg (hn _), if_neg (hn _)]

/-- C14: badly shaped test data raise `IndexError`, or `ValueError` from the fitting library. -/
theorem C14_bad_shapes_rejected {a : HpArgs} (h1 : ∃ p, Names a.hpType p)
    (h2 : ∃ d, Names a.dataInput d) (h3 : FullYearTemp a.flow) (h4 : FullYearTemp a.ret)
    (h5 : a.ambient.length = 8760) (h : Names a.approach .standard) {d : TestData}
    (hd : a.standard = some d) (hs : ¬ ShapesOk d) :
    construct a = .error .indexError ∨ construct a = .error .valueError := by
  rw [construct_model_error h1 h2 h3 h4 h5, construct_model_error h1 h2 h3 h4 h5]
  cases hb : buildModel a with
  | ok m =>
    exfalso
    have := (buildModel_ok_iff a).1 ⟨m, hb⟩
    cases this with
    | simple _ h' => exact absurd (names_unique modelName_inj h h') (by decide)
    | lorentz _ h' => exact absurd (names_unique modelName_inj h h') (by decide)
    | generic _ h' => exact absurd (names_unique modelName_inj h h') (by decide)
    | standard d' _ hd' hs' => rw [hd] at hd'; injection hd' with hd'; exact hs (hd' ▸ hs')
  | error e =>
    rcases buildModel_error hb with ⟨rfl, -⟩ | ⟨rfl, -⟩ | ⟨rfl, hk⟩
    · exact Or.inr rfl
    · exact Or.inl rfl
    · exfalso
      rcases hk with hk | ⟨hk, -⟩
      · exact hk _ h
      · exact absurd (names_unique modelName_inj h hk) (by decide)

/-- C14: a pump type given as plain text passes validation but not the generic model, which raises
`KeyError` (only members are accepted there). -/
theorem C14_generic_needs_member {a : HpArgs} {p : HPType} (h1 : a.hpType = .text (value p))
    (h2 : ∃ d, Names a.dataInput d) (h3 : FullYearTemp a.flow) (h4 : FullYearTemp a.ret)
    (h5 : a.ambient.length = 8760) (h : Names a.approach .generic) :
    construct a = .error .keyError := by
  rw [construct_model_error ⟨p, Or.inr h1⟩ h2 h3 h4 h5]
  unfold buildModel
  rw [if_neg (names_ne h (by decide)), if_neg (names_ne h (by decide)),
    if_pos ((eqMember_iff _ _).2 h), h1]

/-- A valid configuration: an air source pump with the simple model. -/
def Spec.sampleHp : HpArgs :=
  { hpType := .member .ashp, approach := .member .simple, capacity := 10, ambientDeltaT := 5,
    dataInput := .text "PEAK PERFORMANCE", flow := .scalar 60, ret := .scalar 40,
    ambient := List.replicate 8760 (7, 9), simpleCop := some 3, lorentz := none,
    standard := none }

theorem Spec.sampleHp_valid : ValidConfig sampleHp :=
  ⟨⟨.ashp, Or.inl rfl⟩, ⟨.peak, Or.inr rfl⟩, trivial, trivial, List.length_replicate,
    .simple 3 (Or.inl rfl) rfl⟩

example : ∃ e, construct { sampleHp with approach := .member .standard, standard := some ⟨[8, 2], [7], [8, 1], []⟩ } =
    .error e := by
  rcases C14_bad_shapes_rejected (a := { sampleHp with approach := .member .standard, standard := some ⟨[8, 2], [7], [8, 1], []⟩ })
    sampleHp_valid.hpType sampleHp_valid.dataInput trivial trivial List.length_replicate (Or.inl rfl) rfl
    (by rw [← trainCheck_ok_iff]; decide) with h | h
  exacts [⟨_, h⟩, ⟨_, h⟩]

example : ∃ o, construct sampleHp = .ok o := (C14_accepts_iff_valid _).2 sampleHp_valid

example : construct { sampleHp with simpleCop := none } = .error .valueError :=
  C14_missing_model_inputs_raise_value_error sampleHp_valid.hpType sampleHp_valid.dataInput trivial
    trivial List.length_replicate (Or.inl ⟨Or.inl rfl, rfl⟩)

example : construct { sampleHp with approach := .text "Simple" } = .error .keyError :=
  C14_unknown_model_raises_key_error sampleHp_valid.hpType sampleHp_valid.dataInput trivial
    trivial List.length_replicate (by intro m; cases m <;> simp [Names, value])

example : construct { sampleHp with flow := .series [60, 61] } = .error .valueError :=
  C14_common_failures_raise_value_error (Or.inr (Or.inr (Or.inl (by simp [FullYearTemp]))))

example : construct { sampleHp with hpType := .text "ASHP", approach := .member .generic } =
    .error .keyError :=
  C14_generic_needs_member (p := .ashp) rfl sampleHp_valid.dataInput trivial
    trivial List.length_replicate (Or.inl rfl)

example : ShapesOk ⟨[8, 2], [8], [8, 1], []⟩ ∧ ¬ ShapesOk ⟨[8, 2], [7], [8, 1], []⟩ := by
  refine ⟨⟨8, by norm_num, rfl, Or.inl rfl, Or.inr ⟨1, by norm_num, rfl⟩⟩, ?_⟩
  rw [← trainCheck_ok_iff]
  decide

/-- C13: `PerformanceArray` accepts exactly two arrays of equal shape and at most one dimension. -/
theorem C13_performance_array_accepts_iff (c d : List ℕ) :
    arrayCheck c d = .ok () ↔ c = d ∧ c.length ≤ 1 := by
  unfold arrayCheck
  split_ifs with h1 h2 <;> simp_all

/-- C13: anything else raises `IndexError`. -/
theorem C13_performance_array_rejects {c d : List ℕ} (h : ¬ (c = d ∧ c.length ≤ 1)) :
    arrayCheck c d = .error .indexError := by
  unfold arrayCheck
  split_ifs with h1 h2
  · rfl
  · rfl
  · exact absurd ⟨not_not.1 h1, by omega⟩ h

example : arrayCheck [8760] [8759] = .error .indexError ∧ arrayCheck [8760, 2] [8760, 2] = .error .indexError :=
  ⟨C13_performance_array_rejects (by decide), C13_performance_array_rejects (by decide)⟩

/-- C13: a yearly performance has one value for each of the 8760 hours. -/
theorem C13_performance_covers_year {K : Kernels} {a : HpArgs} {o : HpObj} {ps : List Perf}
    (hc : construct a = .ok o) (h : performance K o = .ok ps) : ps.length = 8760 := by
  obtain ⟨c, d, hcd, hd⟩ := performance_lengths hc h
  obtain ⟨h1, h2, h3⟩ := mkPerformance_ok hcd
  rw [← List.length_map (f := Perf.duty), h3, hd]

/-- C13: the simple model gives the same values at each hour. -/
theorem C13_simple_hours {K : Kernels} {a : HpArgs} {o : HpObj} (hc : construct a = .ok o)
    (h0 : a.capacity ≠ 0) (hn : Names a.approach .simple) {c : ℚ} (hs : a.simpleCop = some c) :
    ∃ ps, performance K o = .ok ps ∧ ∀ h < 8760, ps[h]? = some ⟨c, a.capacity⟩ := by
  obtain ⟨-, -, -, -, -, -, -, hcap, -⟩ := construct_ok hc
  have hm := (construct_model hc).1 c hn hs
  unfold performance
  rw [if_neg (hcap ▸ h0), hm]
  dsimp only
  rw [mkPerformance_eq (by rw [List.length_replicate, List.length_replicate])]
  exact ⟨_, rfl, fun h hh => perf_get (replicate_get _ hh) (replicate_get _ hh)⟩

example (K : Kernels) : ∃ o ps, construct sampleHp = .ok o ∧ performance K o = .ok ps ∧ ps.length = 8760 ∧
    ps[8759]? = some ⟨3, 10⟩ := by
  obtain ⟨o, ho⟩ := (C14_accepts_iff_valid _).2 sampleHp_valid
  obtain ⟨ps, hp, hh⟩ := C13_simple_hours (K := K) ho (by norm_num [sampleHp]) (Or.inl rfl) rfl
  exact ⟨o, ps, ho, hp, C13_performance_covers_year ho hp, hh 8759 (by norm_num)⟩

/-- C13: the generic model evaluates each hour at that hour's flow and source temperature. -/
theorem C13_generic_hours {K : Kernels} {a : HpArgs} {o : HpObj} (hc : construct a = .ok o)
    (h0 : a.capacity ≠ 0) (hn : Names a.approach .generic) {p : HPType}
    (hp : a.hpType = .member p) {fs : List ℚ} (hfl : a.flow = .series fs) :
    ∃ ps, performance K o = .ok ps ∧ ∀ (h : ℕ) (f : ℚ) (row : ℚ × ℚ) (t : ℚ),
      fs[h]? = some f → a.ambient[h]? = some row →
      SourceTemp a.hpType row t → ps[h]? = some ⟨Generic.cop p f t, a.capacity⟩ := by
  obtain ⟨-, -, hf, -, ha, -, hty, hcap, -, -, hamb⟩ := construct_ok hc
  have hm := (construct_model hc).2.2.1 p hn hp
  have hlen := checkFullYear_length hf
  have hv : o.flow = .series fs := by
    rw [hfl] at hf
    unfold checkFullYear at hf
    dsimp only at hf
    split_ifs at hf
    injection hf with hf
    exact hf.symm
  rw [hv] at hlen
  change fs.length = 8760 at hlen
  unfold performance
  rw [if_neg (hcap ▸ h0), hm, hv]
  simp only [values, bind, Except.bind]
  rw [mkPerformance_eq (by
    rw [List.length_zipWith, List.length_replicate, heatResource_length, hamb, ha, hlen]; rfl)]
  refine ⟨_, rfl, fun h f row t h1 h2 h3 => ?_⟩
  obtain ⟨t', ht', ht2⟩ := heatResource_hour (o := o) (h := h) (row := row) (by rw [hamb, h2])
  rw [hty] at ht'
  rw [sourceTemp_unique ht' h3] at ht2
  have hh : h < 8760 := by
    rw [← hlen]
    exact (List.getElem?_eq_some_iff.1 h1).1
  refine perf_get ?_ (by rw [replicate_get _ hh, hcap])
  rw [List.getElem?_zipWith, h1, ht2]

/-- C13: the Lorentz model evaluates each hour at that hour's temperatures. -/
theorem C13_lorentz_hours {K : Kernels} {a : HpArgs} {o : HpObj} (hc : construct a = .ok o)
    (h0 : a.capacity ≠ 0) (hn : Names a.approach .lorentz) {s : LorentzSpec}
    (hs : a.lorentz = some s) {fs rs : List ℚ} (hfl : a.flow = .series fs)
    (hrl : a.ret = .series rs) :
    ∃ ps, performance K o = .ok ps ∧ ∀ (h : ℕ) (f r : ℚ) (row : ℚ × ℚ) (t : ℚ),
      fs[h]? = some f → rs[h]? = some r →
      a.ambient[h]? = some row → SourceTemp a.hpType row t →
      ps[h]? = some ⟨K.lorentzCop s f r t (t - a.ambientDeltaT),
        min (s.cop * s.elecCapacity) a.capacity⟩ := by
  obtain ⟨-, -, hf, hr, ha, -, hty, hcap, hdt, -, hamb⟩ := construct_ok hc
  have hm := (construct_model hc).2.1 s hn hs
  have hlen := checkFullYear_length hf
  have hlen' := checkFullYear_length hr
  have hv : o.flow = .series fs := by
    rw [hfl] at hf
    unfold checkFullYear at hf
    dsimp only at hf
    split_ifs at hf
    injection hf with hf
    exact hf.symm
  have hw : o.ret = .series rs := by
    rw [hrl] at hr
    unfold checkFullYear at hr
    dsimp only at hr
    split_ifs at hr
    injection hr with hr
    exact hr.symm
  rw [hv] at hlen
  rw [hw] at hlen'
  change fs.length = 8760 at hlen
  change rs.length = 8760 at hlen'
  unfold performance
  rw [if_neg (hcap ▸ h0), hm, hv, hw]
  simp only [values, bind, Except.bind]
  rw [mkPerformance_eq (by
    rw [List.length_zipWith, List.length_replicate, heatResource_length, hamb, ha, List.length_zip,
      hlen, hlen']; rfl)]
  refine ⟨_, rfl, fun h f r row t h1 h1' h2 h3 => ?_⟩
  obtain ⟨t', ht', ht2⟩ := heatResource_hour (o := o) (h := h) (row := row) (by rw [hamb, h2])
  rw [hty] at ht'
  rw [sourceTemp_unique ht' h3] at ht2
  have hh : h < 8760 := by
    rw [← hlen]
    exact (List.getElem?_eq_some_iff.1 h1).1
  refine perf_get ?_ (by rw [replicate_get _ hh, hcap]; rfl)
  rw [List.getElem?_zipWith, (List.getElem?_zip_eq_some (z := (f, r))).2 ⟨h1, h1'⟩, ht2,
    hdt]

example (K : Kernels) : ∃ o ps, construct { sampleHp with approach := .member .lorentz, flow := .series (List.replicate 8760 60), ret := .series (List.replicate 8760 40), lorentz := some ⟨3, 60, 40, 7, 2, 10⟩ } = .ok o ∧
    performance K o = .ok ps ∧ ps[8759]? = some ⟨K.lorentzCop ⟨3, 60, 40, 7, 2, 10⟩ 60 40 7 (7 - 5), min (3 * 10) 10⟩ := by
  obtain ⟨o, ho⟩ := (C14_accepts_iff_valid { sampleHp with approach := .member .lorentz, flow := .series (List.replicate 8760 60), ret := .series (List.replicate 8760 40), lorentz := some ⟨3, 60, 40, 7, 2, 10⟩ }).2
    ⟨sampleHp_valid.hpType, sampleHp_valid.dataInput, List.length_replicate, List.length_replicate,
      List.length_replicate, .lorentz _ (Or.inl rfl) rfl⟩
  obtain ⟨ps, hp, hh⟩ := C13_lorentz_hours (K := K) ho (by norm_num [sampleHp]) (Or.inl rfl) rfl rfl rfl
  exact ⟨o, ps, ho, hp, hh 8759 60 40 (7, 9) 7 (replicate_get _ (by norm_num)) (replicate_get _ (by norm_num))
    (by
      change (List.replicate 8760 ((7, 9) : ℚ × ℚ))[8759]? = _
      rw [List.getElem?_replicate, if_pos (by norm_num)]) ⟨fun _ => rfl, fun h => absurd (Or.inl rfl) h⟩⟩

/-- C13: the standard model evaluates each hour at that hour's temperatures; peak data lower the COP of
an air source pump by a tenth in the frost range. -/
theorem C13_standard_hours {K : Kernels} {a : HpArgs} {o : HpObj} (hc : construct a = .ok o)
    (h0 : a.capacity ≠ 0) (hn : Names a.approach .standard) {d : TestData}
    (hd : a.standard = some d) {fs : List ℚ} (hfl : a.flow = .series fs)
    (hdata : Names a.dataInput .integrated ∨ Names a.hpType .ashp) :
    ∃ ps, performance K o = .ok ps ∧ ∀ (h : ℕ) (f : ℚ) (row : ℚ × ℚ) (t : ℚ),
      fs[h]? = some f → a.ambient[h]? = some row →
      SourceTemp a.hpType row t → ∃ k : ℚ,
        (Names a.dataInput .peak ∧ t ≤ 5 → k = 9 / 10) ∧
        (¬ (Names a.dataInput .peak ∧ t ≤ 5) → k = 1) ∧
        ps[h]? = some ⟨Standard.cop (K.fitCop d.points) t f * k,
          Standard.duty (K.fitDuty d.points) t f⟩ := by
  obtain ⟨-, ⟨di, hdi⟩, hf, -, ha, -, hty, hcap, -, hdin, hamb⟩ := construct_ok hc
  have hm := (construct_model hc).2.2.2 d hn hd
  have hlen := checkFullYear_length hf
  have hv : o.flow = .series fs := by
    rw [hfl] at hf
    unfold checkFullYear at hf
    dsimp only at hf
    split_ifs at hf
    injection hf with hf
    exact hf.symm
  rw [hv] at hlen
  change fs.length = 8760 at hlen
  have hfac : ∃ g : ℚ → ℚ, standardFactor o = .ok ((heatResource o).map g) ∧ ∀ t,
      (Names a.dataInput .peak ∧ t ≤ 5 → g t = 9 / 10) ∧
      (¬ (Names a.dataInput .peak ∧ t ≤ 5) → g t = 1) := by
    unfold standardFactor
    rw [hdin, hty]
    by_cases hi : Names a.dataInput .integrated
    · refine ⟨fun _ => 1, by rw [if_pos ((eqMember_iff _ _).2 hi)], fun t => ⟨?_, fun _ => rfl⟩⟩
      rintro ⟨hpk, -⟩
      exact absurd (names_unique dataInput_inj hi hpk) (by decide)
    · have hpk : Names a.dataInput .peak := by
        cases di
        · exact absurd hdi hi
        · exact hdi
      refine ⟨peakFactor, ?_, fun t => ⟨?_, ?_⟩⟩
      · rw [if_neg (fun h => hi ((eqMember_iff _ _).1 h)), if_pos ((eqMember_iff _ _).2 hpk),
          if_pos ((eqMember_iff _ _).2 (hdata.resolve_left hi))]
      · rintro ⟨-, ht⟩
        unfold peakFactor
        rw [if_pos ht]
      · intro h
        unfold peakFactor
        rw [if_neg (fun ht => h ⟨hpk, ht⟩)]
  obtain ⟨g, hg, hg2⟩ := hfac
  rw [performance_standard (hcap ▸ h0) hm, hv, hg]
  simp only [values, raw, Except.bind]
  rw [mkPerformance_eq (by
    rw [List.length_zipWith, List.length_zipWith, List.length_zipWith, List.length_map,
      heatResource_length, hamb, ha, hlen]; rfl)]
  refine ⟨_, rfl, fun h f row t h1 h2 h3 => ⟨g t, (hg2 t).1, (hg2 t).2, ?_⟩⟩
  obtain ⟨t', ht', ht2⟩ := heatResource_hour (o := o) (h := h) (row := row) (by rw [hamb, h2])
  rw [hty] at ht'
  rw [sourceTemp_unique ht' h3] at ht2
  refine perf_get ?_ ?_
  · rw [List.getElem?_zipWith, List.getElem?_zipWith, ht2, h1, List.getElem?_map, ht2]
    rfl
  · rw [List.getElem?_zipWith, ht2, h1]

example (K : Kernels) : ∃ o ps, construct { sampleHp with approach := .member .standard, flow := .series (List.replicate 8760 60), standard := some ⟨[2, 2], [2, 1], [2, 1], [⟨7, 35, 4, 10⟩, ⟨2, 55, 2, 9⟩]⟩ } = .ok o ∧
    performance K o = .ok ps ∧ ∃ p, ps[8759]? = some p := by
  obtain ⟨o, ho⟩ := (C14_accepts_iff_valid { sampleHp with approach := .member .standard, flow := .series (List.replicate 8760 60), standard := some ⟨[2, 2], [2, 1], [2, 1], [⟨7, 35, 4, 10⟩, ⟨2, 55, 2, 9⟩]⟩ }).2
    ⟨sampleHp_valid.hpType, sampleHp_valid.dataInput, List.length_replicate, trivial,
      List.length_replicate, .standard _ (Or.inl rfl) rfl
        ⟨2, by norm_num, rfl, Or.inr ⟨1, by norm_num, rfl⟩, Or.inr ⟨1, by norm_num, rfl⟩⟩⟩
  obtain ⟨ps, hp, hh⟩ := C13_standard_hours (K := K) ho (by norm_num [sampleHp]) (Or.inl rfl) rfl rfl
    (Or.inr (Or.inl rfl))
  obtain ⟨k, -, -, h⟩ := hh 8759 60 (7, 9) 7 (replicate_get _ (by norm_num)) (by
      change (List.replicate 8760 ((7, 9) : ℚ × ℚ))[8759]? = _
      rw [List.getElem?_replicate, if_pos (by norm_num)])
    ⟨fun _ => rfl, fun h => absurd (Or.inl rfl) h⟩
  exact ⟨o, ps, ho, hp, _, h⟩

/-- C12: with capacity zero the yearly performance is 8760 values of duty zero, whatever the model. -/
theorem C12_year_zero (K : Kernels) {o : HpObj} (h0 : o.capacity = 0) :
    ∃ ps, performance K o = .ok ps ∧ ps.length = 8760 ∧ ∀ p ∈ ps, p.duty = 0 ∧ 0 < p.cop := by
  unfold performance
  rw [if_pos h0, mkPerformance_eq (by rw [List.length_replicate, List.length_replicate])]
  refine ⟨_, rfl, ?_, ?_⟩
  · rw [List.length_zipWith, List.length_replicate, List.length_replicate]
    rfl
  · intro p hp
    rw [List.zipWith_replicate] at hp
    rw [List.eq_of_mem_replicate hp]
    norm_num

example (K : Kernels) : ∃ o ps, construct { sampleHp with capacity := 0 } = .ok o ∧ performance K o = .ok ps ∧
    ps.length = 8760 := by
  obtain ⟨o, ho⟩ := (C14_accepts_iff_valid { sampleHp with capacity := 0 }).2
    ⟨sampleHp_valid.hpType, sampleHp_valid.dataInput, trivial, trivial, List.length_replicate, .simple 3 (Or.inl rfl) rfl⟩
  obtain ⟨-, -, -, -, -, -, -, h0, -⟩ := construct_ok ho
  obtain ⟨ps, h1, h2, -⟩ := C12_year_zero K h0
  exact ⟨o, ps, ho, h1, h2⟩

/-- C65, negation: the generic model can be chosen in the input sheet, but `init` raises `KeyError` for
every sheet that chooses it. -/
theorem C65_generic_never_runs (K : Kernels) {s : Sheet} (h : s.approach = .generic) :
    runSheet K s = .error .keyError := by
  unfold runSheet initArgs
  rw [h]

/-- C65, negation: the Lorentz model can be chosen, but fails with `AttributeError` on every valid
sheet with a pump, because the return temperature is one number. -/
theorem C65_lorentz_never_runs (K : Kernels) {s : Sheet} (hs : SheetOk s)
    (h : s.approach = .lorentz) (h0 : s.capacity ≠ 0) :
    runSheet K s = .error .attributeError := by
  obtain ⟨a, ha, hh⟩ := initArgs_ok (s := s) (by rw [h]; decide)
  have hv : ValidConfig a := initArgs_valid hs ha
  obtain ⟨o, ho⟩ := (C14_accepts_iff_valid a).2 hv
  obtain ⟨h1, h2, h3, h4, h5, h6, h7, h8, h9, h10⟩ := hh
  have hm := (construct_model ho).2.1 s.lorentz (Or.inl (by rw [h2, h])) (h9 h)
  obtain ⟨-, -, hf, hr, -, -, -, hcap, -⟩ := construct_ok ho
  have hfl : o.flow = .series s.source := by
    rw [h5] at hf
    unfold checkFullYear at hf
    dsimp only at hf
    split_ifs at hf
    injection hf with hf
    exact hf.symm
  have hrt : o.ret = .array (List.replicate 8760 s.ret) := by
    rw [h6] at hr
    unfold checkFullYear at hr
    injection hr with hr
    exact hr.symm
  unfold runSheet
  rw [ha]
  dsimp only
  rw [ho]
  dsimp only
  unfold performance
  rw [if_neg (by rw [hcap, h3]; exact h0), hm, hfl, hrt]
  rfl

/-- C65: the simple model runs on every valid sheet. -/
theorem C65_simple_runs_partial (K : Kernels) {s : Sheet} (hs : SheetOk s)
    (h : s.approach = .simple) :
    ∃ ps, runSheet K s = .ok ps ∧ ps.length = 8760 := by
  obtain ⟨a, ha, h1, h2, h3, h4, h5, h6, h7, h8, h9, h10⟩ :=
    initArgs_ok (s := s) (by rw [h]; decide)
  obtain ⟨o, ho⟩ := (C14_accepts_iff_valid a).2 (initArgs_valid hs ha)
  have hok : ∃ ps, performance K o = .ok ps := by
    by_cases h0 : a.capacity = 0
    · obtain ⟨ps, hp, -⟩ := C12_year_zero K (o := o) (by
        obtain ⟨-, -, -, -, -, -, -, hcap, -⟩ := construct_ok ho; rw [hcap, h0])
      exact ⟨ps, hp⟩
    · obtain ⟨ps, hp, -⟩ := C13_simple_hours (K := K) ho h0 (Or.inl (by rw [h2, h])) (h8 h)
      exact ⟨ps, hp⟩
  obtain ⟨ps, hp⟩ := hok
  refine ⟨ps, ?_, C13_performance_covers_year ho hp⟩
  unfold runSheet
  rw [ha]
  dsimp only
  rw [ho]
  exact hp

/-- C65: the standard model runs on every valid sheet, unless peak data are given for a pump that is not
air source. -/
theorem C65_standard_runs_partial (K : Kernels) {s : Sheet} (hs : SheetOk s)
    (h : s.approach = .standard) (hd : s.dataInput = .integrated ∨ s.hpType = .ashp) :
    ∃ ps, runSheet K s = .ok ps ∧ ps.length = 8760 := by
  obtain ⟨a, ha, h1, h2, h3, h4, h5, h6, h7, h8, h9, h10⟩ :=
    initArgs_ok (s := s) (by rw [h]; decide)
  obtain ⟨o, ho⟩ := (C14_accepts_iff_valid a).2 (initArgs_valid hs ha)
  have hok : ∃ ps, performance K o = .ok ps := by
    by_cases h0 : a.capacity = 0
    · obtain ⟨ps, hp, -⟩ := C12_year_zero K (o := o) (by
        obtain ⟨-, -, -, -, -, -, -, hcap, -⟩ := construct_ok ho; rw [hcap, h0])
      exact ⟨ps, hp⟩
    · obtain ⟨ps, hp, -⟩ := C13_standard_hours (K := K) ho h0 (Or.inl (by rw [h2, h])) (h10 h) h5
        (hd.imp (fun e => Or.inl (by rw [h4, e])) (fun e => Or.inl (by rw [h1, e])))
      exact ⟨ps, hp⟩
  obtain ⟨ps, hp⟩ := hok
  refine ⟨ps, ?_, C13_performance_covers_year ho hp⟩
  unfold runSheet
  rw [ha]
  dsimp only
  rw [ho]
  exact hp

/-- A sheet for the standard model; the other models' inputs are present but not read. -/
def Spec.sampleSheet : Sheet :=
  { hpType := .ashp, approach := .standard, capacity := 10, ambientDeltaT := 5, dataInput := .peak,
    source := List.replicate 8760 60, ret := 40, ambient := List.replicate 8760 (7, 9),
    simpleCop := 3, lorentz := ⟨3, 60, 40, 7, 2, 10⟩,
    standard := ⟨[2, 2], [2, 1], [2, 1], [⟨7, 35, 4, 10⟩, ⟨2, 55, 2, 9⟩]⟩ }

theorem Spec.sampleSheet_ok (m : ModelName) : SheetOk { sampleSheet with approach := m } :=
  ⟨List.length_replicate, List.length_replicate, fun _ =>
    ⟨2, by norm_num, rfl, Or.inr ⟨1, by norm_num, rfl⟩, Or.inr ⟨1, by norm_num, rfl⟩⟩⟩

example (K : Kernels) : runSheet K { sampleSheet with approach := .generic } = .error .keyError :=
  C65_generic_never_runs K rfl

example (K : Kernels) : ∃ ps, runSheet K sampleSheet = .ok ps ∧ ps.length = 8760 :=
  C65_standard_runs_partial K (sampleSheet_ok .standard) rfl (Or.inr rfl)

example (K : Kernels) : ∃ ps, runSheet K { sampleSheet with approach := .simple } = .ok ps ∧
    ps.length = 8760 :=
  C65_simple_runs_partial K (sampleSheet_ok .simple) rfl

example (K : Kernels) : runSheet K { sampleSheet with approach := .lorentz } =
    .error .attributeError :=
  C65_lorentz_never_runs K (sampleSheet_ok .lorentz) rfl (by norm_num [sampleSheet])

/-- The hourly theorems on a generic pump: ambient 7, flow 60, COP of an air source pump. -/
example (K : Kernels) : ∃ o ps, construct { sampleHp with approach := .member .generic, flow := .series (List.replicate 8760 60) } = .ok o ∧
    performance K o = .ok ps ∧ ps[8759]? = some ⟨Generic.cop .ashp 60 7, 10⟩ := by
  have hv : ValidConfig { sampleHp with approach := .member .generic, flow := .series (List.replicate 8760 60) } :=
    ⟨sampleHp_valid.hpType, sampleHp_valid.dataInput, List.length_replicate, trivial,
      List.length_replicate, .generic .ashp (Or.inl rfl) rfl⟩
  obtain ⟨o, ho⟩ := (C14_accepts_iff_valid _).2 hv
  obtain ⟨ps, hp, hh⟩ := C13_generic_hours (K := K) ho (by norm_num [sampleHp]) (Or.inl rfl)
    (p := .ashp) rfl rfl
  refine ⟨o, ps, ho, hp, hh 8759 60 (7, 9) 7 (replicate_get _ (by norm_num)) ?_
    ⟨fun _ => rfl, fun h => absurd (Or.inl rfl) h⟩⟩
  change (List.replicate 8760 ((7, 9) : ℚ × ℚ))[8759]? = _
  rw [List.getElem?_replicate, if_pos (by norm_num)]

end Verif
