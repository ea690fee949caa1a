import Verif.Lemmas.Figures
import Verif.Spec.Figures
import Verif.Props.Run

/-!
# C85: figures show the hours they say; C86: bar charts; C87: stacks
-/

set_option autoImplicit false

namespace Verif
open Figures Spec
variable {N : Type}

/-! ## C85 -/

/-- First hour and length of what is drawn. -/
def window (n : ℕ) (p : Period) : ℕ × ℕ :=
  if n = 8760 then (match p with
    | .winter => (24, 168)
    | .summer => (4380, 168)
    | _ => (0, 8760))
  else (0, n)

theorem periods_window {n : ℕ} {pb : Period × Bool} (hpb : pb ∈ periods n) (rs : List (Results N)) (first : ℕ) :
    periodTimesteps (⟨rs, n, first, pb.1⟩ : Plot N) = .ok (window n pb.1) ∧
      (window n pb.1).1 + (window n pb.1).2 ≤ n := by
  unfold periods at hpb
  by_cases hn : n = 8760
  · rw [if_pos hn] at hpb
    simp only [List.mem_cons, List.not_mem_nil, or_false] at hpb
    unfold periodTimesteps window
    rw [if_pos hn, if_pos hn, hn]
    rcases hpb with rfl | rfl | rfl <;> exact ⟨rfl, by norm_num⟩
  · rw [if_neg hn] at hpb
    unfold periodTimesteps window
    rw [if_neg hn, if_neg hn]
    exact ⟨rfl, by omega⟩

/-- The tables of the code mark every curve with the quantity it is. -/
theorem ordinary_quantity : ∀ q ∈ (ordinary : List (Label × (Results N → ℚ))), quantity q.1 = some q.2 := by
  intro q hq
  simp only [ordinary, elecDemandStack, generationStack, usageStack, heatStack, pumpHeatStack, pumpElecStack,
    performance, tank, battery, grid, List.cons_append, List.nil_append, List.mem_cons, List.not_mem_nil,
    or_false, neg_one_mul] at hq
  repeat' (first | (rcases hq with rfl | hq) | subst hq)
  all_goals rfl

theorem operation_quantity : ∀ q ∈ (operation : List (Label × (Results N → ℚ))), quantity q.1 = some q.2 := by
  intro q hq
  simp only [operation, List.mem_cons, List.not_mem_nil, or_false] at hq
  repeat' (first | (rcases hq with rfl | hq) | subst hq)
  all_goals rfl

/-- What is drawn, in terms of the position in the results. -/
theorem drawn_get {rs : List (Results N)} {n first : ℕ} (hl : rs.length = n) {ds : List Drawn}
    (h : runPlots rs n first = .ok ds) {d : Drawn} (hd : d ∈ ds) :
    (window n d.period).1 + (window n d.period).2 ≤ n ∧
    (∀ c ∈ d.ordinary, ∃ f, quantity c.1 = some f ∧ ∀ k, c.2[k]? = if k < (window n d.period).2 then
        rs[(window n d.period).1 + k]?.map (fun r => ((window n d.period).1 + k, f r)) else none) ∧
    (∀ c ∈ d.operation, ∃ f, quantity c.1 = some f ∧ ∀ k, c.2[k]? = if k < (window n d.period).2 then
        rs[(window n d.period).1 + k]?.map (fun r => (k, f r)) else none) := by
  obtain ⟨pb, hpb, hdr⟩ := runPlots_mem h hd
  obtain ⟨hper, hop, hor, -, -, -⟩ := drawPeriod_ok hdr
  obtain ⟨hw, hwl⟩ := periods_window hpb rs first
  rw [hper]
  refine ⟨hwl, fun c hc => ?_, fun c hc => ?_⟩
  · obtain ⟨f, hf, hcf⟩ := mem_curves hor hc
    exact ⟨f, ordinary_quantity _ hf, fun k => curve_get hl hw hcf k⟩
  · obtain ⟨f, hf, hcf⟩ := mem_curves hop hc
    exact ⟨f, operation_quantity _ hf, fun k => curveFromZero_get hl hw hcf k⟩

theorem mem_of_get {rs : List (Results N)} {pts : List (ℕ × ℚ)} {a b n : ℕ} {f : Results N → ℚ}
    (hg : ∀ k, pts[k]? = if k < n then rs[b + k]?.map (fun r => (a + k, f r)) else none) {h : ℕ} {v : ℚ}
    (hm : (h, v) ∈ pts) : ∃ k r, h = a + k ∧ k < n ∧ rs[b + k]? = some r ∧ v = f r := by
  obtain ⟨k, hk⟩ := List.mem_iff_getElem?.1 hm
  rw [hg k] at hk
  by_cases hkn : k < n
  · rw [if_pos hkn] at hk
    cases hr : rs[b + k]? with
    | none => rw [hr] at hk; cases hk
    | some r =>
      rw [hr] at hk
      have := Option.some.inj hk
      exact ⟨k, r, (congrArg Prod.fst this).symm, hkn, hr, (congrArg Prod.snd this).symm⟩
  · rw [if_neg hkn] at hk
    cases hk

/-- The figures of a full year show, at each hour of the year they cover, the quantity named in the legend at that
hour, and they cover the whole year, a week of winter and a week of summer. (All figures but 'operation'.) -/
theorem C85_year_figures {rs : List (Results N)} (hl : rs.length = 8760) {ds : List Drawn}
    (h : runPlots rs 8760 0 = .ok ds) {d : Drawn} (hd : d ∈ ds) {c : Curve} (hc : c ∈ d.ordinary) :
    ∃ f, quantity c.1 = some f ∧ ShowsItsHour 0 rs f c.2 ∧ c.2.map Prod.fst = shownHours d.period := by
  obtain ⟨hw, ho, -⟩ := drawn_get hl h hd
  obtain ⟨f, hf, hg⟩ := ho c hc
  refine ⟨f, hf, ?_, ?_⟩
  · intro hh v hm
    obtain ⟨k, r, rfl, -, hr, hv⟩ := mem_of_get hg hm
    refine ⟨r, ?_, hv⟩
    unfold resultAt
    rw [if_pos (Nat.zero_le _), Nat.sub_zero]
    exact hr
  · rw [labels_of_get (by rw [hl]; exact hw) hg]
    unfold window shownHours
    rw [if_pos rfl]
    cases d.period <;> rfl

/-- Of a full year the periods drawn are the year, the winter week and the summer week; of another run, the run. -/
theorem C85_periods {rs : List (Results N)} {n first : ℕ} {ds : List Drawn} (h : runPlots rs n first = .ok ds) :
    ds.map (·.period) = if n = 8760 then [.year, .winter, .summer] else [.user] := by
  have e : ds.map (·.period) = (periods n).map (·.1) := by
    have := mapM_ok_iff.1 h
    clear h
    generalize periods n = ps at this ⊢
    induction this with
    | nil => rfl
    | cons h1 _ ih => rw [List.map_cons, List.map_cons, ih, (drawPeriod_ok h1).1]
  rw [e]
  unfold periods
  split_ifs <;> rfl

/-- Every figure has all its curves, each once. -/
theorem C85_all_curves {rs : List (Results N)} {n first : ℕ} {ds : List Drawn}
    (h : runPlots rs n first = .ok ds) {d : Drawn} (hd : d ∈ ds) :
    (d.ordinary.map Prod.fst).Nodup ∧ (d.operation.map Prod.fst).Nodup ∧ d.operation.length = 6 ∧
    ∀ x ∈ curvesIn, (d.ordinary.filter fun c => c.1.figure = x.1).length = x.2 := by
  obtain ⟨pb, hpb, hdr⟩ := runPlots_mem h hd
  obtain ⟨-, hop, hor, -, -, -⟩ := drawPeriod_ok hdr
  have e1 := curves_labels hor
  have e2 := curves_labels hop
  have e3 : ∀ fig : String, (d.ordinary.filter fun c => c.1.figure = fig).length =
      ((d.ordinary.map Prod.fst).filter fun l => l.figure = fig).length := by
    intro fig
    rw [List.filter_map, List.length_map]
    rfl
  simp only [e3]
  have e4 : d.operation.length = (d.operation.map Prod.fst).length := (List.length_map _).symm
  rw [e4, e1, e2, show (ordinary : List (Label × (Results N → ℚ))).map Prod.fst =
    (ordinary : List (Label × (Results Unit → ℚ))).map Prod.fst from rfl,
    show (operation : List (Label × (Results N → ℚ))).map Prod.fst =
    (operation : List (Label × (Results Unit → ℚ))).map Prod.fst from rfl]
  decide +kernel

/-- A run from the start of the year that is shorter than a year is shown at its own hours, completely. -/
theorem C85_part_year_from_start {rs : List (Results N)} {n : ℕ} (hn : n ≠ 8760) (hl : rs.length = n)
    {ds : List Drawn} (h : runPlots rs n 0 = .ok ds) {d : Drawn} (hd : d ∈ ds) {c : Curve}
    (hc : c ∈ d.ordinary ∨ c ∈ d.operation) :
    ∃ f, quantity c.1 = some f ∧ ShowsItsHour 0 rs f c.2 ∧ c.2.map Prod.fst = List.range' 0 n := by
  obtain ⟨hw, ho, hz⟩ := drawn_get hl h hd
  have e : window n d.period = (0, n) := if_neg hn
  rw [e] at hw ho hz
  have key : ∀ (f : Results N → ℚ) (pts : List (ℕ × ℚ)),
      (∀ k, pts[k]? = if k < n then rs[0 + k]?.map (fun r => (0 + k, f r)) else none) →
      ShowsItsHour 0 rs f pts ∧ pts.map Prod.fst = List.range' 0 n := by
    intro f pts hg
    refine ⟨fun hh v hm => ?_, labels_of_get (by rw [hl]; omega) hg⟩
    obtain ⟨k, r, rfl, -, hr, hv⟩ := mem_of_get hg hm
    exact ⟨r, by unfold resultAt; rw [if_pos (Nat.zero_le _), Nat.sub_zero]; exact hr, hv⟩
  rcases hc with hc | hc
  · obtain ⟨f, hf, hg⟩ := ho c hc
    exact ⟨f, hf, key f _ hg⟩
  · obtain ⟨f, hf, hg⟩ := hz c hc
    exact ⟨f, hf, key f _ fun k => by simpa using hg k⟩

/-- C85 is false of a run of part of a year from hour `first`: the value shown at hour `h` is that of hour
`first + h`. -/
theorem C85_part_year_shifted {rs : List (Results N)} {n first : ℕ} (hn : n ≠ 8760) (hl : rs.length = n)
    {ds : List Drawn} (h : runPlots rs n first = .ok ds) {d : Drawn} (hd : d ∈ ds) {c : Curve}
    (hc : c ∈ d.ordinary) : ∃ f, quantity c.1 = some f ∧
    ∀ hour v, (hour, v) ∈ c.2 → hour < n ∧ ∃ r, resultAt first rs (first + hour) = some r ∧ v = f r := by
  obtain ⟨hw, ho, -⟩ := drawn_get hl h hd
  have e : window n d.period = (0, n) := if_neg hn
  rw [e] at ho
  obtain ⟨f, hf, hg⟩ := ho c hc
  refine ⟨f, hf, fun hour v hm => ?_⟩
  obtain ⟨k, r, rfl, hk, hr, hv⟩ := mem_of_get hg hm
  simp only [Nat.zero_add] at hr ⊢
  refine ⟨hk, r, ?_, hv⟩
  unfold resultAt
  rw [if_pos (Nat.le_add_right _ _), Nat.add_sub_cancel_left]
  exact hr

/-- C85 is false of 'operation' in a full year: the value shown at hour `h` of the winter week is that of hour
`24 + h`, and of the summer week that of hour `4380 + h`. -/
theorem C85_operation_shifted {rs : List (Results N)} (hl : rs.length = 8760) {ds : List Drawn}
    (h : runPlots rs 8760 0 = .ok ds) {d : Drawn} (hd : d ∈ ds) {c : Curve} (hc : c ∈ d.operation) :
    ∃ f, quantity c.1 = some f ∧ ∀ hour v, (hour, v) ∈ c.2 → ∃ r, resultAt 0 rs
      ((match d.period with | .winter => 24 | .summer => 4380 | _ => 0) + hour) = some r ∧ v = f r := by
  obtain ⟨hw, -, hz⟩ := drawn_get hl h hd
  obtain ⟨f, hf, hg'⟩ := hz c hc
  refine ⟨f, hf, fun hour v hm => ?_⟩
  have hg : ∀ k, c.2[k]? = if k < (window 8760 d.period).2 then
      rs[(window 8760 d.period).1 + k]?.map (fun r => (0 + k, f r)) else none := by
    intro k
    rw [Nat.zero_add]
    exact hg' k
  obtain ⟨k, r, rfl, hk, hr, hv⟩ := mem_of_get hg hm
  refine ⟨r, ?_, hv⟩
  unfold resultAt
  rw [if_pos (Nat.zero_le _), Nat.sub_zero, Nat.zero_add, ← hr]
  unfold window
  rw [if_pos rfl]
  cases d.period <;> rfl

/-- Drawing succeeds for every run with one result per hour and at least one hour. -/
theorem C85_figures_drawn {rs : List (Results N)} {n : ℕ} (hl : rs.length = n) (hn : n ≠ 0) (first : ℕ) :
    ∃ ds, runPlots rs n first = .ok ds := by
  refine mapM_total fun pb hpb => ?_
  obtain ⟨hw, hwl⟩ := periods_window hpb rs first
  obtain ⟨a, ha⟩ := mapM_total (f := fun q => (q.1, ·) <$> curveFromZero (⟨rs, n, first, pb.1⟩ : Plot N) q.2)
    (xs := operation) fun q _ => (curveFromZero_ok hl hw hwl q.2).elim fun pts e => ⟨(q.1, pts), by rw [e]; rfl⟩
  obtain ⟨b, hb⟩ := mapM_total (f := fun q => (q.1, ·) <$> curve (⟨rs, n, first, pb.1⟩ : Plot N) q.2)
    (xs := ordinary) fun q _ => (curve_ok hl hw hwl q.2).elim fun pts e => ⟨(q.1, pts), by rw [e]; rfl⟩
  have hwn : (window n pb.1).1 < n := by
    unfold window
    by_cases h : n = 8760
    · rw [if_pos h, h]
      cases pb.1 <;> norm_num
    · rw [if_neg h]
      exact Nat.pos_of_ne_zero hn
  have hlen : (window n pb.1).1 < rs.length := by rw [hl]; exact hwn
  have hleg : ∃ x, legend (⟨rs, n, first, pb.1⟩ : Plot N) = .ok x := by
    refine ⟨rs[(window n pb.1).1].ts.finalNodesTemp, ?_⟩
    unfold legend
    simp only [FixedOrder.except_bind_ok]
    refine ⟨_, column_ok hl _, _, hw, ?_⟩
    rw [List.getElem?_map, List.getElem?_eq_getElem hlen]
    rfl
  obtain ⟨x, hx⟩ := hleg
  have hbar : ∃ bs, resBar (⟨rs, n, first, pb.1⟩ : Plot N) = .ok bs := by
    unfold resBar bars
    simp only [column_ok (P := (⟨rs, n, first, pb.1⟩ : Plot N)) hl]
    exact ⟨_, rfl⟩
  obtain ⟨bs, hbs⟩ := hbar
  unfold drawPeriod draw
  rw [ha, hb, hx, hbs]
  cases pb.2
  · exact ⟨_, rfl⟩
  · exact ⟨_, rfl⟩

/-- A run of no hours cannot be drawn. -/
theorem C85_no_hours (first : ℕ) : runPlots ([] : List (Results N)) 0 first = .error .indexError := rfl

/-- Results that can be told apart: a price of `k` in the `k`-th. -/
def Samples.counted (n : ℕ) : List (Results Unit) :=
  (List.range n).map fun k : ℕ => { grid := { importPrice := k }, hp := { heatTotalOutput := k } }

theorem Samples.counted_length (n : ℕ) : (Samples.counted n).length = n := by
  unfold Samples.counted
  rw [List.length_map, List.length_range]

theorem Samples.counted_get {n k : ℕ} (h : k < n) :
    (Samples.counted n)[k]? = some { grid := { importPrice := k }, hp := { heatTotalOutput := k } } := by
  unfold Samples.counted
  rw [List.getElem?_map, List.getElem?_range h]
  rfl

example : ∃ rs ds, FixedOrder.runTimesteps sampleRun 0 8760 = .ok rs ∧ runPlots rs 8760 0 = .ok ds ∧
    ds.map (·.period) = [.year, .winter, .summer] ∧
    ∀ d ∈ ds, (d.ordinary.map Prod.fst).Nodup ∧ (∀ c ∈ d.ordinary, ∃ f, quantity c.1 = some f ∧
        ShowsItsHour 0 rs f c.2 ∧ c.2.map Prod.fst = shownHours d.period) ∧
      ∀ c ∈ d.operation, ∃ f, quantity c.1 = some f ∧ ∀ hour v, (hour, v) ∈ c.2 → ∃ r, resultAt 0 rs
        ((match d.period with | .winter => 24 | .summer => 4380 | _ => 0) + hour) = some r ∧ v = f r := by
  obtain ⟨rs, h⟩ := sampleRun_runs 0 8760 le_rfl
  have hl := C27_one_result_per_hour h
  obtain ⟨ds, hd⟩ := C85_figures_drawn hl (by norm_num) 0
  exact ⟨rs, ds, h, hd, (C85_periods hd).trans (if_pos rfl), fun d hm => ⟨(C85_all_curves hd hm).1,
    fun c hc => C85_year_figures hl hd hm hc, fun c hc => C85_operation_shifted hl hd hm hc⟩⟩

example : ∃ rs ds rs' ds', FixedOrder.runTimesteps sampleRun 0 50 = .ok rs ∧ runPlots rs 50 0 = .ok ds ∧
    FixedOrder.runTimesteps sampleRun 100 50 = .ok rs' ∧ runPlots rs' 50 100 = .ok ds' ∧
    (∀ d ∈ ds, ∀ c ∈ d.ordinary, ∃ f, quantity c.1 = some f ∧ ShowsItsHour 0 rs f c.2 ∧
      c.2.map Prod.fst = List.range' 0 50) ∧
    ∀ d ∈ ds', ∀ c ∈ d.ordinary, ∃ f, quantity c.1 = some f ∧
      ∀ hour v, (hour, v) ∈ c.2 → hour < 50 ∧ ∃ r, resultAt 100 rs' (100 + hour) = some r ∧ v = f r := by
  obtain ⟨rs, h⟩ := sampleRun_runs 0 50 (by norm_num)
  obtain ⟨rs', h'⟩ := sampleRun_runs 100 50 (by norm_num)
  have hl := C27_one_result_per_hour h
  have hl' := C27_one_result_per_hour h'
  obtain ⟨ds, hd⟩ := C85_figures_drawn hl (by norm_num) 0
  obtain ⟨ds', hd'⟩ := C85_figures_drawn hl' (by norm_num) 100
  exact ⟨rs, ds, rs', ds', h, hd, h', hd', fun d hm c hc => C85_part_year_from_start (by norm_num) hl hd hm (Or.inl hc),
    fun d hm c hc => C85_part_year_shifted (by norm_num) hl' hd' hm hc⟩

/-- C85 is false of part of a year: ten hours from hour 5, the price shown at hour 7 is that of hour 12. -/
theorem C85_part_year_false : ∃ ds, runPlots (Samples.counted 10) 10 5 = .ok ds ∧
    (∃ d ∈ ds[0]?, ∃ c ∈ d.ordinary, c.1 = ⟨"grid.png", "import price (Pounds/MWh)", ""⟩ ∧ ((7, 7) : ℕ × ℚ) ∈ c.2) ∧
    (resultAt 5 (Samples.counted 10) 7).map (fun r => r.grid.importPrice) = some 2 ∧
    (resultAt 5 (Samples.counted 10) 12).map (fun r => r.grid.importPrice) = some 7 :=
  exists_of_checks (by decide +kernel)

/-- C85 is false of 'operation' in a full year: among the figures of the winter week the price shown at hour 0
is that of hour 24. -/
theorem C85_operation_false : ∃ ds, runPlots (Samples.counted 8760) 8760 0 = .ok ds ∧
    ∃ d ∈ ds, d.period = .winter ∧ ∃ c ∈ d.operation, c.1 = ⟨"operation.png", "Import cost (Pounds per MWh)", ""⟩ ∧
    ((0, 24) : ℕ × ℚ) ∈ c.2 ∧
    (resultAt 0 (Samples.counted 8760) 0).map (fun r => r.grid.importPrice) = some 0 := by
  obtain ⟨ds, hds⟩ := C85_figures_drawn (Samples.counted_length 8760) (by norm_num) 0
  have h1 : (periods 8760)[1]? = some (.winter, false) := by unfold periods; rw [if_pos rfl]; rfl
  obtain ⟨d, hd, hdr⟩ := mapM_get hds h1
  have hmem : d ∈ ds := List.mem_of_getElem? hd
  obtain ⟨hper, hop, -⟩ := drawPeriod_ok hdr
  obtain ⟨c, hc, hcc⟩ := mapM_get hop (i := 3)
    (x := (⟨"operation.png", "Import cost (Pounds per MWh)", ""⟩, fun r : Results Unit => r.grid.importPrice)) rfl
  obtain ⟨pts, -, rfl⟩ := except_map_ok.1 hcc
  obtain ⟨-, -, hz⟩ := drawn_get (Samples.counted_length 8760) hds hmem
  obtain ⟨f, hf, this⟩ := hz _ (List.mem_of_getElem? hc)
  cases Option.some.inj hf
  replace this := this 0
  have e : window 8760 d.period = (24, 168) := by rw [hper]; unfold window; rw [if_pos rfl]
  rw [e, if_pos (by norm_num), Nat.add_zero, Samples.counted_get (by norm_num)] at this
  refine ⟨ds, hds, d, hmem, hper, _, List.mem_of_getElem? hc, rfl, ?_, ?_⟩
  · refine List.mem_of_getElem? (i := 0) ?_
    rw [this]
    norm_num
  · unfold resultAt
    rw [if_pos le_rfl, Nat.sub_zero, Samples.counted_get (by norm_num)]
    norm_num

/-- The hypotheses of the theorems above are met by every full-year run of the sample system. -/
example : ∃ rs ds, FixedOrder.runTimesteps sampleRun 0 8760 = .ok rs ∧ rs.length = 8760 ∧
    runPlots rs 8760 0 = .ok ds := by
  obtain ⟨rs, h⟩ := sampleRun_runs 0 8760 le_rfl
  have hl := C27_one_result_per_hour h
  obtain ⟨ds, hd⟩ := C85_figures_drawn hl (by norm_num) 0
  exact ⟨rs, ds, h, hl, hd⟩

example : ∃ rs ds, FixedOrder.runTimesteps sampleRun 100 50 = .ok rs ∧ rs.length = 50 ∧
    runPlots rs 50 100 = .ok ds := by
  obtain ⟨rs, h⟩ := sampleRun_runs 100 50 (by norm_num)
  have hl := C27_one_result_per_hour h
  obtain ⟨ds, hd⟩ := C85_figures_drawn hl (by norm_num) 100
  exact ⟨rs, ds, h, hl, hd⟩

/-! ## C86: generation by month -/

theorem sum_take (xs : List ℚ) (n : ℕ) :
    (xs.take n).sum = ((List.range n).map fun h => xs[h]?.getD 0).sum := by
  induction n with
  | zero => simp
  | succ n ih =>
    rw [List.range_succ, List.map_append, List.sum_append, ← ih]
    by_cases h : n < xs.length
    · rw [List.take_add_one, List.sum_append]
      simp [List.getElem?_eq_getElem h]
    · push Not at h
      rw [List.take_of_length_le h, List.take_of_length_le (by omega)]
      simp [List.getElem?_eq_none h]

theorem slice_total (rs : List (Results N)) (f : Results N → ℚ) (a b : ℕ) :
    (Tools.slice (rs.map f) a b).sum = totalBetween 0 rs f a b := by
  unfold Tools.slice totalBetween
  rw [List.drop_take, sum_take, List.range'_eq_map_range, List.map_map]
  congr 1
  apply List.map_congr_left
  intro k _
  simp only [Function.comp_apply, List.getElem?_drop, List.getElem?_map]
  unfold resultAt
  rw [if_pos (Nat.zero_le _), Nat.sub_zero]

theorem bars_ok {P : Plot N} (hl : P.results.length = P.timesteps) {f : Results N → ℚ} {c : BarChart}
    (h : bars P f = .ok c) : c = ⟨Tools.sumMonthly (P.results.map f), "kWh",
      pyRound ((P.results.map f).sum / 1000) 2, "MWh"⟩ := by
  unfold bars at h
  rw [column_ok hl] at h
  exact (Except.ok.inj h).symm

/-- Exactly one of the drawings has bar charts: three of them. -/
theorem drawn_bars {rs : List (Results N)} {n first : ℕ} (hl : rs.length = n) {ds : List Drawn}
    (h : runPlots rs n first = .ok ds) {d : Drawn} (hd : d ∈ ds) {bs : List BarChart} (hb : d.bars = some bs) :
    bs = [fun r : Results N => r.res.wind, fun r => r.res.pv, fun r => r.res.generationTotal].map fun f =>
      ⟨Tools.sumMonthly (rs.map f), "kWh", pyRound ((rs.map f).sum / 1000) 2, "MWh"⟩ := by
  obtain ⟨pb, hpb, hdr⟩ := runPlots_mem h hd
  obtain ⟨-, -, -, -, h1, h2⟩ := drawPeriod_ok hdr
  cases hp : pb.2 with
  | false => rw [h2 hp] at hb; cases hb
  | true =>
    obtain ⟨bs', hr, hbs⟩ := h1 hp
    rw [hb] at hbs
    cases Option.some.inj hbs
    unfold resBar at hr
    simp only [FixedOrder.except_bind_ok, FixedOrder.except_pure_ok] at hr
    obtain ⟨w, hw, p, hp, r, hr, rfl⟩ := hr
    rw [bars_ok hl hw, bars_ok hl hp, bars_ok hl hr]
    rfl

/-- For a run from the start of the year, the bar of each month is the energy of that month, in MWh: wind in
the first chart, solar in the second, both together in the third. -/
theorem C86_month_energy_partial {rs : List (Results N)} {n : ℕ} (hl : rs.length = n) {ds : List Drawn}
    (h : runPlots rs n 0 = .ok ds) {d : Drawn} (hd : d ∈ ds) {bs : List BarChart} (hb : d.bars = some bs) :
    bs.map BarChart.bars = [fun r : Results N => r.res.wind, fun r => r.res.pv, fun r => r.res.generationTotal].map
      fun f => months.map fun m => (m.1, totalBetween 0 rs f m.2.1 m.2.2 / 1000) := by
  rw [drawn_bars hl h hd hb]
  simp only [List.map_cons, List.map_nil, Tools.sumMonthly, slice_total, months]

/-- The total in the title of each chart is the energy of the whole run, in MWh, to two decimals. -/
theorem C86_total {rs : List (Results N)} {n first : ℕ} (hl : rs.length = n) {ds : List Drawn}
    (h : runPlots rs n first = .ok ds) {d : Drawn} (hd : d ∈ ds) {bs : List BarChart} (hb : d.bars = some bs)
    {i : ℕ} {c : BarChart} (hc : bs[i]? = some c) {f : Results N → ℚ}
    (hf : [fun r : Results N => r.res.wind, fun r => r.res.pv, fun r => r.res.generationTotal][i]? = some f) :
    |c.total * kWhPer c.totalUnit - (rs.map f).sum| ≤ 5 := by
  rw [drawn_bars hl h hd hb, List.getElem?_map, hf] at hc
  cases Option.some.inj hc
  have := FixedOrder.pyRound_bounds ((rs.map f).sum / 1000) 2
  norm_num at this
  show |pyRound ((rs.map f).sum / 1000) 2 * kWhPer "MWh" - (rs.map f).sum| ≤ 5
  rw [show kWhPer "MWh" = 1000 from rfl, abs_le]
  constructor <;> linarith

/-- The bars of a chart of a run of at most a year add up to the energy of the run. -/
theorem C86_bars_add_up {rs : List (Results N)} {n first : ℕ} (hl : rs.length = n) (hn : n ≤ 8760)
    {ds : List Drawn} (h : runPlots rs n first = .ok ds) {d : Drawn} (hd : d ∈ ds) {bs : List BarChart}
    (hb : d.bars = some bs) {i : ℕ} {c : BarChart} (hc : bs[i]? = some c) {f : Results N → ℚ}
    (hf : [fun r : Results N => r.res.wind, fun r => r.res.pv, fun r => r.res.generationTotal][i]? = some f) :
    (c.bars.map Prod.snd).sum * 1000 = (rs.map f).sum := by
  rw [drawn_bars hl h hd hb, List.getElem?_map, hf] at hc
  cases Option.some.inj hc
  show ((Tools.sumMonthly (rs.map f)).map Prod.snd).sum * 1000 = _
  rw [C09_monthly_totals_add_up _ (by rw [List.length_map, hl]; exact hn)]
  ring

/-- Bar charts are drawn once for every run. -/
theorem C86_drawn_once {rs : List (Results N)} {n first : ℕ} {ds : List Drawn}
    (h : runPlots rs n first = .ok ds) : (ds.filter fun d => d.bars.isSome).length = 1 := by
  have key : ∀ (ps : List (Period × Bool)) (ds : List Drawn),
      List.Forall₂ (fun p d => drawPeriod rs n first p = .ok d) ps ds →
      (ds.filter fun d => d.bars.isSome).length = (ps.filter fun p => p.2).length := by
    intro ps ds hf
    induction hf with
    | nil => rfl
    | @cons p d ps ds h1 _ ih =>
      obtain ⟨-, -, -, -, h3, h4⟩ := drawPeriod_ok h1
      cases hp : p.2 with
      | true =>
        obtain ⟨bs, -, hb⟩ := h3 hp
        rw [List.filter_cons_of_pos (by rw [hb]; rfl), List.filter_cons_of_pos (by exact hp), List.length_cons,
          List.length_cons, ih]
      | false =>
        rw [List.filter_cons_of_neg (by rw [h4 hp]; simp), List.filter_cons_of_neg (by rw [hp]; simp), ih]
  rw [key _ _ (mapM_ok_iff.1 h)]
  unfold periods
  by_cases hn : n = 8760
  · rw [if_pos hn]; rfl
  · rw [if_neg hn]; rfl

/-- C86 is false of the unit: the axis of the bars says kWh, and read so every bar of a month with generation
is wrong, by a factor of a thousand. -/
theorem C86_axis_unit_wrong {rs : List (Results N)} {n : ℕ} (hl : rs.length = n) {ds : List Drawn}
    (h : runPlots rs n 0 = .ok ds) {d : Drawn} (hd : d ∈ ds) {bs : List BarChart} (hb : d.bars = some bs)
    {i j : ℕ} {c : BarChart} (hc : bs[i]? = some c) {f : Results N → ℚ}
    (hf : [fun r : Results N => r.res.wind, fun r => r.res.pv, fun r => r.res.generationTotal][i]? = some f)
    {m : String × ℕ × ℕ} (hm : months[j]? = some m) (he : totalBetween 0 rs f m.2.1 m.2.2 ≠ 0) :
    ∃ v, c.bars[j]? = some (m.1, v) ∧ v * kWhPer c.axisUnit ≠ totalBetween 0 rs f m.2.1 m.2.2 ∧
      1000 * (v * kWhPer c.axisUnit) = totalBetween 0 rs f m.2.1 m.2.2 := by
  have hbars := C86_month_energy_partial hl h hd hb
  have hci : (bs.map BarChart.bars)[i]? = some c.bars := by rw [List.getElem?_map, hc]; rfl
  rw [hbars, List.getElem?_map, hf] at hci
  have hcb := (Option.some.inj hci).symm
  rw [drawn_bars hl h hd hb, List.getElem?_map, hf] at hc
  have hu : c.axisUnit = "kWh" := by cases Option.some.inj hc; rfl
  refine ⟨totalBetween 0 rs f m.2.1 m.2.2 / 1000, ?_, ?_, ?_⟩
  · rw [hcb, List.getElem?_map, hm]
    rfl
  · rw [hu, show kWhPer "kWh" = 1 from rfl]
    intro hh
    apply he
    linarith
  · rw [hu, show kWhPer "kWh" = 1 from rfl]
    ring

/-- A year of sunshine in January only. -/
def Samples.sunny : List (Results Unit) := List.replicate 50 { res := { pv := 2, generationTotal := 2 } }

example : ∃ ds, runPlots Samples.sunny 50 0 = .ok ds ∧ ∃ d ∈ ds, ∃ bs c, d.bars = some bs ∧ bs[1]? = some c ∧
    |c.total * kWhPer c.totalUnit - 100| ≤ 5 ∧ (c.bars.map Prod.snd).sum * 1000 = 100 ∧
    ∃ v, c.bars[0]? = some ("jan", v) ∧ 1000 * (v * kWhPer c.axisUnit) = 100 ∧ v * kWhPer c.axisUnit ≠ 100 := by
  have hl : Samples.sunny.length = 50 := List.length_replicate
  obtain ⟨ds, h⟩ := C85_figures_drawn hl (by norm_num) 0
  have := C86_drawn_once h
  obtain ⟨d, hd⟩ := List.exists_mem_of_length_pos (by rw [this]; norm_num : 0 < (ds.filter fun d => d.bars.isSome).length)
  obtain ⟨h1, h2⟩ := List.mem_filter.1 hd
  obtain ⟨bs, hb⟩ := Option.isSome_iff_exists.1 h2
  have hm := C86_month_energy_partial hl h h1 hb
  have h3 : 1 < bs.length := by
    have := congrArg List.length hm
    simp only [List.length_map, List.length_cons, List.length_nil] at this
    omega
  have hs : (Samples.sunny.map fun r => r.res.pv).sum = 100 := by decide +kernel
  have ht : totalBetween 0 Samples.sunny (fun r => r.res.pv) 0 744 = 100 := by decide +kernel
  have hc : bs[1]? = some bs[1] := List.getElem?_eq_getElem h3
  have e1 := C86_total hl h h1 hb hc (f := fun r => r.res.pv) rfl
  have e2 := C86_bars_add_up hl (by norm_num) h h1 hb hc (f := fun r => r.res.pv) rfl
  obtain ⟨v, e3, e4, e5⟩ := C86_axis_unit_wrong hl h h1 hb hc (f := fun r => r.res.pv) rfl (j := 0)
    (m := ("jan", 0, 744)) rfl (by rw [ht]; norm_num)
  rw [hs] at e1 e2
  rw [ht] at e4 e5
  exact ⟨ds, h, d, h1, bs, _, hb, hc, e1, e2, v, e3, e5, e4⟩

/-- C86 is false of part of a year: a run of at most 744 hours that begins in February or later shows all its
energy in January, in which it has none. -/
theorem C86_part_year_in_january {rs : List (Results N)} {n first : ℕ} (hl : rs.length = n) (hn : n ≤ 744)
    (hfirst : 744 ≤ first) {ds : List Drawn} (h : runPlots rs n first = .ok ds) {d : Drawn} (hd : d ∈ ds)
    {bs : List BarChart} (hb : d.bars = some bs) {i : ℕ} {c : BarChart} (hc : bs[i]? = some c) {f : Results N → ℚ}
    (hf : [fun r : Results N => r.res.wind, fun r => r.res.pv, fun r => r.res.generationTotal][i]? = some f) :
    c.bars[0]? = some ("jan", (rs.map f).sum / 1000) ∧ (∀ b ∈ c.bars.drop 1, b.2 = 0) ∧
    totalBetween first rs f 0 744 = 0 := by
  rw [drawn_bars hl h hd hb, List.getElem?_map, hf] at hc
  cases Option.some.inj hc
  have hlen : (rs.map f).length ≤ 744 := by rw [List.length_map, hl]; exact hn
  have hnil : ∀ a b, 744 ≤ a → Tools.slice (rs.map f) a b = [] := by
    intro a b hab
    unfold Tools.slice
    apply List.drop_eq_nil_of_le
    rw [List.length_take]
    omega
  refine ⟨?_, ?_, ?_⟩
  · show some ("jan", (Tools.slice (rs.map f) 0 744).sum / 1000) = _
    unfold Tools.slice
    rw [List.take_of_length_le hlen, List.drop_zero]
  · intro b hb
    unfold Tools.sumMonthly at hb
    simp only [hnil _ _ (by norm_num : 744 ≤ 744), hnil 1416 _ (by norm_num), hnil 2160 _ (by norm_num),
      hnil 2880 _ (by norm_num), hnil 3624 _ (by norm_num), hnil 4344 _ (by norm_num), hnil 5088 _ (by norm_num),
      hnil 5832 _ (by norm_num), hnil 6552 _ (by norm_num), hnil 7296 _ (by norm_num), hnil 8016 _ (by norm_num),
      List.drop_succ_cons, List.drop_zero, List.mem_cons, List.not_mem_nil, or_false, List.sum_nil, zero_div] at hb
    rcases hb with rfl | rfl | rfl | rfl | rfl | rfl | rfl | rfl | rfl | rfl | rfl <;> rfl
  · unfold totalBetween
    apply List.sum_eq_zero
    intro x hx
    obtain ⟨k, hk, rfl⟩ := List.mem_map.1 hx
    rw [List.mem_range'_1] at hk
    unfold resultAt
    rw [if_neg (by omega)]
    rfl

/-- A run of ten hours in March, and one of the first ten hours of the year: both are drawn with bars. -/
example (first : ℕ) : ∃ ds, runPlots (Samples.counted 10) 10 first = .ok ds ∧
    ∃ d ∈ ds, ∃ bs, d.bars = some bs := by
  obtain ⟨ds, h⟩ := C85_figures_drawn (Samples.counted_length 10) (by norm_num) first
  have := C86_drawn_once h
  obtain ⟨d, hd⟩ := List.exists_mem_of_length_pos (by rw [this]; norm_num : 0 < (ds.filter fun d => d.bars.isSome).length)
  obtain ⟨h1, h2⟩ := List.mem_filter.1 hd
  exact ⟨ds, h, d, h1, Option.isSome_iff_exists.1 h2⟩

/-! ## C87: the stacks -/

theorem height_eq {g : (Results N → ℚ) → Except PyErr (List (ℕ × ℚ))} {fs : List (Label × (Results N → ℚ))}
    {ys : List Curve} (h : fs.mapM (fun q => (q.1, ·) <$> g q.2) = .ok ys) {k : ℕ} {r : Results N} {l : ℕ}
    (hg : ∀ (f : Results N → ℚ) (pts : List (ℕ × ℚ)), g f = .ok pts → pts[k]? = some (l, f r)) (name : String) :
    height (panel name ys) k = ((fs.filter fun q => q.1.panel = name).map fun q => q.2 r).sum := by
  have hf := curves_forall₂ h
  clear h
  unfold height panel
  induction hf with
  | nil => rfl
  | @cons q c _ _ h1 _ ih =>
    rw [List.filter_cons, List.filter_cons, h1.1]
    split_ifs
    · rw [List.map_cons, List.map_cons, List.sum_cons, List.sum_cons, ih, hg _ _ h1.2]
      rfl
    · exact ih

/-- The height of a stack over a point is the sum of the quantities in the result shown there. -/
theorem stack_height {rs : List (Results N)} {n first : ℕ} (hl : rs.length = n) {ds : List Drawn}
    (h : runPlots rs n first = .ok ds) {d : Drawn} (hd : d ∈ ds) {k : ℕ} (hk : k < (window n d.period).2) :
    ∃ r ∈ rs, rs[(window n d.period).1 + k]? = some r ∧ ∀ name, height (panel name d.ordinary) k =
      ((ordinary.filter fun q => q.1.panel = name).map fun q : Label × (Results N → ℚ) => q.2 r).sum := by
  obtain ⟨pb, hpb, hdr⟩ := runPlots_mem h hd
  obtain ⟨hper, -, hor, -⟩ := drawPeriod_ok hdr
  obtain ⟨hw, hwl⟩ := periods_window hpb rs first
  rw [← hper] at hw hwl
  have hlt : (window n d.period).1 + k < rs.length := by rw [hl]; omega
  refine ⟨_, List.getElem_mem hlt, List.getElem?_eq_getElem hlt, fun name => ?_⟩
  refine height_eq hor (k := k) (l := (window n d.period).1 + k) (fun f pts hc => ?_) name
  rw [← hper] at hc
  rw [curve_get (a := (window n d.period).1) (n := (window n d.period).2) hl hw hc k, if_pos hk]
  show rs[_]?.map _ = _
  rw [List.getElem?_eq_getElem hlt]
  rfl

/-! The curves of each panel. -/

theorem panel_heat : (ordinary : List (Label × (Results N → ℚ))).filter (fun q => q.1.panel = "Heat demand") = heatStack := by
  simp [ordinary, elecDemandStack, generationStack, usageStack, heatStack, pumpHeatStack, pumpElecStack, performance,
    tank, battery, grid]

theorem panel_elec : (ordinary : List (Label × (Results N → ℚ))).filter (fun q => q.1.panel = "Electrical demand") = elecDemandStack := by
  simp [ordinary, elecDemandStack, generationStack, usageStack, heatStack, pumpHeatStack, pumpElecStack, performance,
    tank, battery, grid]

theorem panel_generation : (ordinary : List (Label × (Results N → ℚ))).filter (fun q => q.1.panel = "Renewable power generation") = generationStack := by
  simp [ordinary, elecDemandStack, generationStack, usageStack, heatStack, pumpHeatStack, pumpElecStack, performance,
    tank, battery, grid]

theorem panel_usage : (ordinary : List (Label × (Results N → ℚ))).filter (fun q => q.1.panel = "Renewable power usage") = usageStack := by
  simp [ordinary, elecDemandStack, generationStack, usageStack, heatStack, pumpHeatStack, pumpElecStack, performance,
    tank, battery, grid]

theorem panel_pump_heat : (ordinary : List (Label × (Results N → ℚ))).filter (fun q => q.1.panel = "Heat pump thermal output") = pumpHeatStack := by
  simp [ordinary, elecDemandStack, generationStack, usageStack, heatStack, pumpHeatStack, pumpElecStack, performance,
    tank, battery, grid]

theorem panel_pump_elec : (ordinary : List (Label × (Results N → ℚ))).filter (fun q => q.1.panel = "Heat pump electrical usage") = pumpElecStack := by
  simp [ordinary, elecDemandStack, generationStack, usageStack, heatStack, pumpHeatStack, pumpElecStack, performance,
    tank, battery, grid]

theorem shown_window {p : Period} {k hour : ℕ} (h : (shownHours p)[k]? = some hour) :
    k < (window 8760 p).2 ∧ hour = (window 8760 p).1 + k := by
  have key : ∀ a n, (List.range' a n)[k]? = some hour → k < n ∧ hour = a + k := by
    intro a n hh
    have hk : k < n := by
      by_contra hc
      rw [List.getElem?_eq_none (by rw [List.length_range']; omega)] at hh
      cases hh
    rw [List.getElem?_range' hk] at hh
    have := Option.some.inj hh
    omega
  unfold window
  rw [if_pos rfl]
  cases p <;> exact key _ _ h

/-- 'Heat demand': at every hour shown the three parts together are as high as the demand for heat of that hour. -/
theorem C87_heat_stack {S : RunIn N} {rs : List (Results N)} (h : FixedOrder.runTimesteps S 0 8760 = .ok rs)
    {ds : List Drawn} (hds : runPlots rs 8760 0 = .ok ds) {d : Drawn} (hd : d ∈ ds) {k hour : ℕ}
    (hk : (shownHours d.period)[k]? = some hour) :
    S.heatDemand[hour]? = some (height (panel "Heat demand" d.ordinary) k) := by
  obtain ⟨hkw, rfl⟩ := shown_window hk
  have hl := C27_one_result_per_hour h
  obtain ⟨r, -, hr, hh⟩ := stack_height hl hds hd hkw
  have hlt : (window 8760 d.period).1 + k < 8760 := lt_of_lt_of_eq (List.getElem?_eq_some_iff.1 hr).1 hl
  obtain ⟨r', hr', hdem, -⟩ := C27_reports_its_hour h hlt
  rw [hr] at hr'
  cases Option.some.inj hr'
  rw [Nat.zero_add] at hdem
  rw [hdem, hh]
  rw [panel_heat]
  simp only [heatStack, List.map_cons, List.map_nil, List.sum_cons, List.sum_nil]
  exact congrArg some (by ring)

/-- 'Electrical demand': at every hour shown the three parts together are as high as the demand of that hour. -/
theorem C87_electric_stack {S : RunIn N} (H : RunOk S) (hord : OrdersOk S) (ha : 3 ∈ S.orderAbove)
    (hb : 2 ∈ S.orderBelow) {rs : List (Results N)} (h : FixedOrder.runTimesteps S 0 8760 = .ok rs)
    {ds : List Drawn} (hds : runPlots rs 8760 0 = .ok ds) {d : Drawn} (hd : d ∈ ds) {k hour : ℕ}
    (hk : (shownHours d.period)[k]? = some hour) :
    S.elecDemand[hour]? = some (height (panel "Electrical demand" d.ordinary) k) := by
  obtain ⟨hkw, rfl⟩ := shown_window hk
  have hl := C27_one_result_per_hour h
  obtain ⟨r, hm, hr, hh⟩ := stack_height hl hds hd hkw
  have hlt : (window 8760 d.period).1 + k < 8760 := lt_of_lt_of_eq (List.getElem?_eq_some_iff.1 hr).1 hl
  obtain ⟨r', hr', -, hdem, -⟩ := C27_reports_its_hour h hlt
  rw [hr] at hr'
  cases Option.some.inj hr'
  rw [Nat.zero_add] at hdem
  have := C18_run_demand_supplied H hord ha hb h hm
  rw [hdem, hh]
  rw [panel_elec]
  simp only [elecDemandStack, List.map_cons, List.map_nil, List.sum_cons, List.sum_nil]
  exact congrArg some (by linarith)

/-- 'Renewable power generation': at every hour shown the two parts together are the generation of that hour. -/
theorem C87_generation_stack {S : RunIn N} {rs : List (Results N)} (h : FixedOrder.runTimesteps S 0 8760 = .ok rs)
    {ds : List Drawn} (hds : runPlots rs 8760 0 = .ok ds) {d : Drawn} (hd : d ∈ ds) {k hour : ℕ}
    (hk : (shownHours d.period)[k]? = some hour) : ∃ u w p, S.windUser[hour]? = some u ∧
      S.windData[hour]? = some w ∧ S.pv[hour]? = some p ∧ height (panel "Renewable power generation" d.ordinary) k = u + w + p := by
  obtain ⟨hkw, rfl⟩ := shown_window hk
  have hl := C27_one_result_per_hour h
  obtain ⟨r, -, hr, hh⟩ := stack_height hl hds hd hkw
  have hlt : (window 8760 d.period).1 + k < 8760 := lt_of_lt_of_eq (List.getElem?_eq_some_iff.1 hr).1 hl
  obtain ⟨r', hr', -, -, hpv, ⟨u, w, hu, hw, hwind⟩, -⟩ := C27_reports_its_hour h hlt
  rw [hr] at hr'
  cases Option.some.inj hr'
  rw [Nat.zero_add] at hpv hu hw
  refine ⟨u, w, r.res.pv, hu, hw, hpv, ?_⟩
  rw [hh]
  rw [panel_generation]
  simp only [generationStack, List.map_cons, List.map_nil, List.sum_cons, List.sum_nil]
  rw [hwind]
  ring

/-- 'Renewable power usage': the parts shown and the part that charges the battery, which is not shown, are
together at most the generation shown above. -/
theorem C87_usage_stack_partial {S : RunIn N} (H : RunOk S) (hord : OrdersOk S) {first n : ℕ}
    {rs : List (Results N)} (h : FixedOrder.runTimesteps S first n = .ok rs)
    {ds : List Drawn} (hds : runPlots rs n first = .ok ds) {d : Drawn} (hd : d ∈ ds) {k : ℕ}
    (hk : k < (window n d.period).2) : ∃ r ∈ rs, rs[(window n d.period).1 + k]? = some r ∧
      height (panel "Renewable power usage" d.ordinary) k + r.res.es ≤ height (panel "Renewable power generation" d.ordinary) k := by
  have hl := C27_one_result_per_hour h
  obtain ⟨r, hm, hr, hh⟩ := stack_height hl hds hd hk
  refine ⟨r, hm, hr, ?_⟩
  have h1 := C19_run_within_generation H hord h hm
  have hlt : (window n d.period).1 + k < n := lt_of_lt_of_eq (List.getElem?_eq_some_iff.1 hr).1 hl
  obtain ⟨r', hr', -, -, -, -, hgen⟩ := C27_reports_its_hour h hlt
  rw [hr] at hr'
  cases Option.some.inj hr'
  rw [hh, hh]
  rw [panel_usage, panel_generation]
  simp only [usageStack, generationStack, List.map_cons, List.map_nil, List.sum_cons, List.sum_nil]
  linarith

/-- 'Heat pump thermal output' and 'Heat pump electrical usage': the parts are the heat pump's output, and
its electricity including what it takes from the battery. -/
theorem C87_pump_stacks {S : RunIn N} {first n : ℕ} {rs : List (Results N)}
    (h : FixedOrder.runTimesteps S first n = .ok rs)
    {ds : List Drawn} (hds : runPlots rs n first = .ok ds) {d : Drawn} (hd : d ∈ ds) {k : ℕ}
    (hk : k < (window n d.period).2) : ∃ r ∈ rs, rs[(window n d.period).1 + k]? = some r ∧
      height (panel "Heat pump thermal output" d.ordinary) k = r.hp.heatTotalOutput ∧
      height (panel "Heat pump electrical usage" d.ordinary) k = r.hp.elecTotalUsage + r.hp.elecFromEsToDemand := by
  have hl := C27_one_result_per_hour h
  obtain ⟨r, hm, hr, hh⟩ := stack_height hl hds hd hk
  refine ⟨r, hm, hr, ?_⟩
  have hlt : (window n d.period).1 + k < n := lt_of_lt_of_eq (List.getElem?_eq_some_iff.1 hr).1 hl
  obtain ⟨rows, -, hc⟩ := C27_chained h
  obtain ⟨r', hr', hs⟩ := hc _ hlt
  rw [hr] at hr'
  cases Option.some.inj hr'
  obtain ⟨price, i, r0, -, -, -, -, -, h1, h2, e, -⟩ := C29_setpoint_selects_order hs
  have htot : r.hp.heatTotalOutput = r.hp.heatToHeatDemand + r.hp.heatToTs ∧
      r.hp.elecTotalUsage = r.hp.elecResUsage + r.hp.elecImportUsage := by
    rw [e]
    by_cases hp : price > S.setpoint
    · have := C26_heat_pump_totals (h1 hp)
      exact ⟨this.1, this.2.2.2.1⟩
    · have := C26_heat_pump_totals (h2 (not_lt.mp hp))
      exact ⟨this.1, this.2.2.2.1⟩
  rw [hh, hh]
  rw [panel_pump_heat, panel_pump_elec]
  simp only [pumpHeatStack, pumpElecStack, List.map_cons, List.map_nil, List.sum_cons, List.sum_nil]
  constructor <;> linarith [htot.1, htot.2]

example : ∃ rs ds, FixedOrder.runTimesteps sampleRun 0 8760 = .ok rs ∧ runPlots rs 8760 0 = .ok ds ∧
    ∀ d ∈ ds, (∀ k hour, (shownHours d.period)[k]? = some hour → ∃ u w p, sampleRun.windUser[hour]? = some u ∧
      sampleRun.windData[hour]? = some w ∧ sampleRun.pv[hour]? = some p ∧
      height (panel "Renewable power generation" d.ordinary) k = u + w + p) ∧
    ∀ k < (window 8760 d.period).2, ∃ r ∈ rs, height (panel "Renewable power usage" d.ordinary) k + r.res.es ≤
        height (panel "Renewable power generation" d.ordinary) k ∧
      height (panel "Heat pump thermal output" d.ordinary) k = r.hp.heatTotalOutput := by
  obtain ⟨rs, h⟩ := sampleRun_runs 0 8760 le_rfl
  obtain ⟨ds, hds⟩ := C85_figures_drawn (C27_one_result_per_hour h) (by norm_num) 0
  refine ⟨rs, ds, h, hds, fun d hd => ⟨fun k hour hk => C87_generation_stack h hds hd hk, fun k hk => ?_⟩⟩
  obtain ⟨r, hr, hi, hu⟩ := C87_usage_stack_partial sampleRun_ok sampleRun_orders h hds hd hk
  obtain ⟨r', -, hi', ho, -⟩ := C87_pump_stacks h hds hd hk
  obtain rfl := Option.some.inj (hi.symm.trans hi')
  exact ⟨r, hr, hu, ho⟩

/-- Two hours: surplus first, then a demand for heat and hardly any generation. Heat pump and boiler are not
among the processes. -/
def Samples.noHeating : RunIn Unit :=
  { hp := samplePlant.hp, es := sampleBattery, aux := samplePlant.aux,
    tank := { sampleTank with maxInOut := fun _ _ _ => .ok 0 }, exportPrice := 40,
    windUser := [6, 1], windData := [0, 0], pv := [1, 0], elecDemand := [1, 2], heatDemand := [0, 14],
    importPrice := [100, 100], perf := [⟨3, 12⟩, ⟨3, 12⟩], setpoint := 80, orderAbove := [12, 13, 3, 6],
    orderBelow := [] }

/-- C87 is false of 'Heat demand': in the second hour no heat is delivered by anything, and the figure shows
the whole demand as delivered by 'Aux'. -/
theorem C87_shortfall_drawn_as_boiler : ∃ rs, FixedOrder.runFrom Samples.noHeating
      [Tools.splitHourFixed 7 1, Tools.splitHourFixed 1 2] 0 2 () 0 = .ok rs ∧
    (∃ r ∈ rs[1]?, heatDelivered false r = 0 ∧ r.aux.demand = 0 ∧ r.heatDemand.heatDemand = 14) ∧
    checks (runPlots rs 2 0) (fun ds => decide (∃ d ∈ ds[0]?, ∃ c ∈ d.ordinary,
      c.1 = ⟨"heat_demand_and_heat_pump.png", "Heat demand", "Aux"⟩ ∧ ((1, 14) : ℕ × ℚ) ∈ c.2))
      = true :=
  exists_of_checks (by decide +kernel)

/-- C87 is false of 'Renewable power usage': in the first hour all generation is used, part of it to charge the
battery, and the parts shown are less than the generation. -/
theorem C87_usage_stack_omits_battery : ∃ rs, FixedOrder.runFrom Samples.noHeating
      [Tools.splitHourFixed 7 1, Tools.splitHourFixed 1 2] 0 2 () 0 = .ok rs ∧
    (∃ r ∈ rs[0]?, r.res.elecDemand + r.res.hp + r.res.aux + r.res.exp + r.res.es = r.res.generationTotal ∧
      0 < r.res.es) ∧
    checks (runPlots rs 2 0) (fun ds => decide (∃ d ∈ ds[0]?,
      height (panel "Renewable power usage" d.ordinary) 0 < height (panel "Renewable power generation" d.ordinary) 0)) = true :=
  exists_of_checks (by decide +kernel)

/-- The stacks of the sample system over a full year. -/
example : ∃ rs ds, FixedOrder.runTimesteps sampleRun 0 8760 = .ok rs ∧ runPlots rs 8760 0 = .ok ds ∧
    ∀ d ∈ ds, ∀ k hour, (shownHours d.period)[k]? = some hour →
      sampleRun.heatDemand[hour]? = some (height (panel "Heat demand" d.ordinary) k) ∧
      sampleRun.elecDemand[hour]? = some (height (panel "Electrical demand" d.ordinary) k) := by
  obtain ⟨rs, h⟩ := sampleRun_runs 0 8760 le_rfl
  obtain ⟨ds, hds⟩ := C85_figures_drawn (C27_one_result_per_hour h) (by norm_num) 0
  exact ⟨rs, ds, h, hds, fun d hd k hour hk => ⟨C87_heat_stack h hds hd hk,
    C87_electric_stack sampleRun_ok sampleRun_orders (by decide) (by decide) h hds hd hk⟩⟩

end Verif
