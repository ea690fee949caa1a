import Verif.Model.Disk
import Verif.Props.Files

/-!
# Lemmas for `Verif.Props.Disk`: what the parts of `main` may change, and what they may depend on
-/

set_option autoImplicit false

namespace Verif
namespace Disk
open Files Para Programme Report InputReader Simulation Workbook Spec

variable {α β : Type}

theorem bind_def (m : Op α) (f : α → Op β) : (m >>= f) = Op.bind m f := rfl

theorem bind_ok {m : Op α} {f : α → Op β} {fs : FS Data} {a : α} (h : (m fs).result = .ok a) :
    (m >>= f) fs = ⟨(f a (m fs).disk).result, (f a (m fs).disk).disk, (m fs).seen ++ (f a (m fs).disk).seen⟩ := by
  rw [bind_def]
  unfold Op.bind
  rw [h]

theorem bind_error {m : Op α} {f : α → Op β} {fs : FS Data} {e : PyErr} (h : (m fs).result = .error e) :
    (m >>= f) fs = ⟨.error e, (m fs).disk, (m fs).seen⟩ := by
  rw [bind_def]
  unfold Op.bind
  rw [h]

theorem mem_states_bind {m : Op α} {f : α → Op β} {fs s : FS Data} (h : s ∈ ((m >>= f) fs).states) :
    s ∈ (m fs).states ∨ ∃ a, (m fs).result = .ok a ∧ s ∈ (f a (m fs).disk).states := by
  cases hr : (m fs).result with
  | error e => rw [bind_error hr] at h; exact .inl h
  | ok a =>
    rw [bind_ok hr] at h
    unfold Done.states at h ⊢
    simp only [List.mem_cons, List.mem_append] at h ⊢
    rcases h with h | h | h
    · exact .inr ⟨a, rfl, .inl h⟩
    · exact .inl (.inr h)
    · exact .inr ⟨a, rfl, .inr h⟩

/-! ## Steps: every disk on the way is related to the first -/

/-- Every disk on the way of `m` is related to the one it started from. -/
def Steps (R : FS Data → FS Data → Prop) (m : Op α) : Prop := ∀ fs, ∀ s ∈ (m fs).states, R fs s

/-- A relation that can be followed along a run. -/
structure Along (R : FS Data → FS Data → Prop) : Prop where
  refl : ∀ a, R a a
  trans : ∀ a b c, R a b → R b c → R a c

section
variable {R : FS Data → FS Data → Prop}

theorem Steps.bind (hR : Along R) {m : Op α} {f : α → Op β} (hm : Steps R m) (hf : ∀ a, Steps R (f a)) :
    Steps R (m >>= f) := by
  intro fs s hs
  rcases mem_states_bind hs with h | ⟨a, _, h⟩
  · exact hm fs s h
  · exact hR.trans _ _ _ (hm fs _ (List.mem_cons_self ..)) (hf a _ s h)

theorem Steps.still (hR : Along R) {m : Op α} (h : ∀ fs, (m fs).disk = fs ∧ (m fs).seen = []) : Steps R m := by
  intro fs s hs
  unfold Done.states at hs
  rw [(h fs).1, (h fs).2] at hs
  obtain rfl : s = fs := by simpa using hs
  exact hR.refl _

theorem Steps.pure (hR : Along R) (a : α) : Steps R (pure a : Op α) := Steps.still hR fun _ => ⟨rfl, rfl⟩
theorem Steps.lift (hR : Along R) (x : Except PyErr α) : Steps R (lift x) := Steps.still hR fun _ => ⟨rfl, rfl⟩
theorem Steps.fail (hR : Along R) (e : PyErr) : Steps R (fail e : Op α) := Steps.lift hR _
theorem Steps.snapshot (hR : Along R) : Steps R snapshot := Steps.still hR fun _ => ⟨rfl, rfl⟩
theorem Steps.valid (hR : Along R) (a : Arg) : Steps R (valid a) := Steps.still hR fun _ => ⟨rfl, rfl⟩
theorem Steps.read (hR : Along R) (p : FPath) : Steps R (read p) := Steps.still hR fun _ => ⟨rfl, rfl⟩

theorem Steps.each (hR : Along R) {f : β → Op Unit} {bs : List β} (h : ∀ b ∈ bs, Steps R (f b)) :
    Steps R (each f bs) := by
  induction bs with
  | nil => exact Steps.pure hR ()
  | cons b bs ih =>
    exact Steps.bind hR (h b (List.mem_cons_self ..)) fun _ => ih fun b' hb => h b' (List.mem_cons_of_mem _ hb)

theorem Steps.readWorkbook (hR : Along R) (p : FPath) : Steps R (readWorkbook p) :=
  Steps.bind hR (Steps.read hR p) fun d => by cases d <;> first | exact Steps.pure hR _ | exact Steps.fail hR _
theorem Steps.readContainer (hR : Along R) (p : FPath) : Steps R (readContainer p) :=
  Steps.bind hR (Steps.read hR p) fun d => by cases d <;> first | exact Steps.pure hR _ | exact Steps.fail hR _
theorem Steps.readOutcome (hR : Along R) (p : FPath) : Steps R (readOutcome p) :=
  Steps.bind hR (Steps.read hR p) fun d => by cases d <;> first | exact Steps.pure hR _ | exact Steps.fail hR _
end

/-! ## Where a part of the program changes the disk -/

/-- Nothing changes outside `T`. -/
def Except' (T : FPath → Prop) (a b : FS Data) : Prop := ∀ q, ¬ T q → b q = a q

theorem along_except (T : FPath → Prop) : Along (Except' T) :=
  ⟨fun _ _ _ => rfl, fun _ _ _ h1 h2 q hq => (h2 q hq).trans (h1 q hq)⟩

theorem makeDir_cases (p : FPath) (fs : FS Data) : (∃ e, makeDir p fs = ⟨.error e, fs, []⟩) ∨
    (fs p = none ∧ fs p.dropLast = some .dir ∧
      makeDir p fs = ⟨.ok (), fun q => if q = p then some .dir else fs q,
        [fun q => if q = p then some .dir else fs q]⟩) := by
  unfold makeDir mkdir
  cases h : fs p with
  | some _ => exact .inl ⟨_, rfl⟩
  | none =>
    cases h2 : fs p.dropLast with
    | none => exact .inl ⟨_, rfl⟩
    | some n => cases n with
      | dir => exact .inr ⟨rfl, rfl, rfl⟩
      | file c => exact .inl ⟨_, rfl⟩

theorem write_cases (p : FPath) (d : Data) (fs : FS Data) : (∃ e, write p d fs = ⟨.error e, fs, []⟩) ∨
    (fs p ≠ some .dir ∧ fs p.dropLast = some .dir ∧
      write p d fs = ⟨.ok (), fun q => if q = p then some (.file d) else fs q,
        [fun q => if q = p then some (.file .torn) else fs q, fun q => if q = p then some (.file d) else fs q]⟩) := by
  have hput : (do put p .torn; put p d : Op Unit) fs = ⟨.ok (), fun q => if q = p then some (.file d) else fs q,
        [fun q => if q = p then some (.file .torn) else fs q, fun q => if q = p then some (.file d) else fs q]⟩ := by
    rw [bind_ok (a := ()) rfl]
    have : (fun q => if q = p then some (Node.file d) else if q = p then some (Node.file Data.torn) else fs q)
        = fun q => if q = p then some (Node.file d) else fs q := by
      funext q; split_ifs <;> rfl
    simp only [put, this, List.cons_append, List.nil_append]
  unfold write
  cases h2 : fs p.dropLast with
  | none => exact .inl ⟨_, rfl⟩
  | some n => cases n with
    | file c => exact .inl ⟨_, rfl⟩
    | dir =>
      cases h : fs p with
      | none => exact .inr ⟨by simp, rfl, hput⟩
      | some n => cases n with
        | dir => exact .inl ⟨_, rfl⟩
        | file c => exact .inr ⟨by simp, rfl, hput⟩

theorem removeTree_states {E : FPath → Removal} {p : FPath} {fs s : FS Data} (h : s ∈ (removeTree E p fs).states) :
    s = fs ∨ s = without fs p (fun _ => true) ∨ ∃ g ∈ (E p).stages, s = without fs p g := by
  unfold removeTree Done.states at h
  cases he : (E p).err with
  | none =>
    simp only [he, List.mem_cons, List.mem_append, List.mem_map, List.not_mem_nil, or_false] at h
    rcases h with h | ⟨g, hg, rfl⟩ | h
    · exact .inr (.inl h)
    · exact .inr (.inr ⟨g, hg, rfl⟩)
    · exact .inr (.inl h)
  | some e =>
    simp only [he, List.mem_cons, List.mem_map] at h
    rcases h with h | ⟨g, hg, rfl⟩
    · rw [List.getLast?_map] at h
      cases hl : (E p).stages.getLast? with
      | none => rw [hl] at h; exact .inl h
      | some g => rw [hl] at h; exact .inr (.inr ⟨g, List.mem_of_getLast? hl, h⟩)
    · exact .inr (.inr ⟨g, hg, rfl⟩)

section
variable {T : FPath → Prop}

theorem touches_makeDir {p : FPath} (h : T p) : Steps (Except' T) (makeDir p) := by
  intro fs s hs q hq
  have hne : q ≠ p := fun e => hq (e ▸ h)
  rcases makeDir_cases p fs with ⟨e, he⟩ | ⟨_, _, he⟩ <;> rw [he] at hs <;>
    simp only [Done.states, List.mem_cons, List.not_mem_nil, or_false, or_self] at hs <;> subst hs
  · rfl
  · exact if_neg hne

theorem touches_write {p : FPath} (d : Data) (h : T p) : Steps (Except' T) (write p d) := by
  intro fs s hs q hq
  have hne : q ≠ p := fun e => hq (e ▸ h)
  rcases write_cases p d fs with ⟨e, he⟩ | ⟨_, _, he⟩ <;> rw [he] at hs <;>
    simp only [Done.states, List.mem_cons, List.not_mem_nil, or_false] at hs
  · subst hs; rfl
  · rcases hs with rfl | rfl | rfl <;> exact if_neg hne

theorem touches_removeTree (E : FPath → Removal) {p : FPath} (h : ∀ q, p <+: q → T q) :
    Steps (Except' T) (removeTree E p) := by
  intro fs s hs q hq
  rcases removeTree_states hs with rfl | rfl | ⟨g, _, rfl⟩
  · rfl
  all_goals exact without_out fun hb => hq (h q hb)

theorem touches_freshDir (E : FPath → Removal) {p : FPath} (h : ∀ q, p <+: q → T q) :
    Steps (Except' T) (freshDir E p) := by
  intro fs
  have h1 := Steps.bind (along_except T) (touches_removeTree E h) fun _ => touches_makeDir (h p List.prefix_rfl)
  have h2 := touches_makeDir (h p List.prefix_rfl)
  unfold freshDir
  split
  · exact h1 fs
  · exact h2 fs
end

/-! ## A part of the program that only looks at and changes the folder of the study -/

/-- The two disks have the same study and the same workbook. -/
def Agree (root x : FPath) (a b : FS Data) : Prop := (∀ q, root <+: q → a q = b q) ∧ a x = b x

/-- From disks that agree, `m` does the same, through disks that agree. -/
def Local (root x : FPath) (m : Op α) : Prop := ∀ a b, Agree root x a b →
  (m a).result = (m b).result ∧ Agree root x (m a).disk (m b).disk

variable {root x : FPath}

theorem Local.bind {m : Op α} {f : α → Op β} (hm : Local root x m) (hf : ∀ a, Local root x (f a)) :
    Local root x (m >>= f) := by
  intro a b hab
  obtain ⟨h1, h2⟩ := hm a b hab
  cases hr : (m a).result with
  | error e => rw [bind_error hr, bind_error (h1.symm.trans hr)]; exact ⟨rfl, h2⟩
  | ok v => rw [bind_ok hr, bind_ok (h1.symm.trans hr)]; exact hf v _ _ h2

theorem Local.lift (v : Except PyErr α) : Local root x (lift v) := fun _ _ h => ⟨rfl, h⟩
theorem Local.pure (v : α) : Local root x (pure v : Op α) := fun _ _ h => ⟨rfl, h⟩
theorem Local.fail (e : PyErr) : Local root x (fail e : Op α) := Local.lift _

theorem Local.each {f : β → Op Unit} {bs : List β} (h : ∀ b ∈ bs, Local root x (f b)) :
    Local root x (each f bs) := by
  induction bs with
  | nil => exact Local.pure ()
  | cons b bs ih =>
    exact Local.bind (h b (List.mem_cons_self ..)) fun _ => ih fun b' hb => h b' (List.mem_cons_of_mem _ hb)

theorem Agree.at_root {a b : FS Data} (h : Agree root x a b) (rest : FPath) : a (root ++ rest) = b (root ++ rest) :=
  h.1 _ (List.prefix_append _ _)

theorem dropLast_root (rest : FPath) (n : Name) : (root ++ (rest ++ [n])).dropLast = root ++ rest := by
  rw [← List.append_assoc, List.dropLast_concat]

theorem Local.valid (rest : FPath) : Local root x (valid (.path (root ++ rest))) := by
  intro a b h
  refine ⟨?_, h⟩
  unfold Disk.valid validPath
  dsimp only
  rw [h.at_root rest]

theorem Local.read (rest : FPath) : Local root x (read (root ++ rest)) := by
  intro a b h
  refine ⟨?_, h⟩
  unfold Disk.read
  rw [h.at_root rest]

theorem Local.readContainer (rest : FPath) : Local root x (readContainer (root ++ rest)) :=
  Local.bind (Local.read rest) fun d => by cases d <;> first | exact Local.pure _ | exact Local.fail _
theorem Local.readOutcome (rest : FPath) : Local root x (readOutcome (root ++ rest)) :=
  Local.bind (Local.read rest) fun d => by cases d <;> first | exact Local.pure _ | exact Local.fail _

theorem Local.validBook : Local root x (do let _ ← Disk.valid (.path x)) := by
  refine Local.bind ?_ fun _ => Local.pure ()
  intro a b h
  refine ⟨?_, h⟩
  unfold Disk.valid validPath
  dsimp only
  rw [h.2]

theorem Local.readWorkbook : Local root x (readWorkbook x) := by
  refine Local.bind (fun a b h => ⟨?_, h⟩) fun d => by
    cases d <;> first | exact Local.pure _ | exact Local.fail _
  unfold Disk.read
  rw [h.2]

theorem Agree.set {a b : FS Data} (h : Agree root x a b) (p : FPath) (v : Option (Node Data)) :
    Agree root x (fun q => if q = p then v else a q) (fun q => if q = p then v else b q) :=
  ⟨fun q hq => by show (if q = p then v else a q) = if q = p then v else b q; rw [h.1 q hq],
    by show (if x = p then v else a x) = if x = p then v else b x; rw [h.2]⟩

theorem Agree.without {a b : FS Data} (h : Agree root x a b) (p : FPath) (g : FPath → Bool) :
    Agree root x (Files.without a p g) (Files.without b p g) :=
  ⟨fun q hq => by unfold Files.without; rw [h.1 q hq], by unfold Files.without; rw [h.2]⟩

theorem Local.makeDir (rest : FPath) (n : Name) : Local root x (makeDir (root ++ (rest ++ [n]))) := by
  intro a b h
  unfold Disk.makeDir mkdir
  rw [dropLast_root, h.at_root (rest ++ [n]), h.at_root rest]
  cases b (root ++ (rest ++ [n])) with
  | some _ => exact ⟨rfl, h⟩
  | none => cases b (root ++ rest) with
    | none => exact ⟨rfl, h⟩
    | some n => cases n with
      | file _ => exact ⟨rfl, h⟩
      | dir => exact ⟨rfl, h.set _ _⟩

theorem Local.removeTree (E : FPath → Removal) (p : FPath) : Local root x (removeTree E p) := by
  intro a b h
  unfold Disk.removeTree
  cases (E p).err with
  | none => exact ⟨rfl, h.without _ _⟩
  | some e =>
    refine ⟨rfl, ?_⟩
    show Agree root x (((E p).stages.map _).getLast?.getD a) (((E p).stages.map _).getLast?.getD b)
    rw [List.getLast?_map, List.getLast?_map]
    cases (E p).stages.getLast? with
    | none => exact h
    | some g => exact h.without _ _

theorem Local.freshDir (E : FPath → Removal) (rest : FPath) (n : Name) :
    Local root x (freshDir E (root ++ (rest ++ [n]))) := by
  intro a b h
  have h1 := Local.bind (Local.removeTree (root := root) (x := x) E (root ++ (rest ++ [n])))
    fun _ => Local.makeDir (x := x) rest n
  unfold Disk.freshDir
  rw [h.at_root (rest ++ [n])]
  cases b (root ++ (rest ++ [n])) with
  | none => exact Local.makeDir rest n a b h
  | some v => cases v with
    | dir => exact h1 a b h
    | file _ => exact Local.makeDir rest n a b h

theorem Local.put (p : FPath) (d : Data) : Local root x (put p d) := fun _ _ h => ⟨rfl, h.set _ _⟩

theorem Local.write (rest : FPath) (n : Name) (d : Data) : Local root x (write (root ++ (rest ++ [n])) d) := by
  intro a b h
  have h1 := Local.bind (Local.put (root := root) (x := x) (root ++ (rest ++ [n])) .torn)
    fun _ => Local.put (root ++ (rest ++ [n])) d
  unfold Disk.write
  rw [dropLast_root, h.at_root (rest ++ [n]), h.at_root rest]
  cases b (root ++ rest) with
  | none => exact Local.fail _ a b h
  | some v => cases v with
    | file _ => exact Local.fail _ a b h
    | dir => cases b (root ++ (rest ++ [n])) with
      | none => exact h1 a b h
      | some v => cases v with
        | dir => exact Local.fail _ a b h
        | file _ => exact h1 a b h

/-! ## Going through `body` once -/

/-- A property of parts of the program that the operations in the folder of the study have. -/
structure Closed (E : FPath → Removal) (root : FPath) (P : {α : Type} → Op α → Prop) : Prop where
  bind : ∀ {α β : Type} {m : Op α} {f : α → Op β}, P m → (∀ a, P (f a)) → P (m >>= f)
  lift : ∀ {α : Type} (v : Except PyErr α), P (Disk.lift v)
  valid : ∀ rest, P (Disk.valid (.path (root ++ rest)))
  read : ∀ rest, P (Disk.read (root ++ rest))
  freshDir : ∀ rest n, P (Disk.freshDir E (root ++ (rest ++ [n])))
  write : ∀ rest n d, P (Disk.write (root ++ (rest ++ [n])) d)
  snap : ∀ f : Dir Container → Dir Programme.Outcome → Op Unit, (∀ a b, P (f a b)) →
    P (snapshot >>= fun fs => f (inputFiles root fs) (resultFiles root fs))

namespace Closed
variable {E : FPath → Removal} {P : {α : Type} → Op α → Prop} (H : Closed E root P)
include H

theorem pure (v : α) : P (Pure.pure v : Op α) := H.lift (.ok v)
theorem fail (e : PyErr) : P (Disk.fail e : Op α) := H.lift _

theorem each {f : β → Op Unit} {bs : List β} (h : ∀ b ∈ bs, P (f b)) : P (Disk.each f bs) := by
  induction bs with
  | nil => exact H.pure ()
  | cons b bs ih =>
    exact H.bind (h b (List.mem_cons_self ..)) fun _ => ih fun b' hb => h b' (List.mem_cons_of_mem _ hb)

theorem readContainer (rest : FPath) : P (Disk.readContainer (root ++ rest)) :=
  H.bind (H.read rest) fun d => by cases d <;> first | exact H.pure _ | exact H.fail _
theorem readOutcome (rest : FPath) : P (Disk.readOutcome (root ++ rest)) :=
  H.bind (H.read rest) fun d => by cases d <;> first | exact H.pure _ | exact H.fail _

theorem readExcel {check : Op Unit} {book : Op Pandas.Workbook} (hc : P check) (hb : P book) :
    P (Disk.readExcel check book E root) :=
  H.bind hc fun _ => H.bind (H.freshDir [] inDir) fun _ => H.bind hb fun _ =>
    H.bind (H.freshDir [] outDir) fun _ => H.bind (H.lift _) fun _ => H.write [inDir] baseFile _

theorem para : P (Disk.para E root) :=
  H.bind (H.valid _) fun _ => H.bind (H.valid _) fun _ => H.bind (H.readContainer _) fun _ =>
    H.bind (H.lift _) fun _ => H.bind (H.lift _) fun _ =>
      H.bind (H.each fun s _ => H.freshDir [outDir] (folderName s)) fun _ => H.pure _

theorem makePickles (sizes : List (ℤ × ℤ)) : P (Disk.makePickles root sizes) :=
  H.each fun s _ => H.bind (H.readContainer _) fun _ => H.bind (H.lift _) fun _ =>
    H.write [inDir] (pickleName s) _

theorem solve (L : Libs) (gekko : Gekko) (v : Pandas.Value) (first n : ℕ) (name : Name) :
    P (Disk.solve L gekko root v first n name) :=
  H.bind (H.readContainer _) fun _ => H.bind (H.lift _) fun _ => H.write [outDir, name] resultsName _

theorem plotPeriod (name : Name) (pb : Figures.Period × Bool) :
    P (Disk.plotPeriod E root name pb) :=
  H.bind (H.readOutcome _) fun _ => H.bind (H.readContainer _) fun _ => H.bind (H.lift _) fun _ =>
    H.bind (H.lift _) fun _ => H.bind (H.freshDir [outDir, name] (periodName pb.1)) fun _ =>
      H.bind (H.lift _) fun _ => H.each fun f _ => H.write [outDir, name, periodName pb.1] f _

theorem plot (name : Name) : P (Disk.plot E root name) :=
  H.bind (H.readContainer _) fun _ => H.bind (H.lift _) fun _ => H.each fun pb _ => H.plotPeriod name pb

theorem kpis (L : Libs) (title : Name) : P (Disk.kpis L E title root) := by
  refine H.bind (H.freshDir [outDir] kpiDir) fun _ => H.bind (H.readContainer _) fun base => ?_
  refine H.snap (fun dir res => do
    Disk.each (fun fc => Disk.write (root ++ [outDir, kpiDir, fc.1.toList]) (.kpi fc.2))
      (tables L base dir (String.ofList title) res).1
    match (tables L base dir (String.ofList title) res).2 with
      | none => Pure.pure ()
      | some e => Disk.fail e) fun dir res => ?_
  refine H.bind (H.each fun fc _ => H.write [outDir, kpiDir] fc.1.toList _) fun _ => ?_
  split
  · exact H.pure ()
  · exact H.fail _

theorem study (L : Libs) (gekko : Gekko) (title : Name) (sizes : List (ℤ × ℤ)) :
    P (Disk.study L gekko E title root sizes) := by
  cases sizes with
  | nil => exact H.fail _
  | cons s ss =>
    exact H.bind (H.readContainer _) fun _ => H.bind (H.lift _) fun _ => H.bind (H.lift _) fun _ =>
      H.bind (H.lift _) fun _ => H.bind (H.each fun s _ => H.bind (H.solve L gekko _ _ _ _) fun _ => H.plot _)
        fun _ => H.kpis L title

theorem body {check : Op Unit} {book : Op Pandas.Workbook} (hc : P check) (hb : P book) (L : Libs) (gekko : Gekko)
    (title : Name) : P (Disk.body L gekko check book E title root) :=
  H.bind (H.write [] logName _) fun _ => H.bind (H.readExcel hc hb) fun _ => H.bind H.para fun sizes =>
    H.bind (H.makePickles sizes) fun _ => H.study L gekko title sizes

end Closed

theorem closed_local (E : FPath → Removal) (root x : FPath) : Closed E root (fun {_} m => Local root x m) where
  bind := Local.bind
  lift := Local.lift
  valid := Local.valid
  read := Local.read
  freshDir := Local.freshDir E
  write := Local.write
  snap := by
    intro f hf a b h
    have h1 : inputFiles root a = inputFiles root b := by
      funext n; unfold inputFiles; rw [h.at_root]
    have h2 : resultFiles root a = resultFiles root b := by
      funext n; unfold resultFiles; rw [h.at_root]
    rw [bind_ok (m := snapshot) (fs := a) rfl, bind_ok (m := snapshot) (fs := b) rfl]
    show (f _ _ a).result = (f _ _ b).result ∧ _
    rw [h1, h2]
    exact hf _ _ a b h

theorem closed_steps {R : FS Data → FS Data → Prop} (hR : Along R) {E : FPath → Removal} {root : FPath}
    (hf : ∀ rest n, Steps R (freshDir E (root ++ (rest ++ [n]))))
    (hw : ∀ rest n d, Steps R (write (root ++ (rest ++ [n])) d)) : Closed E root (fun {_} m => Steps R m) where
  bind := Steps.bind hR
  lift := Steps.lift hR
  valid _ := Steps.valid hR _
  read _ := Steps.read hR _
  freshDir := hf
  write := hw
  snap _ hf := Steps.bind hR (Steps.snapshot hR) fun _ => hf _ _

end Disk
end Verif
