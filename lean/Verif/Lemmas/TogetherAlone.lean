import Verif.Lemmas.TogetherLocal
import Verif.Lemmas.DiskLate

/-!
# Lemmas for `Verif.Props.Together`: a call that is alone is `Disk.main`, or a schedule of two processes
-/

set_option autoImplicit false

namespace Verif
namespace Disk
open Files Para Pandas Programme Report InputReader Simulation Workbook OutputProcess

variable {α β : Type}

/-- From the disk `s` on, `m` is what is left of a part that began at `s0` and comes out as `d`. -/
structure Left (m : Op α) (s s0 : FS Data) (d : Done α) : Prop where
  result : d.result = (m s).result
  disk : d.disk = (m s).disk
  now : s = s0 ∨ s ∈ d.seen
  seen : ∀ t ∈ (m s).seen, t ∈ d.seen

theorem Left.begin (m : Op α) (s : FS Data) : Left m s s (m s) := ⟨rfl, rfl, .inl rfl, fun _ h => h⟩

theorem Left.look {k : FS Data → Prog α} {s s0 : FS Data} {d : Done α} (h : Left (Prog.look k).run s s0 d) :
    Left (k s).run s s0 d := ⟨h.result, h.disk, h.now, h.seen⟩

theorem Left.change {g : FS Data → FS Data} {k : Prog α} {s s0 : FS Data} {d : Done α}
    (h : Left (Prog.change g k).run s s0 d) : Left k.run (g s) s0 d :=
  ⟨h.result, h.disk, .inr (h.seen _ (List.mem_cons_self ..)), fun t ht => h.seen t (List.mem_cons_of_mem _ ht)⟩

/-- The first part has gone without an exception. -/
theorem Left.second {m : Op α} {f : α → Op β} {s s0 : FS Data} {d : Done β} (h : Left (m >>= f) s s0 d) {a : α}
    (hm : (m s).result = .ok a) (hs : (m s).disk = s ∨ (m s).disk ∈ (m s).seen) : Left (f a) (m s).disk s0 d := by
  obtain ⟨h1, h2, h3, h4⟩ := h
  rw [bind_ok hm] at h1 h2 h4
  refine ⟨h1, h2, ?_, fun t ht => h4 t (List.mem_append_right _ ht)⟩
  rcases hs with hs | hs
  · rw [hs]; exact h3
  · exact .inr (h4 _ (List.mem_append_left _ hs))

/-- The first part has gone with an exception. -/
theorem Left.failed {m : Op α} {f : α → Op β} {s s0 : FS Data} {d : Done β} (h : Left (m >>= f) s s0 d) {e : PyErr}
    (hm : (m s).result = .error e) : d.result = .error e ∧ d.disk = (m s).disk := by
  obtain ⟨h1, h2, -, -⟩ := h
  rw [bind_error hm] at h1 h2
  exact ⟨h1, h2⟩

theorem Left.look_then {k : FS Data → Prog α} {f : α → Op β} {s s0 : FS Data} {d : Done β}
    (h : Left ((Prog.look k).run >>= f) s s0 d) : Left ((k s).run >>= f) s s0 d :=
  ⟨h.result, h.disk, h.now, h.seen⟩

theorem Left.change_then {g : FS Data → FS Data} {k : Prog α} {f : α → Op β} {s s0 : FS Data} {d : Done β}
    (h : Left ((Prog.change g k).run >>= f) s s0 d) : Left (k.run >>= f) (g s) s0 d := by
  have e : ((Prog.change g k).run >>= f) s =
      ⟨((k.run >>= f) (g s)).result, ((k.run >>= f) (g s)).disk, g s :: ((k.run >>= f) (g s)).seen⟩ := by
    cases hk : (k.run (g s)).result with
    | error e => rw [bind_error hk, bind_error (m := (Prog.change g k).run) (fs := s) (e := e) hk]; rfl
    | ok a => rw [bind_ok hk, bind_ok (m := (Prog.change g k).run) (fs := s) (a := a) hk]; rfl
  obtain ⟨h1, h2, -, h4⟩ := h
  rw [e] at h1 h2 h4
  exact ⟨h1, h2, .inr (h4 _ (List.mem_cons_self ..)), fun t ht => h4 t (List.mem_cons_of_mem _ ht)⟩

/-! ## One call -/

variable {c : Call} {Q : Move → Prop} {fs s s' : FS Data}

/-- `main` L56-101 of a call. -/
def Call.opening (c : Call) : Op Opened := Disk.opening c.removal (.path c.xlsx) (.path c.outdir) c.overwrite

/-- `main` of a call on one core. -/
noncomputable def Call.main (c : Call) : Op Unit :=
  Disk.main c.libs c.gekko c.removal (.path c.xlsx) (.path c.outdir) c.overwrite

/-- `main` L103-140 on one core. -/
noncomputable def Call.finish (c : Call) (o : Opened) : Op Unit :=
  o.loop c.libs c.gekko c.removal >>= fun _ => kpis c.libs c.removal (lastName o.root) o.root

theorem Call.main_eq (c : Call) : c.main = c.opening >>= c.finish := main_opening ..

theorem makeRoot_steps (c : Call) (fs : FS Data) : makeRoot c.removal c.overwrite c.root fs =
    match fs c.root with
    | none => makeDir c.root fs
    | some .dir => if c.overwrite then (do removeTree c.removal c.root; makeDir c.root : Op Unit) fs
      else fail .fileExistsError fs
    | some (.file _) => if c.overwrite then fail .other fs else fail .fileExistsError fs := rfl

/-- The call has ended like this, having been alone since the disk `fs`, with moves like `Q` on two cores. -/
def Call.Finished (c : Call) (Q : Move → Prop) (fs : FS Data) (a : Except PyErr Unit) (s : FS Data) : Prop :=
  if c.singlecore then a = (c.main fs).result ∧ s = (c.main fs).disk
  else ∃ ms, (∀ m ∈ ms, Q m) ∧ TwoCores c.libs c.gekko c.removal (.path c.xlsx) (.path c.outdir) c.overwrite fs ms
    a s

/-- The same for what comes after L101, with the process `p` left. -/
def Call.Later (c : Call) (Q : Move → Prop) (fs : FS Data) (p : Prog Unit) (s : FS Data) : Prop :=
  ∃ o, (c.opening fs).result = .ok o ∧
    if c.singlecore then Left p.run s (c.opening fs).disk (c.finish o (c.opening fs).disk)
    else ∃ ms m, (∀ m ∈ ms, Q m) ∧ o.moves c.libs c.gekko c.removal (o.machine (c.opening fs).disk) ms = some m ∧
      m.parent = .ended none ∧
      Left p.run s m.disk (kpis c.libs c.removal (lastName o.root) o.root m.disk)

/-- Where a call that began at the disk `fs` and has been alone since is, if the disk is `s`. -/
def Running.Alone (c : Call) (Q : Move → Prop) (fs : FS Data) : Running → FS Data → Prop
  | .started, s => Left c.opening s fs (c.opening fs)
  | .checking, s => Left (valid (.path c.outdir) >>= fun _ => makeRoot c.removal c.overwrite c.root >>= fun _ =>
      prepare c.removal c.xlsx c.root) s fs (c.opening fs)
  | .looking, s => Left (makeRoot c.removal c.overwrite c.root >>= fun _ => prepare c.removal c.xlsx c.root) s fs
      (c.opening fs)
  | .removing p, s => Left (p.run >>= fun _ => makeDir c.root >>= fun _ => prepare c.removal c.xlsx c.root) s fs
      (c.opening fs)
  | .making, s => Left (makeDir c.root >>= fun _ => prepare c.removal c.xlsx c.root) s fs (c.opening fs)
  | .early p, s => Left p.run s fs (c.opening fs)
  | .two o proc job parent, s => c.singlecore = false ∧ (c.opening fs).result = .ok o ∧
      ∃ ms, (∀ m ∈ ms, Q m) ∧
        o.moves c.libs c.gekko c.removal (o.machine (c.opening fs).disk) ms = some ⟨s, proc, job, parent⟩
  | .late p, s => c.Later Q fs p s
  | .ended a, s => c.Finished Q fs a s

theorem alone_failed {e : PyErr} (h1 : (c.opening fs).result = .error e) (h2 : (c.opening fs).disk = s) :
    (Running.ended (.error e)).Alone c Q fs s := by
  show c.Finished Q fs _ _
  unfold Call.Finished
  split
  · rw [Call.main_eq, bind_error h1]
    exact ⟨rfl, h2.symm⟩
  · refine ⟨[], fun _ h => absurd h (by simp), ?_⟩
    unfold TwoCores
    rw [show (Disk.opening c.removal (.path c.xlsx) (.path c.outdir) c.overwrite fs).result = _ from h1]
    exact ⟨rfl, rfl, h2.symm⟩

theorem alone_divide {o : Opened} (h1 : (c.opening fs).result = .ok o) (h2 : (c.opening fs).disk = s) :
    (c.divide o).Alone c Q fs s := by
  unfold Call.divide
  subst h2
  split
  · rename_i hs
    refine ⟨o, h1, ?_⟩
    rw [if_pos hs, Prog.run_bind, loop_steps', kpis_steps]
    exact Left.begin _ _
  · rename_i hs
    exact ⟨by simpa using hs, h1, [], fun _ h => absurd h (by simp), rfl⟩

theorem alone_kpis {o : Opened} {proc : State Name} {job : Prog Unit}
    (h : (Running.two o proc job (.ended none)).Alone c Q fs s) :
    (Running.late (Prog.kpis c.libs c.removal (lastName o.root) o.root)).Alone c Q fs s := by
  obtain ⟨h1, h2, ms, hq, h3⟩ := h
  refine ⟨o, h2, ?_⟩
  rw [if_neg (by rw [h1]; decide)]
  refine ⟨ms, _, hq, h3, rfl, ?_⟩
  rw [kpis_steps]
  exact Left.begin _ _

theorem Left.congr {m m' : Op α} {s0 : FS Data} {d : Done α} (h : Left m s s0 d) (e : m s = m' s) : Left m' s s0 d := by
  obtain ⟨h1, h2, h3, h4⟩ := h
  rw [e] at h1 h2 h4
  exact ⟨h1, h2, h3, h4⟩

theorem bind_at {m m' : Op α} (f : α → Op β) (e : m s = m' s) : (m >>= f) s = (m' >>= f) s := by
  show Op.bind m f s = Op.bind m' f s
  unfold Op.bind
  rw [e]

theorem valid_eq {p p' : FPath} (h : validPath s (.path p) = .ok p') : p' = p := by
  unfold validPath at h
  dsimp only at h
  split at h <;> cases h
  rfl

theorem later_done {p : Prog Unit} {a : Except PyErr Unit} (h : c.Later Q fs p s) (ha : (p.run s).result = a)
    (hs : (p.run s).disk = s) : c.Finished Q fs a s := by
  obtain ⟨o, h1, h2⟩ := h
  unfold Call.Finished
  split at h2
  · rename_i hc
    rw [if_pos hc, Call.main_eq, bind_ok h1]
    exact ⟨ha.symm.trans h2.result.symm, hs.symm.trans h2.disk.symm⟩
  · rename_i hc
    rw [if_neg hc]
    obtain ⟨ms, m, hq, h3, h4, h5⟩ := h2
    refine ⟨ms, hq, ?_⟩
    unfold TwoCores
    rw [show (Disk.opening c.removal (.path c.xlsx) (.path c.outdir) c.overwrite fs).result = _ from h1]
    refine ⟨m, h3, ?_⟩
    rw [h4]
    exact ⟨ha.symm.trans h5.result.symm, hs.symm.trans h5.disk.symm⟩

theorem later_look {k : FS Data → Prog Unit} (h : c.Later Q fs (.look k) s) : c.Later Q fs (k s) s := by
  obtain ⟨o, h1, h2⟩ := h
  refine ⟨o, h1, ?_⟩
  split
  · rename_i hc
    rw [if_pos hc] at h2
    exact h2.look
  · rename_i hc
    rw [if_neg hc] at h2
    obtain ⟨ms, m, hq, h3, h4, h5⟩ := h2
    exact ⟨ms, m, hq, h3, h4, h5.look⟩

theorem later_change {g : FS Data → FS Data} {k : Prog Unit} (h : c.Later Q fs (.change g k) s) : c.Later Q fs k (g s) := by
  obtain ⟨o, h1, h2⟩ := h
  refine ⟨o, h1, ?_⟩
  split
  · rename_i hc
    rw [if_pos hc] at h2
    exact h2.change
  · rename_i hc
    rw [if_neg hc] at h2
    obtain ⟨ms, m, hq, h3, h4, h5⟩ := h2
    exact ⟨ms, m, hq, h3, h4, h5.change⟩

/-- A call that is alone stays what it is. -/
theorem alone_act {r r' : Running} (hr : r.Alone c Q fs s) {x : Act} (hx : ∀ m, x = .move m → Q m)
    (h : r.act c s x = some (r', s')) : r'.Alone c Q fs s' := by
  cases x with
  | go =>
    cases r with
    | started =>
      have hr : Left (valid (.path c.xlsx) >>= fun x' => valid (.path c.outdir) >>= fun d' =>
        makeRoot c.removal c.overwrite (join d' (stem (lastName x'))) >>= fun _ =>
          prepare c.removal x' (join d' (stem (lastName x')))) s fs (c.opening fs) := hr
      simp only [Running.act] at h
      cases hv : validPath s (.path c.xlsx) with
      | error e =>
        rw [hv] at h
        cases h
        obtain ⟨h1, h2⟩ := hr.failed hv
        exact alone_failed h1 h2
      | ok x' =>
        rw [hv] at h
        cases h
        cases valid_eq hv
        have hl := hr.second (a := c.xlsx) hv (.inl rfl)
        refine Left.congr (s := s) hl ?_
        cases hd : validPath s (.path c.outdir) with
        | error e =>
          have hd' : (valid (.path c.outdir) s).result = .error e := hd
          rw [bind_error hd', bind_error hd']
        | ok d' =>
          cases valid_eq hd
          have hd' : (valid (.path c.outdir) s).result = .ok c.outdir := hd
          rw [bind_ok hd', bind_ok hd']
          rfl
    | checking =>
      have hr : Left (valid (.path c.outdir) >>= fun _ => makeRoot c.removal c.overwrite c.root >>= fun _ =>
        prepare c.removal c.xlsx c.root) s fs (c.opening fs) := hr
      simp only [Running.act] at h
      cases hv : validPath s (.path c.outdir) with
      | error e =>
        rw [hv] at h
        cases h
        obtain ⟨h1, h2⟩ := hr.failed hv
        exact alone_failed h1 h2
      | ok d' =>
        rw [hv] at h
        cases h
        exact hr.second (a := d') hv (.inl rfl)
    | looking =>
      have hr : Left (makeRoot c.removal c.overwrite c.root >>= fun _ => prepare c.removal c.xlsx c.root) s fs
        (c.opening fs) := hr
      simp only [Running.act] at h
      have hm := makeRoot_steps c s
      cases hv : s c.root with
      | none =>
        rw [hv] at h hm
        cases h
        exact hr.congr (bind_at _ hm)
      | some v =>
        rw [hv] at h hm
        cases v with
        | dir =>
          dsimp only at h hm
          split_ifs at h hm <;> cases h
          · refine hr.congr ?_
            rw [Prog.run_removeTree, ← Op.assoc]
            exact bind_at _ hm
          · obtain ⟨h1, h2⟩ := hr.failed (e := .fileExistsError) (by rw [hm]; rfl)
            rw [hm] at h2
            exact alone_failed h1 h2
        | file _ =>
          dsimp only at h hm
          split_ifs at h hm <;> cases h
          · obtain ⟨h1, h2⟩ := hr.failed (e := .other) (by rw [hm]; rfl)
            rw [hm] at h2
            exact alone_failed h1 h2
          · obtain ⟨h1, h2⟩ := hr.failed (e := .fileExistsError) (by rw [hm]; rfl)
            rw [hm] at h2
            exact alone_failed h1 h2
    | removing p =>
      have hr : Left (p.run >>= fun _ => makeDir c.root >>= fun _ => prepare c.removal c.xlsx c.root) s fs
        (c.opening fs) := hr
      cases p with
      | ret u =>
        cases h
        exact hr.second (a := u) rfl (.inl rfl)
      | raise e =>
        cases h
        obtain ⟨h1, h2⟩ := hr.failed (e := e) rfl
        exact alone_failed h1 h2
      | look k => cases h; exact hr.look_then
      | change g k => cases h; exact hr.change_then
    | making =>
      have hr : Left (makeDir c.root >>= fun _ => prepare c.removal c.xlsx c.root) s fs (c.opening fs) := hr
      simp only [Running.act] at h
      cases hv : mkdir s c.root with
      | error e =>
        rw [hv] at h
        cases h
        have hm : makeDir c.root s = ⟨.error e, s, []⟩ := by unfold makeDir; rw [hv]
        obtain ⟨h1, h2⟩ := hr.failed (e := e) (by rw [hm])
        rw [hm] at h2
        exact alone_failed h1 h2
      | ok s1 =>
        rw [hv] at h
        cases h
        have hm : makeDir c.root s = ⟨.ok (), s', [s']⟩ := by unfold makeDir; rw [hv]
        have hl := hr.second (a := ()) (by rw [hm]) (.inr (by rw [hm]; exact List.mem_cons_self ..))
        rw [hm] at hl
        show Left (Prog.prepare c.removal c.xlsx c.root).run s' fs (c.opening fs)
        rw [prepare_steps]
        exact hl
    | early p =>
      have hr : Left p.run s fs (c.opening fs) := hr
      cases p with
      | ret o =>
        cases h
        exact alone_divide hr.result hr.disk
      | raise e =>
        cases h
        exact alone_failed hr.result hr.disk
      | look k => cases h; exact hr.look
      | change g k => cases h; exact hr.change
    | two o proc job parent =>
      cases parent with
      | ended e =>
        cases e with
        | none => cases h; exact alone_kpis hr
        | some _ => cases h
      | _ => cases h
    | late p =>
      have hr : c.Later Q fs p s := hr
      cases p with
      | ret u => cases h; exact later_done hr rfl rfl
      | raise e => cases h; exact later_done hr rfl rfl
      | look k => cases h; exact later_look hr
      | change g k => cases h; exact later_change hr
    | ended _ => cases h
  | move m =>
    cases r with
    | two o proc job parent =>
      obtain ⟨k, hk, e⟩ := Option.map_eq_some_iff.mp h
      cases e
      obtain ⟨h1, h2, ms, hq, h3⟩ := hr
      refine ⟨h1, h2, ms ++ [m], fun m' hm' => ?_, ?_⟩
      · rcases List.mem_append.mp hm' with h | h
        · exact hq m' h
        · rw [List.mem_singleton.mp h]; exact hx m rfl
      unfold Opened.moves at h3 ⊢
      rw [moves_append, h3]
      show Machine.moves _ _ _ [m] = _
      unfold Machine.moves
      rw [hk]
      rfl
    | _ => simp [Running.act] at h

theorem alone_acts {r r' : Running} (hr : r.Alone c Q fs s) {xs : List Act} (hxs : ∀ m, .move m ∈ xs → Q m)
    (h : r.acts c s xs = some (r', s')) : r'.Alone c Q fs s' := by
  induction xs generalizing r s with
  | nil => cases h; exact hr
  | cons x xs ih =>
    unfold Running.acts at h
    cases hx : r.act c s x with
    | none => rw [hx] at h; cases h
    | some p =>
      rw [hx] at h
      exact ih (alone_act hr (fun m e => hxs m (e ▸ List.mem_cons_self ..)) hx)
        (fun m hm => hxs m (List.mem_cons_of_mem _ hm)) h

theorem alone_start (c : Call) (Q : Move → Prop) (fs : FS Data) : Running.started.Alone c Q fs fs := Left.begin _ _

/-! ## Every moment -/

theorem seen_opening {t : FS Data} (h : t ∈ (c.opening fs).seen) : t ∈ (c.main fs).states := by
  rw [Call.main_eq]
  exact List.mem_cons_of_mem _ (seen_first h)

/-- On one core: the disk is one of those of `Disk.main`. -/
theorem alone_moment_one (hc : c.singlecore = true) {r : Running} (hr : r.Alone c Q fs s) :
    s = fs ∨ s ∈ (c.main fs).states := by
  have early : ∀ {α : Type} {m : Op α} {d : Done α}, Left m s fs d → (∀ t ∈ d.seen, t ∈ (c.main fs).states) →
      s = fs ∨ s ∈ (c.main fs).states := fun h hd => h.now.imp id (hd s)
  cases r with
  | two => exact absurd (hc.symm.trans hr.1) (by decide)
  | late p =>
    obtain ⟨o, h1, h2⟩ := hr
    rw [if_pos hc] at h2
    rcases h2.now with h | h
    · subst h
      rcases opening_recorded c.removal (.path c.xlsx) (.path c.outdir) c.overwrite fs with h | h
      · exact .inl h
      · exact .inr (seen_opening h)
    · rw [Call.main_eq]
      exact .inr (List.mem_cons_of_mem _ (seen_second h1 h))
  | ended a =>
    have hr : c.Finished Q fs a s := hr
    unfold Call.Finished at hr
    rw [if_pos hc] at hr
    exact .inr (hr.2 ▸ List.mem_cons_self ..)
  | started => exact early (show Left _ s fs _ from hr) fun _ => seen_opening
  | checking => exact early (show Left _ s fs _ from hr) fun _ => seen_opening
  | looking => exact early (show Left _ s fs _ from hr) fun _ => seen_opening
  | removing p => exact early (show Left _ s fs _ from hr) fun _ => seen_opening
  | making => exact early (show Left _ s fs _ from hr) fun _ => seen_opening
  | early p => exact early (show Left _ s fs _ from hr) fun _ => seen_opening

/-- On two cores: the disk is one at which the two processes can be cut off. -/
theorem alone_moment_two (hc : c.singlecore = false) {r : Running} (hr : r.Alone c Q fs s) :
    s = fs ∨ TwoCoresAt c.libs c.gekko c.removal (.path c.xlsx) (.path c.outdir) c.overwrite fs s := by
  have hc' : ¬ c.singlecore = true := by rw [hc]; decide
  have early : ∀ {m : Op Opened}, Left m s fs (c.opening fs) →
      s = fs ∨ TwoCoresAt c.libs c.gekko c.removal (.path c.xlsx) (.path c.outdir) c.overwrite fs s :=
    fun h => h.now.imp id fun h => .inl (List.mem_cons_of_mem _ h)
  cases r with
  | two o proc job parent =>
    obtain ⟨-, h1, ms, -, h2⟩ := hr
    exact .inr (.inr ⟨o, ms, _, h1, h2, .inl rfl⟩)
  | late p =>
    obtain ⟨o, h1, h2⟩ := hr
    rw [if_neg hc'] at h2
    obtain ⟨ms, m, -, h3, h4, h5⟩ := h2
    exact .inr (.inr ⟨o, ms, m, h1, h3, h5.now.imp id fun h => ⟨h4, List.mem_cons_of_mem _ h⟩⟩)
  | ended a =>
    have hr : c.Finished Q fs a s := hr
    unfold Call.Finished at hr
    rw [if_neg hc'] at hr
    obtain ⟨ms, -, h⟩ := hr
    unfold TwoCores at h
    cases ho : (opening c.removal (.path c.xlsx) (.path c.outdir) c.overwrite fs).result with
    | error e =>
      rw [ho] at h
      exact .inr (.inl (h.2.2 ▸ List.mem_cons_self ..))
    | ok o =>
      rw [ho] at h
      obtain ⟨m, h1, h2⟩ := h
      refine .inr (.inr ⟨o, ms, m, ho, h1, ?_⟩)
      split at h2
      · rename_i hp
        exact .inr ⟨hp, h2.2 ▸ List.mem_cons_self ..⟩
      · exact .inl h2.2
      · exact h2.elim
  | started => exact early (show Left _ s fs _ from hr)
  | checking => exact early (show Left _ s fs _ from hr)
  | looking => exact early (show Left _ s fs _ from hr)
  | removing p => exact early (show Left _ s fs _ from hr)
  | making => exact early (show Left _ s fs _ from hr)
  | early p => exact early (show Left _ s fs _ from hr)

/-- What a call that has been alone has answered. -/
theorem alone_answer {r : Running} (hr : r.Alone c Q fs s) {a : Except PyErr Unit} (ha : r.answer = some a) :
    c.Finished Q fs a s := by
  cases r with
  | ended a' => cases ha; exact hr
  | two o proc job parent =>
    cases parent with
    | ended e =>
      cases e with
      | none => cases ha
      | some e =>
        cases ha
        obtain ⟨h1, h2, ms, hq, h3⟩ := hr
        unfold Call.Finished
        rw [if_neg (by rw [h1]; decide)]
        refine ⟨ms, hq, ?_⟩
        unfold TwoCores
        rw [show (Disk.opening c.removal (.path c.xlsx) (.path c.outdir) c.overwrite fs).result = _ from h2]
        exact ⟨_, h3, rfl, rfl⟩
    | _ => cases ha
  | _ => cases ha

end Disk
end Verif
