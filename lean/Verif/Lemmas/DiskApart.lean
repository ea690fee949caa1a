import Verif.Lemmas.DiskSchedule

/-!
# Lemmas for `Verif.Props.DiskTwo`: solving and plotting keep to the folder of the combination
-/

set_option autoImplicit false

namespace Verif
namespace Disk
open Files Para Pandas Programme Report InputReader Simulation Workbook OutputProcess

variable {α β : Type} {R W : FPath → Prop}

theorem Prog.Within.raise (e : PyErr) : (Prog.raise e : Prog α).Within R W := trivial

theorem Prog.Within.set {p : FPath} (hW : W p) (v : Option (Node Data)) {k : Prog α} (hk : k.Within R W) :
    (Prog.change (fun fs q => if q = p then v else fs q) k).Within R W := by
  refine ⟨fun a b h q hq => ?_, fun a q hq => ?_, hk⟩
  · dsimp only
    split_ifs
    · rfl
    · exact h q hq
  · dsimp only
    exact if_neg fun e : q = p => hq (e ▸ hW)

theorem Prog.Within.put {p : FPath} (hW : W p) (d : Data) : (Prog.put p d).Within R W :=
  Prog.Within.set hW _ trivial

theorem Prog.Within.read {p : FPath} (hR : R p) : (Prog.read p).Within R W := by
  refine ⟨fun a b h => by dsimp only; rw [h p hR], fun a => ?_⟩
  dsimp only
  split <;> trivial

theorem Prog.Within.readContainer {p : FPath} (hR : R p) : (Prog.readContainer p).Within R W :=
  (Prog.Within.read hR).bind fun d => by cases d <;> trivial

theorem Prog.Within.readOutcome {p : FPath} (hR : R p) : (Prog.readOutcome p).Within R W :=
  (Prog.Within.read hR).bind fun d => by cases d <;> trivial

theorem Prog.Within.write {p : FPath} (hR : R p) (hD : R p.dropLast) (hW : W p) (d : Data) :
    (Prog.write p d).Within R W := by
  refine ⟨fun a b h => by dsimp only; rw [h p hR, h _ hD], fun a => ?_⟩
  dsimp only
  split
  · trivial
  · trivial
  · split
    · trivial
    · exact (Prog.Within.put hW _).bind fun _ => Prog.Within.put hW _

theorem Prog.Within.makeDir {p : FPath} (hR : R p) (hD : R p.dropLast) (hW : W p) : (Prog.makeDir p).Within R W := by
  refine ⟨fun a b h => ?_, fun a => ?_⟩
  · dsimp only
    unfold mkdir
    rw [h p hR, h _ hD]
    cases b p with
    | some _ => rfl
    | none => cases b p.dropLast with
      | none => rfl
      | some v => cases v <;> rfl
  dsimp only
  split
  · trivial
  · exact Prog.Within.set hW _ trivial

theorem Prog.Within.removeTree (E : FPath → Removal) {p : FPath} (hR : ∀ q, p <+: q → R q) (hW : ∀ q, p <+: q → W q) :
    (Prog.removeTree E p).Within R W := by
  refine ⟨fun a b h => ?_, fun a => ?_⟩
  · have e : (fun (gone : FPath → Bool) (fs : FS Data) (q : FPath) => if p <+: q then without a p gone q else fs q) =
        fun gone fs q => if p <+: q then without b p gone q else fs q := by
      funext gone fs q
      by_cases hq : p <+: q
      · rw [if_pos hq, if_pos hq]
        unfold without
        rw [h q (hR q hq)]
      · rw [if_neg hq, if_neg hq]
    show (E p).stages.foldr (fun gone k => Prog.change
      ((fun (gone : FPath → Bool) (fs : FS Data) (q : FPath) => if p <+: q then without a p gone q else fs q) gone) k) _ = _
    rw [e]
  · dsimp only
    generalize (E p).stages = l
    induction l with
    | cons g l ih =>
      refine ⟨fun x y h q hq => ?_, fun x q hq => if_neg fun hp => hq (hW q hp), ih⟩
      dsimp only
      split_ifs
      · rfl
      · exact h q hq
    | nil =>
      show (match (E p).err with
          | none => .change (fun fs => without fs p fun _ => true) (.ret ())
          | some e => .raise e : Prog Unit).Within R W
      cases (E p).err with
      | some e => trivial
      | none =>
        refine ⟨fun x y h q hq => ?_, fun x q hq => ?_, trivial⟩
        · show without x p _ q = without y p _ q
          unfold without
          rw [h q hq]
        · have : ¬ p <+: q := fun hp => hq (hW q hp)
          unfold without
          simp [this]

theorem Prog.Within.freshDir (E : FPath → Removal) {p : FPath} (hR : ∀ q, p <+: q → R q) (hD : R p.dropLast)
    (hW : ∀ q, p <+: q → W q) : (Prog.freshDir E p).Within R W := by
  have h0 : p <+: p := List.prefix_rfl
  have hm : (Prog.makeDir p).Within R W := .makeDir (hR p h0) hD (hW p h0)
  refine ⟨fun a b h => by dsimp only; rw [h p (hR p h0)], fun a => ?_⟩
  dsimp only
  split
  · exact (Prog.Within.removeTree E hR hW).bind fun _ => hm
  · exact hm

/-! ## The programs of a combination -/

/-- The folder of a combination. -/
def Mine (root : FPath) (name : Name) (q : FPath) : Prop := root ++ [outDir, name] <+: q

/-- What the programs of a combination look at: its input file and its folder. -/
def Sees (root : FPath) (name : Name) (q : FPath) : Prop :=
  q = root ++ [inDir, name ++ ".pkl".toList] ∨ Mine root name q

theorem mine_of (root : FPath) (name : Name) (rest : FPath) : Mine root name (root ++ outDir :: name :: rest) :=
  ⟨rest, by simp⟩

theorem solve_within (L : Libs) (gekko : Gekko) (root : FPath) (v : Value) (first n : ℕ) (name : Name) :
    (Prog.solve L gekko root v first n name).Within (Sees root name) (Mine root name) :=
  (Prog.Within.readContainer (.inl rfl)).bind fun _ => (Prog.Within.lift _).bind fun _ =>
    .write (.inr (mine_of root name [_])) (.inr (by
      rw [show root ++ [outDir, name, resultsName] = (root ++ [outDir, name]) ++ [resultsName] by simp,
        List.dropLast_concat]
      exact mine_of root name [])) (mine_of root name [_]) _

theorem plot_within (E : FPath → Removal) (root : FPath) (name : Name) :
    (Prog.plot E root name).Within (Sees root name) (Mine root name) := by
  refine (Prog.Within.readContainer (.inl rfl)).bind fun _ => (Prog.Within.lift _).bind fun _ =>
    Prog.Within.each fun pb _ => ?_
  have below : ∀ q, root ++ [outDir, name, periodName pb.1] <+: q → Mine root name q := fun q ⟨t, e⟩ =>
    ⟨periodName pb.1 :: t, by rw [← e]; simp⟩
  refine (Prog.Within.readOutcome (.inr (mine_of root name [_]))).bind fun _ =>
    (Prog.Within.readContainer (.inl rfl)).bind fun _ => (Prog.Within.lift _).bind fun _ =>
    (Prog.Within.lift _).bind fun _ =>
    (Prog.Within.freshDir E (fun q hq => .inr (below q hq)) (.inr (by
      rw [show root ++ [outDir, name, periodName pb.1] = (root ++ [outDir, name]) ++ [periodName pb.1] by simp,
        List.dropLast_concat]
      exact mine_of root name [])) below).bind fun _ => (Prog.Within.lift _).bind fun _ =>
    Prog.Within.each fun f _ => .write (.inr (mine_of root name [_, _])) (.inr (by
      rw [show root ++ [outDir, name, periodName pb.1, f] = (root ++ [outDir, name, periodName pb.1]) ++ [f] by simp,
        List.dropLast_concat]
      exact mine_of root name [_])) (mine_of root name [_, _]) _

theorem apart (L : Libs) (gekko : Gekko) (E : FPath → Removal) (root : FPath) (v : Value) (first n : ℕ) :
    Apart (Prog.solve L gekko root v first n) (Prog.plot E root) (Sees root) (Mine root) where
  solve := solve_within L gekko root v first n
  plot := plot_within E root
  sub := fun _ _ h => .inr h
  apart := by
    rintro a b q hab ⟨t, rfl⟩ (h | ⟨t', h⟩)
    · rw [List.append_assoc] at h
      have := List.append_cancel_left h
      simp only [List.cons_append, List.cons.injEq] at this
      exact in_ne_out this.1.symm
    · rw [List.append_assoc, List.append_assoc] at h
      have := List.append_cancel_left h
      simp only [List.cons_append, List.cons.injEq, true_and] at this
      exact hab this.1.symm

/-! ## `main` is the opening, the loop and the tables -/

theorem each_map {γ : Type} (f : γ → Op Unit) (g : β → γ) (bs : List β) :
    each f (bs.map g) = each (fun b => f (g b)) bs := by
  induction bs with
  | nil => rfl
  | cons b bs ih =>
    show (f (g b) >>= fun _ => each f (bs.map g)) = _
    rw [ih]
    rfl

/-- The loop on one core. -/
def Opened.loop (L : Libs) (gekko : Gekko) (E : FPath → Removal) (o : Opened) : Op Unit :=
  each (both (Prog.solve L gekko o.root o.controller o.first o.n) (Prog.plot E o.root)) (o.sizes.map folderName)

theorem loop_steps (L : Libs) (gekko : Gekko) (E : FPath → Removal) (o : Opened) :
    o.loop L gekko E = each (fun s => do
      Disk.solve L gekko o.root o.controller o.first o.n (folderName s)
      Disk.plot E o.root (folderName s)) o.sizes := by
  unfold Opened.loop
  rw [each_map]
  congr 1
  funext s
  unfold both
  rw [solve_steps, plot_steps]

theorem main_opening (L : Libs) (gekko : Gekko) (E : FPath → Removal) (xlsx outdir : Arg) (overwrite : Bool) :
    Disk.main L gekko E xlsx outdir overwrite = opening E xlsx outdir overwrite >>= fun o =>
      o.loop L gekko E >>= fun _ => kpis L E (lastName o.root) o.root := by
  unfold Disk.main opening body
  simp only [Op.assoc]
  congr 1; funext x
  congr 1; funext d
  congr 1; funext _
  congr 1; funext _
  congr 1; funext _
  congr 1; funext sizes
  congr 1; funext _
  cases sizes with
  | nil => rfl
  | cons s ss =>
    unfold study
    dsimp only
    simp only [Op.assoc, Op.pure_then, loop_steps]

theorem bind_result_ok {m : Op α} {f : α → Op β} {fs : FS Data} {b : β} (h : ((m >>= f) fs).result = .ok b) :
    ∃ a, (m fs).result = .ok a ∧ (f a (m fs).disk).result = .ok b := by
  cases hr : (m fs).result with
  | error e => rw [bind_error hr] at h; cases h
  | ok a => rw [bind_ok hr] at h; exact ⟨a, rfl, h⟩

theorem opening_nodup {E : FPath → Removal} {xlsx outdir : Arg} {overwrite : Bool} {fs : FS Data} {o : Opened}
    (h : (opening E xlsx outdir overwrite fs).result = .ok o) : (o.sizes.map folderName).Nodup := by
  unfold opening at h
  obtain ⟨x, -, h⟩ := bind_result_ok h
  obtain ⟨d, -, h⟩ := bind_result_ok h
  obtain ⟨_, -, h⟩ := bind_result_ok h
  obtain ⟨_, -, h⟩ := bind_result_ok h
  obtain ⟨_, -, h⟩ := bind_result_ok h
  obtain ⟨sizes, hs, h⟩ := bind_result_ok h
  obtain ⟨_, -, h⟩ := bind_result_ok h
  have hn : sizes.Nodup := by
    unfold para at hs
    obtain ⟨_, -, hs⟩ := bind_result_ok hs
    obtain ⟨_, -, hs⟩ := bind_result_ok hs
    obtain ⟨_, -, hs⟩ := bind_result_ok hs
    obtain ⟨pa, -, hs⟩ := bind_result_ok hs
    obtain ⟨ss, hc, hs⟩ := bind_result_ok hs
    obtain ⟨_, -, hs⟩ := bind_result_ok hs
    cases Except.ok.inj hs
    exact combos_nodup hc
  have e : o.sizes = sizes := by
    cases sizes with
    | nil => cases h
    | cons s ss =>
      obtain ⟨_, -, h⟩ := bind_result_ok h
      obtain ⟨_, -, h⟩ := bind_result_ok h
      obtain ⟨_, -, h⟩ := bind_result_ok h
      obtain ⟨_, -, h⟩ := bind_result_ok h
      cases Except.ok.inj h
      rfl
  rw [e]
  exact hn.map folderName_inj

end Disk
end Verif
