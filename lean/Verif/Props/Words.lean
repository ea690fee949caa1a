import Verif.Props.Workbook
import Verif.Props.Enums
import Verif.Lemmas.Sample

/-!
# Words written in the workbook (C91)
-/

set_option autoImplicit false

namespace Verif
open Pandas Simulation Spec FixedOrder InputText

/-! ## The tank -/

/-- A cell text that spells `word`: in capital or small letters, with blanks before and after it. -/
def Spec.Spells (t word : String) : Prop :=
  ∃ (i j : ℕ) (core : List Char), t.toList = List.replicate i ' ' ++ core ++ List.replicate j ' ' ∧
    core.map Char.toLower = word.toList

theorem strip_spaces (i j : ℕ) {core : List Char} (h : ' ' ∉ core) :
    strip (List.replicate i ' ' ++ core ++ List.replicate j ' ') = core := by
  have hh : ∀ l : List Char, ' ' ∉ l → ∀ c ∈ l.head?, c ≠ ' ' := by
    rintro l hl c hc rfl
    exact hl (List.mem_of_mem_head? hc)
  cases core with
  | nil =>
    unfold strip
    rw [List.append_nil, List.replicate_append_replicate]
    have := dropWhile_spaces (i + j) (cs := []) (fun c hc => by cases hc)
    rw [List.append_nil] at this
    rw [this]
    rfl
  | cons x xs =>
    unfold strip
    rw [List.append_assoc, dropWhile_spaces, List.reverse_append, List.reverse_replicate, dropWhile_spaces,
      List.reverse_reverse]
    · exact hh _ (fun hm => h (List.mem_reverse.mp hm))
    · rintro c hc rfl
      cases Option.mem_some_iff.mp hc
      exact h List.mem_cons_self

theorem lowered_spells {t word : String} (h : Spells t word) (hb : ' ' ∉ word.toList) :
    lowered (some (.text t)) = word := by
  obtain ⟨i, j, core, e, hc⟩ := h
  unfold lowered
  dsimp only
  rw [e, List.map_append, List.map_append, List.map_replicate, List.map_replicate, hc,
    show Char.toLower ' ' = ' ' from rfl, strip_spaces i j hb, String.ofList_toList]

theorem takeWhile_spaces (cs : List Char) : ∃ i, cs.takeWhile (· == ' ') = List.replicate i ' ' :=
  ⟨_, List.eq_replicate_iff.mpr ⟨rfl, fun c hc => by simpa using List.all_eq_true.mp List.all_takeWhile c hc⟩⟩

theorem strip_decomposes (cs : List Char) :
    ∃ i j, cs = List.replicate i ' ' ++ strip cs ++ List.replicate j ' ' := by
  obtain ⟨i, hi⟩ := takeWhile_spaces cs
  obtain ⟨j, hj⟩ := takeWhile_spaces (cs.dropWhile (· == ' ')).reverse
  refine ⟨i, j, ?_⟩
  have h1 := List.takeWhile_append_dropWhile (p := (· == ' ')) (l := cs)
  have h2 := List.takeWhile_append_dropWhile (p := (· == ' ')) (l := (cs.dropWhile (· == ' ')).reverse)
  have h3 := congrArg List.reverse h2
  rw [List.reverse_append, List.reverse_reverse, hj, List.reverse_replicate] at h3
  unfold strip
  rw [List.append_assoc, h3, ← hi, h1]

theorem toLower_blank {c : Char} (h : c.toLower = ' ') : c = ' ' := by
  unfold Char.toLower at h
  split_ifs at h with hc
  · exfalso
    have h1 : (c.val + 32).toNat = 32 := congrArg (fun c : Char => c.val.toNat) h
    have h2 : 65 ≤ c.val.toNat := UInt32.le_iff_toNat_le.mp hc.1
    have h3 : c.val.toNat ≤ 90 := UInt32.le_iff_toNat_le.mp hc.2
    rw [UInt32.toNat_add] at h1
    have : (32 : UInt32).toNat = 32 := rfl
    omega
  · exact h

theorem lower_blanks {cs : List Char} {i : ℕ} (h : cs.map Char.toLower = List.replicate i ' ') :
    cs = List.replicate cs.length ' ' :=
  List.eq_replicate_iff.mpr ⟨rfl, fun _ hc => toLower_blank
    (List.eq_of_mem_replicate (h ▸ List.mem_map_of_mem hc))⟩

/-- The tank's word is `word` exactly if the cell spells it. -/
theorem lowered_iff {t word : String} (hb : ' ' ∉ word.toList) :
    lowered (some (.text t)) = word ↔ Spells t word := by
  refine ⟨fun h => ?_, fun h => lowered_spells h hb⟩
  obtain ⟨i, j, e⟩ := strip_decomposes (t.toList.map Char.toLower)
  obtain ⟨ab, c, e1, e2, e3⟩ := List.map_eq_append_iff.mp e
  obtain ⟨a, b, rfl, e4, e5⟩ := List.map_eq_append_iff.mp e2
  refine ⟨a.length, c.length, b, ?_, ?_⟩
  · rw [e1]
    congr 1
    · congr 1
      exact lower_blanks e4
    · exact lower_blanks e3
  · rw [e5, ← h]
    exact String.toList_ofList.symm

/-- C91, the words on the sheet of the store: the insulation is one of the three known ones exactly if the cell
spells it, and the tank stands inside or outside exactly if the cell spells that. Capitals and blanks around the
word do not matter. -/
theorem C91_tank_words {L : Libs} {wb : Pandas.Workbook} {size : ℤ × ℤ} {o : Objects}
    (h : objects L wb size = .ok o) {insulation location : String}
    (hi : Says wb "Thermal storage" 'D' 6 insulation) (hl : Says wb "Thermal storage" 'D' 7 location) :
    (∀ word ∈ ["polyurethane", "fibreglass", "polystyrene"],
      o.tank.insulation = word ↔ Spells insulation word) ∧
    (o.tank.location = .inside ↔ Spells location "inside") ∧
    (o.tank.location = .outside ↔ Spells location "outside") := by
  obtain ⟨-, -, e1, e2, -⟩ := C91_tank h
  unfold Says at hi hl
  rw [e1, e2, hi, hl]
  refine ⟨fun word hw => lowered_iff ?_, ?_, ?_⟩
  · simp only [List.mem_cons, List.not_mem_nil, or_false] at hw
    rcases hw with rfl | rfl | rfl <;> decide
  · rw [← lowered_iff (by decide)]
    unfold locationOf
    split_ifs with h1 h2 <;> simp [*]
  · rw [← lowered_iff (by decide)]
    unfold locationOf
    split_ifs with h1 h2 <;> simp [*]

/-! ## The panels -/

/-- The name under which the tables of panels know a module: blanks and punctuation are underscores. -/
def Spec.TableName (written name : String) : Prop :=
  written.toList.length = name.toList.length ∧ ∀ (i : ℕ) (c : Char), written.toList[i]? = some c →
    name.toList[i]? = some (if c ∈ " -.()[]:+/\",".toList then '_' else c)

/-- C91: the module looked up is the one written on the sheet. -/
theorem C91_module_name {L : Libs} {wb : Pandas.Workbook} {size : ℤ × ℤ} {o : Objects}
    (ht : TopRowsEmpty wb) (h : objects L wb size = .ok o) :
    ∃ s row m, wb "PV inputs" = some s ∧ FirstComplete s [19] [0, 1] row ∧ Says wb "PV inputs" 'C' row m ∧
      TableName m o.pv.moduleName := by
  obtain ⟨s, hw, ⟨row, m, h1, h2, h3, -⟩, -⟩ := C91_pv_partial ht h
  refine ⟨s, row, m, hw, h1, h2, ?_⟩
  rw [h3]
  unfold pvName
  refine ⟨by rw [String.toList_ofList, List.length_map], fun i c hc => ?_⟩
  have e : " -.()[]:+/\",".toList = [' ', '-', '.', '(', ')', '[', ']', ':', '+', '/', '"', ','] := by decide
  rw [String.toList_ofList, List.getElem?_map, hc, Option.map_some, e]

/-! ## Examples -/

example : Spells " Polyurethane  " "polyurethane" := ⟨1, 2, "Polyurethane".toList, by decide, by decide⟩

example : TableName "Canadian Solar CS5P-220M" "Canadian_Solar_CS5P_220M" := by
  refine ⟨by decide, fun i c hc => ?_⟩
  have hi : i < 24 := (List.getElem?_eq_some_iff.mp hc).1
  interval_cases i <;> (cases Option.some.inj hc; decide)

/-- The tank of the sample workbook is insulated with polyurethane and stands inside. -/
example {L : Libs} {o : Objects} (h : objects L (Sample.book "Simple") (10, 10) = .ok o) :
    o.tank.insulation = "polyurethane" ∧ o.tank.location = .inside := by
  obtain ⟨h1, h2, -⟩ := C91_tank_words h (insulation := "Polyurethane") (location := "Inside") rfl rfl
  exact ⟨(h1 _ (by decide)).mpr ⟨0, 0, "Polyurethane".toList, by decide, by decide⟩,
    h2.mpr ⟨0, 0, "Inside".toList, by decide, by decide⟩⟩

end Verif
