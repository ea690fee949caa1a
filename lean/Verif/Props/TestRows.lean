import Verif.Lemmas.TestData

/-! # The flow temperature of a row of test data (C96, continued) -/

set_option autoImplicit false

namespace Verif
open Pandas DataFrame InputReader FixedOrder Simulation

/-- **The first eight rows of a test table get its flow temperature, later rows get none**, and the other entries of a row stay
as they were read. -/
theorem C96_flow_column {reg temp : DataFrame} {t : Table} (h : regressionPart reg temp = .ok t) :
    ∃ v, temp.get (.named "flow_temp") (.pos 0) = .ok v ∧ t.rows.length = max reg.index.length 8 ∧
      ∀ i row, t.rows[i]? = some row → row (.named "flow_temp") = (if i < 8 then v else none) ∧
        ∀ k j r, k ≠ .named "flow_temp" → reg.columns.lookup k = some j → reg.index[i]? = some r → row k = reg.cell r.2 j := by
  unfold regressionPart at h
  simp only [except_bind_ok, except_pure_ok] at h
  obtain ⟨v, hv, rfl⟩ := h
  refine ⟨v, hv, by simp [Table.addColumn, Table.ofFrame], fun i row hrow => ?_⟩
  simp only [Table.addColumn, List.getElem?_map, Option.map_eq_some_iff] at hrow
  obtain ⟨i', hi, rfl⟩ := hrow
  obtain ⟨hlt, he⟩ := List.getElem?_eq_some_iff.mp hi
  rw [List.getElem_range] at he
  subst he
  refine ⟨?_, fun k j r hk hj hr => ?_⟩
  · beta_reduce
    rw [if_pos rfl, List.getElem?_replicate]
    split <;> rfl
  · beta_reduce
    rw [if_neg hk]
    simp [Table.ofFrame, hr, hj]

/-- A table of nine rows with an ambient temperature each. -/
def Spec.nineRows : DataFrame where
  index := (List.range 9).map fun i => (.pos i, i)
  columns := [(.named "ambient_temp", 0)]
  cell := fun i _ => some (.num i)

/-- A flow temperature of 45 degrees. -/
def Spec.flow45 : DataFrame where
  index := [(.pos 0, 0)]
  columns := [(.named "flow_temp", 0)]
  cell := fun _ _ => some (.num 45)

example : ∃ t, regressionPart Spec.nineRows Spec.flow45 = .ok t ∧ t.rows.length = 9 ∧
    (t.rows[7]?).map (· (.named "flow_temp")) = some (some (.num 45)) ∧
    (t.rows[8]?).map (· (.named "flow_temp")) = some none := ⟨_, rfl, rfl, rfl, rfl⟩

end Verif
