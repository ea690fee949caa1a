import Verif.Lemmas.Template
import Verif.Lemmas.Objects

/-!
# Property C92: which workbooks can be read

A workbook with empty top rows can be read exactly if every sheet of the template is there, each is used at
least as far as the program cuts rows and columns out of it, and the few entries interpreted at once are
legal. Nothing else in the workbook can stop the reading, whatever it contains.
-/

set_option autoImplicit false

namespace Verif
open Pandas Workbook Enums Simulation Spec

namespace Spec

/-- The cell is a list of whole numbers separated by commas. -/
def OrderIn (wb : Pandas.Workbook) (sheet : String) (col : Char) (row : ℕ) : Prop :=
  ∃ text ns, Says wb sheet col row text ∧ InputText.readOrder text.toList = .ok ns

/-- The cell names one of the four fuels, in any mixture of capitals and small letters. -/
def FuelIn (wb : Pandas.Workbook) (sheet : String) (col : Char) (row : ℕ) : Prop :=
  ∃ text, Says wb sheet col row text ∧ text.toUpper ∈ ["GAS", "WOOD CHIPS", "KEROSENE", "ELECTRIC"]

/-- The thirteen sheets and how far each must be used; the entries that must be legal. -/
structure Readable (wb : Pandas.Workbook) : Prop where
  parametric : Reaches wb "Parametric" 'F' 7
  controller : Reaches wb "Controller" 'G' 9
  weather : Reaches wb "Weather resources" 'O' 5
  demandGen : Reaches wb "Demand gen" 'H' 37
  demandInput : Reaches wb "Demand input" 'I' 8
  pv : Reaches wb "PV inputs" 'H' 20
  wind : Reaches wb "Wind inputs" 'G' 23
  windFarm : Reaches wb "Wind farm" 'G' 19
  battery : Reaches wb "Electrical storage" 'B' 5
  grid : Reaches wb "Grid" 'W' 42
  aux : Reaches wb "Aux heat" 'E' 11
  thermal : Reaches wb "Thermal storage" 'N' 21
  heatPump : Reaches wb "Heat pump" 'S' 26
  orderAbove : OrderIn wb "Controller" 'D' 8
  orderBelow : OrderIn wb "Controller" 'D' 9
  fuel : FuelIn wb "Aux heat" 'C' 6
  fuel1 : FuelIn wb "Aux heat" 'C' 9
  fuel2 : FuelIn wb "Aux heat" 'C' 10
  fuel3 : FuelIn wb "Aux heat" 'C' 11

end Spec

theorem fuel_values (a : String) : (∃ x, fromValue Fuel a = .ok x) ↔
    a ∈ ["GAS", "WOOD CHIPS", "KEROSENE", "ELECTRIC"] := by
  unfold fromValue
  constructor
  · rintro ⟨x, hx⟩
    split at hx
    · rename_i y hy
      have h1 := List.find?_some hy
      have h2 := List.mem_of_find?_eq_some hy
      simp only [StrEnum.members, List.mem_cons, List.not_mem_nil, or_false] at h2
      rcases h2 with rfl | rfl | rfl | rfl <;> simp_all [StrEnum.value]
    · cases hx
  · intro h
    simp only [List.mem_cons, List.not_mem_nil, or_false] at h
    rcases h with rfl | rfl | rfl | rfl
    · exact ⟨.gas, by decide +kernel⟩
    · exact ⟨.wood, by decide +kernel⟩
    · exact ⟨.kerosene, by decide +kernel⟩
    · exact ⟨.electric, by decide +kernel⟩

/-- C92: reading the workbook succeeds exactly if it is `Readable`. -/
theorem C92_readable {wb : Pandas.Workbook} (ht : TopRowsEmpty wb) :
    (∃ c, readInputs wb = .ok c) ↔ Readable wb := by
  rw [readInputs_iff]
  have key : ∀ {name : String} {P : Sheet → Prop} {w h : ℕ} (col : Char),
      (∀ s, BlankHeader s → (P s ↔ Fits s w h)) → w = col.toNat - 'A'.toNat + 1 →
      ((∃ s, wb name = some s ∧ P s) ↔ Reaches wb name col h) := by
    intro name P w h col hp hw
    unfold Reaches
    constructor
    · rintro ⟨s, hs, h'⟩
      obtain ⟨h1, h2⟩ := (hp s (blank ht hs)).mp h'
      exact ⟨s, hs, hw ▸ h1, h2⟩
    · rintro ⟨s, hs, h1, h2⟩
      exact ⟨s, hs, (hp s (blank ht hs)).mpr ⟨hw ▸ h1, h2⟩⟩
  have fuel : ∀ {s : Sheet} (_ : wb "Aux heat" = some s) (r : ℕ),
      (∃ x, fuelOf (s.cell r 2) = .ok x) ↔ FuelIn wb "Aux heat" 'C' r := by
    intro s hs r
    rw [fuelOf_iff]
    unfold FuelIn Says
    rw [excel_eq hs]
    constructor
    · rintro ⟨a, x, h1, h2⟩
      exact ⟨a, h1, (fuel_values _).mp ⟨x, h2⟩⟩
    · rintro ⟨a, h1, h2⟩
      obtain ⟨x, hx⟩ := (fuel_values _).mpr h2
      exact ⟨a, x, h1, hx⟩
  have order : ∀ {s : Sheet} (_ : wb "Controller" = some s) (r : ℕ),
      (∃ a l, s.cell r 3 = some (.text a) ∧ InputText.readOrder a.toList = .ok l) ↔
        OrderIn wb "Controller" 'D' r := by
    intro s hs r
    unfold OrderIn Says
    rw [excel_eq hs]
    exact Iff.rfl
  have e1 := key (name := "Parametric") 'F' (fun s => parametric_iff (s := s)) rfl
  have e3 := key (name := "Weather resources") 'O' (fun s => resources_iff (s := s)) rfl
  have e4 := key (name := "Demand gen") 'H' (fun s => demands_iff (s := s)) rfl
  have e5 := key (name := "Demand input") 'I' (fun s => demandInput_iff (s := s)) rfl
  have e6 := key (name := "PV inputs") 'H' (fun s => pv_iff (s := s)) rfl
  have e7 := key (name := "Wind inputs") 'G' (fun s => wind_iff (s := s)) rfl
  have e8 := key (name := "Wind farm") 'G' (fun s => windFarm_iff (s := s)) rfl
  have e9 := key (name := "Electrical storage") 'B' (fun s => electricalStorage_iff (s := s)) rfl
  have e10 := key (name := "Grid") 'W' (fun s => grid_iff (s := s)) rfl
  have e12 := key (name := "Thermal storage") 'N' (fun s => thermalStorage_iff (s := s)) rfl
  have e13 := key (name := "Heat pump") 'S' (fun s => heatPump_iff (s := s)) rfl
  rw [e1, e3, e4, e5, e6, e7, e8, e9, e10, e12, e13]
  constructor
  · rintro ⟨h1, ⟨s, hs, h2⟩, h3, h4, h5, h6, h7, h8, h9, h10, ⟨s', hs', h11⟩, h12, h13⟩
    obtain ⟨⟨f1, f2⟩, o1, o2⟩ := (controller_iff (blank ht hs)).mp h2
    obtain ⟨⟨g1, g2⟩, u1, u2, u3, u4⟩ := (aux_iff (blank ht hs')).mp h11
    exact ⟨h1, ⟨s, hs, f1, f2⟩, h3, h4, h5, h6, h7, h8, h9, h10, ⟨s', hs', g1, g2⟩, h12, h13,
      (order hs 8).mp o1, (order hs 9).mp o2, (fuel hs' 6).mp u1, (fuel hs' 9).mp u2, (fuel hs' 10).mp u3,
      (fuel hs' 11).mp u4⟩
  · rintro ⟨h1, ⟨s, hs, f1, f2⟩, h3, h4, h5, h6, h7, h8, h9, h10, ⟨s', hs', g1, g2⟩, h12, h13, o1, o2,
      u1, u2, u3, u4⟩
    exact ⟨h1, ⟨s, hs, (controller_iff (blank ht hs)).mpr ⟨⟨f1, f2⟩, (order hs 8).mpr o1,
      (order hs 9).mpr o2⟩⟩, h3, h4, h5, h6, h7, h8, h9, h10,
      ⟨s', hs', (aux_iff (blank ht hs')).mpr ⟨⟨g1, g2⟩, (fuel hs' 6).mpr u1, (fuel hs' 9).mpr u2,
        (fuel hs' 10).mpr u3, (fuel hs' 11).mpr u4⟩⟩, h12, h13⟩

end Verif
