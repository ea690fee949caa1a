import Verif.Props.TankRun

/-!
# The temperature a tank starts at (C32, C125)
-/

set_option autoImplicit false

namespace Verif
open Spec Tank FixedOrder

/-- **C32, with the temperatures.** A tank of capacity 0 has, after every hour of a run, all of its layers at the
temperature it was started at. -/
theorem C32_run_stays {S : RunIn (List ℚ)} {tk : Tank} {net : ℕ → NetTemps} {initial : ℚ}
    (ht : S.tank = toTankI tk net initial) (hc : tk.capacity = 0) {first n : ℕ}
    {rs : List (Results (List ℚ))} (h : runTimesteps S first n = .ok rs) {r : Results (List ℚ)} (hr : r ∈ rs) :
    ∃ temps, r.ts.finalNodesTemp = some temps ∧ temps.length = tk.number ∧ ∀ t ∈ temps, t = initial := by
  have hc' : S.tank.capacity = 0 := by rw [ht]; exact hc
  have hi : S.tank.initTemps = List.replicate tk.number initial := by rw [ht]; rfl
  refine ⟨_, C32_run_unchanged hc' h hr, ?_⟩
  rw [hi]
  exact ⟨List.length_replicate, fun t m => List.eq_of_mem_replicate m⟩

/-- The hypotheses are met by a run of a whole year. -/
example : ∃ rs, runTimesteps { Spec.sampleRun with
      tank := toTankI ⟨0, 3, "polyurethane", .inside, [], 0, 0⟩ (fun _ => ⟨60, 5, 55, 40⟩) 40 } 0 8760 = .ok rs ∧
    ∀ r ∈ rs, ∃ temps, r.ts.finalNodesTemp = some temps ∧ temps.length = 3 ∧ ∀ t ∈ temps, t = 40 := by
  obtain ⟨rs, h⟩ := C27_accepts_no_store (S := { Spec.sampleRun with
      tank := toTankI ⟨0, 3, "polyurethane", .inside, [], 0, 0⟩ (fun _ => ⟨60, 5, 55, 40⟩) 40 }) rfl rfl
    ⟨sampleRun_fullYear.1, sampleRun_fullYear.2, sampleRun_fullYear.3, sampleRun_fullYear.4,
      sampleRun_fullYear.5, sampleRun_fullYear.6, sampleRun_fullYear.7⟩ ⟨by decide, by decide⟩ (le_refl (0 + 8760))
  exact ⟨rs, h, fun r hr => C32_run_stays rfl rfl h hr⟩

end Verif
