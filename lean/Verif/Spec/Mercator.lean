import Mathlib.Analysis.SpecialFunctions.Trigonometric.Arctan
import Mathlib.Analysis.SpecialFunctions.Trigonometric.DerivHyp
import Verif.Model.Libm

/-!
# The Web Mercator projection, and what is expected of the mathematical library
-/

namespace Verif.Spec

/-- The latitude in degrees of height `y` (counted in tiles from the top) at a zoom level. -/
noncomputable def mercatorLat (y : ℝ) (zoom : Nat) : ℝ :=
  Real.arctan (Real.sinh (Real.pi * (1 - 2 * y / 2 ^ zoom))) * (180 / Real.pi)

/-- The library functions used to place tiles are within 0.00001 of the real ones. -/
structure Accurate (m : Libm) : Prop where
  sinh : ∀ q : Rat, |q| ≤ 4 → ∃ v : Rat, m.sinh (.fin q) = .fin v ∧ |(v : ℝ) - Real.sinh q| ≤ 1 / 10 ^ 5
  atan : ∀ q : Rat, ∃ v : Rat, m.atan (.fin q) = .fin v ∧ |(v : ℝ) - Real.arctan q| ≤ 1 / 10 ^ 5

/-- There are such libraries. -/
theorem exists_accurate : ∃ m : Libm, Accurate m := by
  have near : ∀ f : ℝ → ℝ, ∃ g : Rat → Rat, ∀ q : Rat, |(g q : ℝ) - f q| ≤ 1 / 10 ^ 5 := by
    intro f
    have h : ∀ q : Rat, ∃ v : Rat, |(v : ℝ) - f q| ≤ 1 / 10 ^ 5 := by
      intro q
      obtain ⟨v, hv⟩ := exists_rat_near (f q) (show (0 : ℝ) < 1 / 10 ^ 5 by positivity)
      exact ⟨v, by rw [abs_sub_comm]; exact hv.le⟩
    exact ⟨fun q => (h q).choose, fun q => (h q).choose_spec⟩
  obtain ⟨s, hs⟩ := near Real.sinh
  obtain ⟨a, ha⟩ := near Real.arctan
  let lift (g : Rat → Rat) : Fl → Fl := fun x => match x with
    | .fin q => .fin (g q)
    | _ => .nan
  exact ⟨⟨id, id, id, lift s, lift a⟩, ⟨fun q _ => ⟨s q, rfl, hs q⟩, fun q => ⟨a q, rfl, ha q⟩⟩⟩

end Verif.Spec
