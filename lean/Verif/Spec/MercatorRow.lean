import Mathlib.Analysis.SpecialFunctions.Arsinh
import Mathlib.Analysis.SpecialFunctions.Log.Basic
import Verif.Spec.Mercator

/-!
# The Web Mercator projection from latitudes to rows of tiles
-/

namespace Verif.Spec

/-- The distance of a latitude (in degrees) from the top of the map, as a fraction of the height of the map. -/
noncomputable def mercatorY (lat : ℝ) : ℝ := (1 - Real.arsinh (Real.tan (lat * (Real.pi / 180))) / Real.pi) / 2

/-- This is the inverse of `mercatorLat`. -/
theorem mercatorLat_mercatorY {lat : ℝ} (h0 : -90 < lat) (h1 : lat < 90) (z : Nat) :
    mercatorLat (2 ^ z * mercatorY lat) z = lat := by
  have p := Real.pi_pos
  unfold mercatorLat mercatorY
  have e : Real.pi * (1 - 2 * (2 ^ z * ((1 - Real.arsinh (Real.tan (lat * (Real.pi / 180))) / Real.pi) / 2)) / 2 ^ z) =
      Real.arsinh (Real.tan (lat * (Real.pi / 180))) := by
    field_simp
    ring
  rw [e, Real.sinh_arsinh, Real.arctan_tan]
  · field_simp
  · nlinarith
  · nlinarith

/-- The library functions used to find the tile of a position have a relative error of at most a millionth. -/
structure AccurateRow (m : Libm) : Prop where
  tan : ∀ q : Rat, 0 ≤ q → q ≤ 3 / 2 → ∃ v : Rat, m.tan (.fin q) = .fin v ∧ |(v : ℝ) - Real.tan q| ≤ |Real.tan q| / 10 ^ 6
  cos : ∀ q : Rat, 0 ≤ q → q ≤ 3 / 2 → ∃ v : Rat, m.cos (.fin q) = .fin v ∧ |(v : ℝ) - Real.cos q| ≤ |Real.cos q| / 10 ^ 6
  ln : ∀ q : Rat, 1 / 2 ≤ q → ∃ v : Rat, m.ln (.fin q) = .fin v ∧ |(v : ℝ) - Real.log q| ≤ |Real.log q| / 10 ^ 6

/-- There are such libraries. -/
theorem exists_accurateRow : ∃ m : Libm, AccurateRow m := by
  have near : ∀ f : ℝ → ℝ, ∃ g : Rat → Rat, ∀ q : Rat, |(g q : ℝ) - f q| ≤ |f q| / 10 ^ 6 := by
    intro f
    have h : ∀ q : Rat, ∃ v : Rat, |(v : ℝ) - f q| ≤ |f q| / 10 ^ 6 := by
      intro q
      by_cases hf : f q = 0
      · exact ⟨0, by simp [hf]⟩
      · obtain ⟨v, hv⟩ := exists_rat_near (f q) (show (0 : ℝ) < |f q| / 10 ^ 6 by positivity)
        exact ⟨v, by rw [abs_sub_comm]; exact hv.le⟩
    exact ⟨fun q => (h q).choose, fun q => (h q).choose_spec⟩
  obtain ⟨t, ht⟩ := near Real.tan
  obtain ⟨c, hc⟩ := near Real.cos
  obtain ⟨l, hl⟩ := near Real.log
  let lift (g : Rat → Rat) : Fl → Fl := fun x => match x with
    | .fin q => .fin (g q)
    | _ => .nan
  exact ⟨⟨lift t, lift c, lift l, id, id⟩, ⟨fun q _ _ => ⟨t q, rfl, ht q⟩, fun q _ _ => ⟨c q, rfl, hc q⟩,
    fun q _ => ⟨l q, rfl, hl q⟩⟩⟩

end Verif.Spec
