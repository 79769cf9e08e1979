import Verif.Lemmas.FloatOps

/-!
# Error bounds for binary32 operations
-/

namespace Verif

/-- Rounding to binary32 below the overflow threshold. -/
theorem rnd32_err {q : Rat} (h : |q| ≤ 2 ^ 127) :
    ∃ v : Rat, rnd f32 q = .fin v ∧ v = rndq f32 q ∧ |v - q| ≤ |q| / 2 ^ 24 + 1 / 2 ^ 150 := by
  have rep : Rep f32 (2 ^ 127) := by
    have := rep_pow2 (F := f32) (k := 127) (by decide)
    rwa [show pow2 127 = 2 ^ 127 by rw [pow2_eq]; norm_num] at this
  refine ⟨_, rnd_fin prec32 rep (by decide +kernel) h, rfl, ?_⟩
  have u : (pow2 (-(f32.prec : Int)) : Rat) = 1 / 2 ^ 24 := by decide +kernel
  have η : (pow2 (f32.emin - 1) : Rat) = 1 / 2 ^ 150 := by decide +kernel
  have := rndq_err f32 q
  rw [u, η] at this
  refine this.trans (max_le ?_ ?_)
  · have : (0 : Rat) ≤ 1 / 2 ^ 150 := by positivity
    linarith
  · have : 0 ≤ |q| / 2 ^ 24 := by positivity
    linarith

/-- The same with a bound on the argument. -/
theorem rnd32_err_le {q B : Rat} (h : |q| ≤ B) (hB : B ≤ 2 ^ 127) :
    ∃ v : Rat, rnd f32 q = .fin v ∧ v = rndq f32 q ∧ |v - q| ≤ B / 2 ^ 24 + 1 / 2 ^ 150 := by
  obtain ⟨v, h1, h2, h3⟩ := rnd32_err (h.trans hB)
  refine ⟨v, h1, h2, h3.trans ?_⟩
  have : |q| / 2 ^ 24 ≤ B / 2 ^ 24 := by gcongr
  linarith

/-- Rounding does not leave an interval with representable ends. -/
theorem rnd32_between {q lo hi : Rat} (hlo : IsFl f32 (.fin lo)) (hhi : IsFl f32 (.fin hi))
    (h1 : lo ≤ q) (h2 : q ≤ hi) : ∃ v, rnd f32 q = .fin v ∧ lo ≤ v ∧ v ≤ hi := by
  have a := Fl.fin_le_rnd prec32 hlo h1
  have b := Fl.rnd_le_fin prec32 hhi h2
  obtain ⟨v, h3, h4, h5⟩ := Fl.fin_of_between a b
  exact ⟨v, h3, h4, h5⟩

end Verif
