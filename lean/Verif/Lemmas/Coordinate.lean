import Verif.Lemmas.Window
import Verif.Lemmas.FloatErr
import Verif.Props.Geo

/-!
# The fractional coordinate computed for a position, with its rounding errors
-/

namespace Verif

theorem quotient_err {T A Y t0 t : Rat} (hT : 0 ≤ T) (hA0 : 0 ≤ A) (hY1 : 1 - 1 / 2 ^ 22 ≤ Y) (hY2 : Y ≤ 1 + 1 / 2 ^ 22)
    (hA : |A - T| ≤ T / 2 ^ 24 + 1 / 2 ^ 140) (ht0 : t0 * Y = A) (ht : |t - t0| ≤ |t0| / 2 ^ 24 + 1 / 2 ^ 150) :
    |t - T| ≤ T / 2 ^ 21 + 1 / 2 ^ 100 := by
  have hY : 0 < Y := lt_of_lt_of_le (by norm_num) hY1
  have h0 : 0 ≤ t0 := by
    by_contra h
    have : t0 * Y < 0 := mul_neg_of_neg_of_pos (not_le.mp h) hY
    linarith
  rw [abs_of_nonneg h0] at ht
  rw [abs_le] at hA ht ⊢
  have u1 : t0 * (1 - 1 / 2 ^ 22) ≤ A := by rw [← ht0]; exact mul_le_mul_of_nonneg_left hY1 h0
  have u2 : A ≤ t0 * (1 + 1 / 2 ^ 22) := by rw [← ht0]; exact mul_le_mul_of_nonneg_left hY2 h0
  constructor <;> norm_num at * <;> linarith [hA.1, hA.2, ht.1, ht.2]

namespace Axis
variable {lo hi : Rat} {n : Nat}

/-- The fractional coordinate of a position on an axis. -/
theorem coordinate (h : Axis lo hi n) {p : Rat} (h1 : lo ≤ p) (h2 : p < hi) : ∃ t : Rat,
    Fl.div f32 (Fl.sub f32 (.fin p) (.fin lo)) (Fl.div f32 (Fl.sub f32 (.fin hi) (.fin lo)) (Fl.ofNat f32 n)) = .fin t ∧
    0 ≤ t ∧ |t - (p - lo) * n / (hi - lo)| ≤ (p - lo) * n / (hi - lo) / 2 ^ 21 + 1 / 2 ^ 100 := by
  have hn1 : (1 : Rat) ≤ n := by exact_mod_cast h.pos
  have hn0 : (n : Rat) ≠ 0 := by linarith
  have hn19 : (n : Rat) ≤ 2 ^ 19 := by exact_mod_cast h.n_le
  have hD := h.width
  have hD2 : hi - lo ≤ 360 := by linarith [h.lo_ge, h.hi_le]
  have hD1 : 1 / 2 ^ 10 ≤ hi - lo := by
    refine le_trans ?_ hD
    gcongr
  have hD0 : 0 < hi - lo := lt_of_lt_of_le (by norm_num) hD1
  have hof : Fl.ofNat f32 n = .fin n := rnd32_nat (h.n_le.trans (by norm_num))
  generalize hDd : hi - lo = D at *
  have hP0 : 0 ≤ p - lo := by linarith
  have hPD : p - lo < D := by linarith
  generalize hPd : p - lo = P at *
  obtain ⟨r, hr, hr', er⟩ := rnd32_err (q := D) (by
    rw [abs_of_nonneg hD0.le]; linarith [show (360 : Rat) ≤ 2 ^ 127 by norm_num])
  rw [abs_of_nonneg hD0.le, abs_le] at er
  have hr1 : D * (1 - 1 / 2 ^ 24 - 1 / 2 ^ 60) ≤ r := by
    have : (1 : Rat) / 2 ^ 150 ≤ D / 2 ^ 60 := by
      have : (1 : Rat) / 2 ^ 150 ≤ 1 / 2 ^ 10 / 2 ^ 60 := by norm_num
      linarith
    linarith [er.1]
  have hr2 : r ≤ D * (1 + 1 / 2 ^ 24 + 1 / 2 ^ 60) := by
    have : (1 : Rat) / 2 ^ 150 ≤ D / 2 ^ 60 := by
      have : (1 : Rat) / 2 ^ 150 ≤ 1 / 2 ^ 10 / 2 ^ 60 := by norm_num
      linarith
    linarith [er.2]
  have hr0 : 0 < r := lt_of_lt_of_le (mul_pos hD0 (by norm_num)) hr1
  have hr361 : r ≤ 361 := by linarith
  have hq : 1 / 2 ^ 11 ≤ r / n := by
    rw [le_div_iff₀ (by linarith)]
    have : (n : Rat) / 2 ^ 10 * (1 - 1 / 2 ^ 24 - 1 / 2 ^ 60) ≤ D * (1 - 1 / 2 ^ 24 - 1 / 2 ^ 60) :=
      mul_le_mul_of_nonneg_right hD (by norm_num)
    linarith
  have hq0 : 0 < r / n := lt_of_lt_of_le (by norm_num) hq
  have hq2 : r / n ≤ 361 := by
    rw [div_le_iff₀ (by linarith)]; nlinarith
  obtain ⟨i, hi1, -, ei⟩ := rnd32_err (q := r / n) (by
    rw [abs_of_nonneg hq0.le]
    linarith [show (361 : Rat) ≤ 2 ^ 127 by norm_num])
  rw [abs_of_nonneg hq0.le, abs_le] at ei
  have sm : (1 : Rat) / 2 ^ 150 ≤ r / n / 2 ^ 60 := by
    have : (1 : Rat) / 2 ^ 150 ≤ 1 / 2 ^ 11 / 2 ^ 60 := by norm_num
    linarith
  have ei1 : r / n * (1 - 1 / 2 ^ 24 - 1 / 2 ^ 60) ≤ i := by linarith [ei.1]
  have ei2 : i ≤ r / n * (1 + 1 / 2 ^ 24 + 1 / 2 ^ 60) := by linarith [ei.2]
  have hi0 : 0 < i := lt_of_lt_of_le (mul_pos hq0 (by norm_num)) ei1
  have hiL : 1 / 2 ^ 12 ≤ i := by
    refine le_trans ?_ ei1
    have : (1 : Rat) / 2 ^ 11 * (1 - 1 / 2 ^ 24 - 1 / 2 ^ 60) ≤ r / n * (1 - 1 / 2 ^ 24 - 1 / 2 ^ 60) :=
      mul_le_mul_of_nonneg_right hq (by norm_num)
    linarith
  obtain ⟨d, hd, hd', ed⟩ := rnd32_err (q := P) (by
    rw [abs_of_nonneg hP0]; linarith [show (360 : Rat) ≤ 2 ^ 127 by norm_num])
  have hd0 : 0 ≤ d := by rw [hd']; exact rndq_nonneg hP0
  rw [abs_of_nonneg hP0, abs_le] at ed
  have hd361 : d ≤ 361 := by
    have : (1 : Rat) / 2 ^ 150 ≤ 1 / 2 := by norm_num
    linarith [ed.2]
  have hdi0 : 0 ≤ d / i := div_nonneg hd0 hi0.le
  obtain ⟨t, ht, ht', et⟩ := rnd32_err (q := d / i) (by
    rw [abs_of_nonneg hdi0, div_le_iff₀ hi0]
    have : (2 : Rat) ^ 127 * (1 / 2 ^ 12) ≤ 2 ^ 127 * i := mul_le_mul_of_nonneg_left hiL (by norm_num)
    linarith [show (361 : Rat) ≤ 2 ^ 127 * (1 / 2 ^ 12) by norm_num])
  refine ⟨t, ?_, by rw [ht']; exact rndq_nonneg hdi0, ?_⟩
  · rw [Fl.sub_fin, Fl.sub_fin, hPd, hDd, hd, hr, hof, Fl.div_fin _ _ hn0, hi1, Fl.div_fin _ _ hi0.ne', ht]
  · have hnD : n / D ≤ 2 ^ 10 := by
      rw [div_le_iff₀ hD0]; linarith
    have hnD0 : 0 < n / D := div_pos (by linarith) hD0
    refine quotient_err (A := d * (n / D)) (Y := i * (n / D)) (t0 := d / i) (by positivity) (by positivity)
      ?_ ?_ ?_ ?_ et
    · have e : r / n * (1 - 1 / 2 ^ 24 - 1 / 2 ^ 60) * (n / D) ≤ i * (n / D) := mul_le_mul_of_nonneg_right ei1 hnD0.le
      have e2 : r / n * (1 - 1 / 2 ^ 24 - 1 / 2 ^ 60) * (n / D) = r / D * (1 - 1 / 2 ^ 24 - 1 / 2 ^ 60) := by
        field_simp
      have e3 : 1 - 1 / 2 ^ 24 - 1 / 2 ^ 60 ≤ r / D := by rw [le_div_iff₀ hD0]; linarith
      rw [e2] at e
      refine le_trans ?_ e
      refine le_trans ?_ (mul_le_mul_of_nonneg_right e3 (by norm_num))
      norm_num
    · have e : i * (n / D) ≤ r / n * (1 + 1 / 2 ^ 24 + 1 / 2 ^ 60) * (n / D) := mul_le_mul_of_nonneg_right ei2 hnD0.le
      have e2 : r / n * (1 + 1 / 2 ^ 24 + 1 / 2 ^ 60) * (n / D) = r / D * (1 + 1 / 2 ^ 24 + 1 / 2 ^ 60) := by
        field_simp
      have e3 : r / D ≤ 1 + 1 / 2 ^ 24 + 1 / 2 ^ 60 := by rw [div_le_iff₀ hD0]; linarith
      rw [e2] at e
      refine e.trans ?_
      refine (mul_le_mul_of_nonneg_right e3 (by norm_num)).trans ?_
      norm_num
    · have e : d * (n / D) - P * n / D = (d - P) * (n / D) := by ring
      rw [e, abs_mul, abs_of_nonneg hnD0.le]
      have e2 : |d - P| ≤ P / 2 ^ 24 + 1 / 2 ^ 150 := by rw [abs_le]; exact ed
      refine (mul_le_mul_of_nonneg_right e2 hnD0.le).trans ?_
      have e3 : (P / 2 ^ 24 + 1 / 2 ^ 150) * (n / D) = P * n / D / 2 ^ 24 + 1 / 2 ^ 150 * (n / D) := by ring
      rw [e3]
      have : (1 : Rat) / 2 ^ 150 * (n / D) ≤ 1 / 2 ^ 150 * 2 ^ 10 := mul_le_mul_of_nonneg_left hnD (by norm_num)
      have e4 : (1 : Rat) / 2 ^ 150 * 2 ^ 10 = 1 / 2 ^ 140 := by norm_num
      linarith
    · field_simp

end Axis
end Verif
