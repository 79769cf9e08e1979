import Verif.Model.Physics
import Verif.Lemmas.FloatErr

/-!
# Property C57: unit conversions
-/

namespace Verif.Props

open Verif Verif.Physics

theorem feetPerM_val : feetPerM = .fin (1720105 / 524288) := by decide +kernel
theorem knotsPerMps_val : knotsPerMps = .fin (254783 / 131072) := by decide +kernel
theorem zeroCelsius_val : zeroCelsiusInKelvin = .fin (8950579 / 32768) := by decide +kernel

/-- **C57.** None of the conversions ever swaps two values (infinities included). -/
theorem C57_monotone {a b : Fl} (h : Fl.le a b = true) :
    Fl.le (metersToFeet a) (metersToFeet b) = true ∧ Fl.le (feetToMeters a) (feetToMeters b) = true ∧
    Fl.le (mpsToKnots a) (mpsToKnots b) = true ∧ Fl.le (knotsToMps a) (knotsToMps b) = true ∧
    Fl.le (kelvinToCelsius a) (kelvinToCelsius b) = true ∧
    Fl.le (celsiusToKelvin a) (celsiusToKelvin b) = true := by
  unfold metersToFeet feetToMeters mpsToKnots knotsToMps kelvinToCelsius celsiusToKelvin
  rw [feetPerM_val, knotsPerMps_val, zeroCelsius_val]
  exact ⟨Fl.le_mul_right prec32 (by norm_num) h, Fl.le_div_right prec32 (by norm_num) h,
    Fl.le_mul_right prec32 (by norm_num) h, Fl.le_div_right prec32 (by norm_num) h,
    Fl.le_sub_right prec32 h, Fl.le_add_right prec32 h⟩

theorem scale_acc {k e : Rat} (k1 : 1 ≤ k) (k4 : k ≤ 4) (hke : |k - e| ≤ 4 / 2 ^ 24) {q : Rat}
    (hq : |q| ≤ 2 ^ 120) : ∃ v, Fl.mul f32 (.fin q) (.fin k) = .fin v ∧
      |v - q * e| ≤ |q| / 2 ^ 21 + 1 / 2 ^ 150 ∧ |v - q * k| ≤ |q| * k / 2 ^ 24 + 1 / 2 ^ 150 := by
  have hqk : |q * k| = |q| * k := by
    rw [abs_mul, abs_of_pos (show (0 : Rat) < k by linarith)]
  have h0 := abs_nonneg q
  have hb : |q| * k ≤ 2 ^ 120 * 4 := mul_le_mul hq k4 (by linarith) (by norm_num)
  obtain ⟨v, hv, -, ev⟩ := rnd32_err (q := q * k) (by rw [hqk]; exact hb.trans (by norm_num))
  rw [hqk] at ev
  refine ⟨v, by rw [Fl.mul_fin, hv], ?_, ev⟩
  have h1 : |q * k - q * e| ≤ |q| * (4 / 2 ^ 24) := by
    rw [← mul_sub, abs_mul]; exact mul_le_mul_of_nonneg_left hke h0
  have h2 : |q| * k ≤ |q| * 4 := mul_le_mul_of_nonneg_left k4 h0
  have h3 := abs_add_le (v - q * k) (q * k - q * e)
  rw [show v - q * k + (q * k - q * e) = v - q * e by ring] at h3
  linarith

theorem scale_inv {k : Rat} (k1 : 1 ≤ k) (k4 : k ≤ 4) {q : Rat} (hq : |q| ≤ 2 ^ 120) :
    ∃ v w, Fl.mul f32 (.fin q) (.fin k) = .fin v ∧ Fl.div f32 (.fin v) (.fin k) = .fin w ∧
      |w - q| ≤ |q| / 2 ^ 22 + 1 / 2 ^ 148 := by
  obtain ⟨v, hv, -, ev⟩ := scale_acc k1 k4 (e := k) (by simp; norm_num) hq
  have hk : 0 < k := by linarith
  have h0 := abs_nonneg q
  have h1 : |v / k - q| ≤ |q| / 2 ^ 24 + 1 / 2 ^ 150 := by
    have : v / k - q = (v - q * k) / k := by field_simp
    rw [this, abs_div, abs_of_pos hk, div_le_iff₀ hk]
    have : (1 : Rat) / 2 ^ 150 * 1 ≤ 1 / 2 ^ 150 * k := mul_le_mul_of_nonneg_left k1 (by norm_num)
    linarith
  have h2 : |v / k| ≤ |q| + |q| / 2 ^ 24 + 1 / 2 ^ 150 := by
    have := abs_add_le (v / k - q) q
    rw [sub_add_cancel] at this
    linarith
  obtain ⟨w, hw, -, ew⟩ := rnd32_err (q := v / k) (by
    refine h2.trans ?_
    have : (2 : Rat) ^ 120 + 2 ^ 120 / 2 ^ 24 + 1 / 2 ^ 150 ≤ 2 ^ 127 := by norm_num
    have h3 : |q| / 2 ^ 24 ≤ 2 ^ 120 / 2 ^ 24 := by gcongr
    linarith)
  refine ⟨v, w, hv, by rw [Fl.div_fin _ _ hk.ne', hw], ?_⟩
  have h3 := abs_add_le (w - v / k) (v / k - q)
  rw [show w - v / k + (v / k - q) = w - q by ring] at h3
  have h4 : |v / k| / 2 ^ 24 ≤ (|q| + |q| / 2 ^ 24 + 1 / 2 ^ 150) / 2 ^ 24 := by gcongr
  have h5 : (|q| + |q| / 2 ^ 24 + 1 / 2 ^ 150) / 2 ^ 24 + |q| / 2 ^ 24 ≤ |q| / 2 ^ 22 + 1 / 2 ^ 174 := by
    have : |q| * (1 / 2 ^ 24 + 1 / 2 ^ 24 / 2 ^ 24 + 1 / 2 ^ 24) ≤ |q| * (1 / 2 ^ 22) :=
      mul_le_mul_of_nonneg_left (by norm_num) h0
    linarith
  have : (1 : Rat) / 2 ^ 174 + 2 / 2 ^ 150 ≤ 1 / 2 ^ 148 := by norm_num
  linarith

/-- **C57.** Metres to feet and metres per second to knots multiply by 3.28084 and 1.94384, up to a
relative error of 2^-21 (and one step of the smallest subnormals). -/
theorem C57_scale_accuracy {q : Rat} (hq : |q| ≤ 2 ^ 120) :
    (∃ v, metersToFeet (.fin q) = .fin v ∧ |v - q * (328084 / 100000)| ≤ |q| / 2 ^ 21 + 1 / 2 ^ 150) ∧
    (∃ v, mpsToKnots (.fin q) = .fin v ∧ |v - q * (194384 / 100000)| ≤ |q| / 2 ^ 21 + 1 / 2 ^ 150) := by
  unfold metersToFeet mpsToKnots
  rw [feetPerM_val, knotsPerMps_val]
  constructor
  · obtain ⟨v, h1, h2, -⟩ := scale_acc (k := 1720105 / 524288) (e := 328084 / 100000) (by norm_num)
      (by norm_num) (by rw [abs_le]; constructor <;> norm_num) hq
    exact ⟨v, h1, h2⟩
  · obtain ⟨v, h1, h2, -⟩ := scale_acc (k := 254783 / 131072) (e := 194384 / 100000) (by norm_num)
      (by norm_num) (by rw [abs_le]; constructor <;> norm_num) hq
    exact ⟨v, h1, h2⟩

/-- **C57.** Converting there and back again gives the original value up to a relative error of
2^-22. -/
theorem C57_scale_inverse {q : Rat} (hq : |q| ≤ 2 ^ 120) :
    (∃ w, feetToMeters (metersToFeet (.fin q)) = .fin w ∧ |w - q| ≤ |q| / 2 ^ 22 + 1 / 2 ^ 148) ∧
    (∃ w, knotsToMps (mpsToKnots (.fin q)) = .fin w ∧ |w - q| ≤ |q| / 2 ^ 22 + 1 / 2 ^ 148) := by
  unfold metersToFeet mpsToKnots feetToMeters knotsToMps
  rw [feetPerM_val, knotsPerMps_val]
  constructor
  · obtain ⟨v, w, h1, h2, h3⟩ := scale_inv (k := 1720105 / 524288) (by norm_num) (by norm_num) hq
    exact ⟨w, by rw [h1, h2], h3⟩
  · obtain ⟨v, w, h1, h2, h3⟩ := scale_inv (k := 254783 / 131072) (by norm_num) (by norm_num) hq
    exact ⟨w, by rw [h1, h2], h3⟩

/-- **C57.** Kelvin to Celsius subtracts 273.15 and Celsius to Kelvin adds it, up to 2^-13 degrees, and
converting there and back again gives the original value up to 2^-12 degrees (for temperatures up to
1000 degrees). -/
theorem C57_temperature {q : Rat} (hq : |q| ≤ 1000) :
    (∃ c, kelvinToCelsius (.fin q) = .fin c ∧ |c - (q - 27315 / 100)| ≤ 1 / 2 ^ 13 ∧
      ∃ k, celsiusToKelvin (.fin c) = .fin k ∧ |k - q| ≤ 1 / 2 ^ 12) ∧
    (∃ k, celsiusToKelvin (.fin q) = .fin k ∧ |k - (q + 27315 / 100)| ≤ 1 / 2 ^ 13 ∧
      ∃ c, kelvinToCelsius (.fin k) = .fin c ∧ |c - q| ≤ 1 / 2 ^ 12) := by
  unfold kelvinToCelsius celsiusToKelvin
  rw [zeroCelsius_val]
  have R : ∀ v : Rat, |v| ≤ 1600 → ∃ r, rnd f32 v = .fin r ∧ -(1 / 2 ^ 13) + 1 / 2 ^ 16 ≤ r - v ∧
      r - v ≤ 1 / 2 ^ 13 - 1 / 2 ^ 16 := by
    intro v hv
    obtain ⟨r, h1, -, h3⟩ := rnd32_err_le hv (by norm_num)
    have : (1600 : Rat) / 2 ^ 24 + 1 / 2 ^ 150 ≤ 1 / 2 ^ 13 - 1 / 2 ^ 16 := by norm_num
    have := abs_le.1 (h3.trans this)
    exact ⟨r, h1, by linarith [this.1], this.2⟩
  have hz1 : (8950579 : Rat) / 32768 ≤ 27315 / 100 + 1 / 2 ^ 16 := by norm_num
  have hz2 : (27315 : Rat) / 100 - 1 / 2 ^ 16 ≤ 8950579 / 32768 := by norm_num
  rw [abs_le] at hq
  constructor
  · obtain ⟨c, hc, c1, c2⟩ := R (q - 8950579 / 32768) (by rw [abs_le]; constructor <;> linarith [hq.1, hq.2])
    obtain ⟨k, hk, k1, k2⟩ := R (c + 8950579 / 32768) (by rw [abs_le]; constructor <;> linarith [hq.1, hq.2])
    refine ⟨c, by rw [Fl.sub_fin, hc], by rw [abs_le]; constructor <;> linarith, k, by rw [Fl.add_fin, hk], ?_⟩
    rw [abs_le]; constructor <;> linarith
  · obtain ⟨c, hc, c1, c2⟩ := R (q + 8950579 / 32768) (by rw [abs_le]; constructor <;> linarith [hq.1, hq.2])
    obtain ⟨k, hk, k1, k2⟩ := R (c - 8950579 / 32768) (by rw [abs_le]; constructor <;> linarith [hq.1, hq.2])
    refine ⟨c, by rw [Fl.add_fin, hc], by rw [abs_le]; constructor <;> linarith, k, by rw [Fl.sub_fin, hk], ?_⟩
    rw [abs_le]; constructor <;> linarith

/-- A concrete value: 4096 m are 13438.32 ft. -/
example : ∃ v, metersToFeet (.fin 4096) = .fin v ∧ |v - 4096 * (328084 / 100000)| ≤ |4096| / 2 ^ 21 + 1 / 2 ^ 150 :=
  (C57_scale_accuracy (by rw [abs_le]; constructor <;> norm_num)).1

example : metersToFeet (.fin 4096) = .fin (1720105 / 128) := by decide +kernel

end Verif.Props
