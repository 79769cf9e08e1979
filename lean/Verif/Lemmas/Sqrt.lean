import Verif.Lemmas.FloatErr
import Mathlib.Analysis.Real.Sqrt

/-!
# Accuracy of the modelled square root
-/

namespace Verif

open Fl

/-- The value that `sqrtQ` rounds is within one unit `2^-k` of the root. -/
theorem sqrt_trunc {q : Rat} (hq : 0 ≤ q) (k : Int) :
    ((sqrtAux q k : Rat) * pow2 (-k)) ^ 2 ≤ q ∧ q < (((sqrtAux q k : Rat) + 1) * pow2 (-k)) ^ 2 := by
  have hp := pow2_pos k
  have e2 : pow2 (2 * k) = pow2 k ^ 2 := by
    rw [show 2 * k = k + k by ring, pow2_add]; ring
  have hneg : pow2 (-k) = (pow2 k)⁻¹ := pow2_neg k
  have hfl : (0 : Int) ≤ ⌊q * pow2 (2 * k)⌋ := Int.floor_nonneg.mpr (mul_nonneg hq (pow2_pos _).le)
  set n := ⌊q * pow2 (2 * k)⌋.toNat with hn
  have hn1 : (n : Rat) ≤ q * pow2 (2 * k) := by
    have : ((n : Int) : Rat) ≤ q * pow2 (2 * k) := by
      rw [hn, Int.toNat_of_nonneg hfl]; exact Int.floor_le _
    exact_mod_cast this
  have hn2 : q * pow2 (2 * k) < (n : Rat) + 1 := by
    have : q * pow2 (2 * k) < ((n : Int) : Rat) + 1 := by
      rw [hn, Int.toNat_of_nonneg hfl]; exact Int.lt_floor_add_one _
    exact_mod_cast this
  have s1 : Nat.sqrt n * Nat.sqrt n ≤ n := Nat.sqrt_le n
  have s2 : n + 1 ≤ (Nat.sqrt n + 1) * (Nat.sqrt n + 1) := Nat.succ_le_succ_sqrt n
  have s1' : (Nat.sqrt n : Rat) * Nat.sqrt n ≤ n := by exact_mod_cast s1
  have s2' : (n : Rat) + 1 ≤ (Nat.sqrt n + 1) * (Nat.sqrt n + 1) := by exact_mod_cast s2
  have hs : sqrtAux q k = Nat.sqrt n := rfl
  rw [hs, hneg, mul_pow, mul_pow, inv_pow, ← e2]
  have hp2 := pow2_pos (2 * k)
  constructor
  · rw [← div_eq_mul_inv, div_le_iff₀ hp2]; nlinarith
  · rw [← div_eq_mul_inv, lt_div_iff₀ hp2]; nlinarith

/-- `sqrtQ` rounds a number within `2^-k` of the root, `k ≥ 2 - emin`. -/
theorem sqrtQ_eq (F : Fmt) {q : Rat} (hq : 0 ≤ q) :
    ∃ w : Rat, sqrtQ F q = rnd F w ∧ 0 ≤ w ∧ |(w : Real) - Real.sqrt q| ≤ ((pow2 (F.emin - 2) : Rat) : Real) := by
  by_cases h0 : q = 0
  · subst h0
    refine ⟨0, by simp [sqrtQ, rnd_zero], le_refl _, ?_⟩
    simp only [Rat.cast_zero, Real.sqrt_zero, sub_zero, abs_zero]
    exact_mod_cast (pow2_pos _).le
  · set k : Int := max (F.prec + 2 - ilog2 q / 2) (2 - F.emin) with hk
    set s := sqrtAux q k with hs
    set d : Nat := (if ((s * s : Nat) : Rat) = q * pow2 (2 * k) then 0 else 1) with hd
    have hd1 : d ≤ 1 := by rw [hd]; split <;> omega
    have e : sqrtQ F q = rnd F (((2 * s + d : Nat) : Rat) * pow2 (-k - 1)) := by
      unfold sqrtQ; rw [if_neg h0]
    refine ⟨_, e, mul_nonneg (Nat.cast_nonneg _) (pow2_pos _).le, ?_⟩
    obtain ⟨h1, h2⟩ := sqrt_trunc hq k
    rw [← hs] at h1 h2
    have hkk : pow2 (-k) ≤ pow2 (F.emin - 2) := pow2_mono (by have := le_max_right (F.prec + 2 - ilog2 q / 2) (2 - F.emin); omega)
    have hp : 0 < pow2 (-k) := pow2_pos _
    have w : ((2 * s + d : Nat) : Rat) * pow2 (-k - 1) = ((s : Rat) + d / 2) * pow2 (-k) := by
      rw [show -k - 1 = -k + (-1) by ring, pow2_add, pow2_neg 1, pow2_one]
      push_cast; ring
    rw [w]
    have hdq : (d : Rat) ≤ 1 := by exact_mod_cast hd1
    have hd0 : (0 : Rat) ≤ d := Nat.cast_nonneg _
    have r1 : (((s : Rat) * pow2 (-k) : Rat) : Real) ≤ Real.sqrt q := by
      apply Real.le_sqrt_of_sq_le
      exact_mod_cast h1
    have r2 : Real.sqrt q ≤ ((((s : Rat) + 1) * pow2 (-k) : Rat) : Real) := by
      rw [Real.sqrt_le_left (by exact_mod_cast mul_nonneg (by positivity) hp.le)]
      exact_mod_cast h2.le
    have b1 : (s : Rat) * pow2 (-k) ≤ (s + d / 2) * pow2 (-k) := by nlinarith
    have b2 : (s + d / 2) * pow2 (-k) ≤ ((s : Rat) + 1) * pow2 (-k) := by nlinarith
    have b1' := (Rat.cast_le (K := Real)).mpr b1
    have b2' := (Rat.cast_le (K := Real)).mpr b2
    have hkk' := (Rat.cast_le (K := Real)).mpr hkk
    have e3 : ((((s : Rat) + 1) * pow2 (-k) : Rat) : Real) = (((s : Rat) * pow2 (-k) : Rat) : Real) + (pow2 (-k) : Rat) := by
      push_cast; ring
    rw [e3] at r2 b2'
    rw [abs_le]
    constructor <;> linarith

/-- The binary32 square root: relative error `2^-24` (half a unit) and a tiny absolute error. -/
theorem sqrt32_err {q : Rat} (h0 : 0 ≤ q) (h1 : q ≤ 2 ^ 126) :
    ∃ v : Rat, sqrt f32 (.fin q) = .fin v ∧ 0 ≤ v ∧ |(v : Real) - Real.sqrt q| ≤ Real.sqrt q / 2 ^ 24 + 1 / 2 ^ 148 := by
  obtain ⟨w, e, hw, ew⟩ := sqrtQ_eq f32 h0
  have c : pow2 (f32.emin - 2) = 1 / 2 ^ 151 := by decide +kernel
  rw [c] at ew
  have ew' := abs_le.mp ew
  push_cast at ew'
  have hq1 : Real.sqrt q ≤ 2 ^ 63 := by
    rw [Real.sqrt_le_left (by positivity)]
    have : (q : Real) ≤ ((2 ^ 126 : Rat) : Real) := (Rat.cast_le (K := Real)).mpr h1
    push_cast at this
    refine this.trans ?_
    norm_num
  have hs0 := Real.sqrt_nonneg (q : Real)
  have hwb : w ≤ 2 ^ 64 := by
    have : (w : Real) ≤ ((2 ^ 64 : Rat) : Real) := by
      push_cast
      have t : (1 : Real) / 2 ^ 151 ≤ 1 := by norm_num
      have t2 : (2 : Real) ^ 63 + 1 ≤ 2 ^ 64 := by norm_num
      linarith [ew'.2]
    exact (Rat.cast_le (K := Real)).mp this
  obtain ⟨v, hv, hvq, ev⟩ := rnd32_err (q := w) (by rw [abs_of_nonneg hw]; exact hwb.trans (by norm_num))
  refine ⟨v, ?_, ?_, ?_⟩
  · show (if q < 0 then Fl.nan else sqrtQ f32 q) = _
    rw [if_neg (not_lt.mpr h0), e, hv]
  · rw [hvq]; exact rndq_nonneg hw
  · rw [abs_of_nonneg hw] at ev
    have ev' := (Rat.cast_le (K := Real)).mpr ev
    push_cast at ev'
    have ev'' := abs_le.mp ev'
    rw [abs_le]
    have t : (1 : Real) / 2 ^ 151 + 1 / 2 ^ 151 / 2 ^ 24 + 1 / 2 ^ 150 ≤ 1 / 2 ^ 148 := by norm_num
    have a1 : (w : Real) / 2 ^ 24 ≤ (Real.sqrt q + 1 / 2 ^ 151) / 2 ^ 24 := by
      apply div_le_div_of_nonneg_right _ (by positivity)
      linarith [ew'.2]
    rw [add_div] at a1
    constructor <;> linarith [ew'.1, ew'.2, ev''.1, ev''.2]

/-- Roots of numbers that are close. -/
theorem sqrt_close {S T a b : Real} (hT : 0 ≤ T) (ha : 0 ≤ a) (ha1 : a ≤ 1) (hb : 0 ≤ b) (h : |S - T| ≤ a * T + b ^ 2) :
    |Real.sqrt S - Real.sqrt T| ≤ a * Real.sqrt T + b := by
  have h' := abs_le.mp h
  set t := Real.sqrt T with ht
  have ht0 : 0 ≤ t := Real.sqrt_nonneg _
  have htt : t ^ 2 = T := Real.sq_sqrt hT
  rw [abs_le]
  constructor
  · by_cases hneg : (1 - a) * t - b ≤ 0
    · linarith [Real.sqrt_nonneg S]
    · have hneg := not_le.mp hneg
      have : (1 - a) * t - b ≤ Real.sqrt S := by
        apply Real.le_sqrt_of_sq_le
        have e1 : ((1 - a) * t - b) ^ 2 ≤ ((1 - a) * t) ^ 2 - b ^ 2 := by nlinarith
        have e2 : ((1 - a) * t) ^ 2 ≤ (1 - a) * T := by
          rw [mul_pow, htt]
          nlinarith [mul_nonneg (mul_nonneg ha (sub_nonneg.mpr ha1)) hT]
        linarith [h'.1]
      linarith
  · have : Real.sqrt S ≤ (1 + a) * t + b := by
      rw [Real.sqrt_le_left (by positivity)]
      have : (1 + a) * T ≤ ((1 + a) * t) ^ 2 := by
        rw [mul_pow, htt]; nlinarith [mul_nonneg ha hT]
      nlinarith [mul_nonneg (mul_nonneg (by linarith : (0:Real) ≤ 1 + a) ht0) hb]
    linarith

end Verif
