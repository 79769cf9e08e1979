import Mathlib.Analysis.SpecialFunctions.Trigonometric.ArctanDeriv
import Mathlib.Analysis.Calculus.MeanValue
import Mathlib.Analysis.Calculus.Deriv.Inv
import Mathlib.Analysis.Real.Pi.Bounds
import Mathlib.Analysis.SpecialFunctions.Arsinh
import Verif.Spec.Mercator
import Verif.Lemmas.MapTile
import Verif.Lemmas.FloatErr

/-!
# Latitudes of map tiles
-/

namespace Verif

open Spec

/-- The Gudermannian function. -/
noncomputable def gd (x : ℝ) : ℝ := Real.arctan (Real.sinh x)

theorem gd_hasDeriv (x : ℝ) : HasDerivAt gd (Real.cosh x)⁻¹ x := by
  have h := (Real.hasDerivAt_arctan (Real.sinh x)).comp x (Real.hasDerivAt_sinh x)
  have e : 1 / (1 + Real.sinh x ^ 2) * Real.cosh x = (Real.cosh x)⁻¹ := by
    have c := Real.cosh_pos x
    have := Real.cosh_sq x
    rw [show 1 + Real.sinh x ^ 2 = Real.cosh x ^ 2 by rw [this]; ring]
    field_simp
  rw [e] at h
  exact h

theorem sech_hasDeriv (x : ℝ) : HasDerivAt (fun x => (Real.cosh x)⁻¹) (-Real.sinh x / Real.cosh x ^ 2) x :=
  (Real.hasDerivAt_cosh x).inv (Real.cosh_pos x).ne'

theorem gd_lip (a b : ℝ) : |gd a - gd b| ≤ |a - b| := by
  have h := Convex.norm_image_sub_le_of_norm_hasDerivWithin_le (f := gd) (f' := fun x => (Real.cosh x)⁻¹)
    (s := Set.univ) (C := 1) (x := b) (y := a) (fun x _ => (gd_hasDeriv x).hasDerivWithinAt)
    (fun x _ => by
      rw [Real.norm_eq_abs, abs_of_pos (inv_pos.mpr (Real.cosh_pos x))]
      exact inv_le_one_of_one_le₀ (Real.one_le_cosh x)) convex_univ trivial trivial
  simpa using h

theorem sech_lip (a b : ℝ) : |(Real.cosh a)⁻¹ - (Real.cosh b)⁻¹| ≤ 1 / 2 * |a - b| := by
  have h := Convex.norm_image_sub_le_of_norm_hasDerivWithin_le (f := fun x => (Real.cosh x)⁻¹)
    (f' := fun x => -Real.sinh x / Real.cosh x ^ 2)
    (s := Set.univ) (C := 1 / 2) (x := b) (y := a) (fun x _ => (sech_hasDeriv x).hasDerivWithinAt)
    (fun x _ => by
      have c := Real.cosh_pos x
      have s := Real.cosh_sq x
      rw [Real.norm_eq_abs, abs_div, abs_neg, abs_of_pos (show 0 < Real.cosh x ^ 2 by positivity),
        div_le_iff₀ (by positivity), s, ← sq_abs (Real.sinh x)]
      nlinarith [sq_nonneg (|Real.sinh x| - 1)]) convex_univ trivial trivial
  simpa using h

theorem arctan_lip (a b : ℝ) : |Real.arctan a - Real.arctan b| ≤ |a - b| := by
  have h := Convex.norm_image_sub_le_of_norm_hasDerivWithin_le (f := Real.arctan)
    (f' := fun x => 1 / (1 + x ^ 2))
    (s := Set.univ) (C := 1) (x := b) (y := a) (fun x _ => (Real.hasDerivAt_arctan x).hasDerivWithinAt)
    (fun x _ => by
      have : (0 : ℝ) < 1 + x ^ 2 := by positivity
      rw [Real.norm_eq_abs, abs_of_pos (by positivity), div_le_iff₀ this]
      nlinarith [sq_nonneg x]) convex_univ trivial trivial
  simpa using h

/-- The error of linear interpolation. -/
theorem gd_interp {a b t : ℝ} (hab : a < b) (h0 : 0 ≤ t) (h1 : t ≤ 1) :
    |gd (a + t * (b - a)) - (gd a + t * (gd b - gd a))| ≤ (b - a) ^ 2 / 8 := by
  have p : 0 < b - a := by linarith
  rcases h0.eq_or_lt with rfl | h0
  · simp; positivity
  rcases h1.eq_or_lt with rfl | h1
  · simp; positivity
  have d : ∀ x, deriv gd x = (Real.cosh x)⁻¹ := fun x => (gd_hasDeriv x).deriv
  have diff : Differentiable ℝ gd := fun x => (gd_hasDeriv x).differentiableAt
  have ax : a < a + t * (b - a) := by nlinarith
  have xb : a + t * (b - a) < b := by nlinarith
  obtain ⟨u, hu, eu⟩ := exists_deriv_eq_slope gd ax diff.continuous.continuousOn diff.differentiableOn
  obtain ⟨v, hv, ev⟩ := exists_deriv_eq_slope gd xb diff.continuous.continuousOn diff.differentiableOn
  rw [d, eq_div_iff (by linarith)] at eu ev
  have l := sech_lip u v
  have uv : |u - v| ≤ b - a := by
    rw [abs_le]; constructor <;> linarith [hu.1, hu.2, hv.1, hv.2]
  have e : gd (a + t * (b - a)) - (gd a + t * (gd b - gd a)) =
      t * (1 - t) * (b - a) * ((Real.cosh u)⁻¹ - (Real.cosh v)⁻¹) := by
    have e1 : gd (a + t * (b - a)) - gd a = (Real.cosh u)⁻¹ * (t * (b - a)) := by rw [← eu]; ring
    have e2 : gd b - gd (a + t * (b - a)) = (Real.cosh v)⁻¹ * ((1 - t) * (b - a)) := by rw [← ev]; ring
    have e3 : gd b = gd a + (Real.cosh u)⁻¹ * (t * (b - a)) + (Real.cosh v)⁻¹ * ((1 - t) * (b - a)) := by linarith
    rw [e3, show gd (a + t * (b - a)) = gd a + (Real.cosh u)⁻¹ * (t * (b - a)) by linarith]
    ring
  have tt : t * (1 - t) ≤ 1 / 4 := by nlinarith [sq_nonneg (t - 1 / 2)]
  have t0 : 0 < t * (1 - t) := mul_pos h0 (by linarith)
  rw [e, abs_mul, abs_of_pos (mul_pos t0 p)]
  calc t * (1 - t) * (b - a) * |(Real.cosh u)⁻¹ - (Real.cosh v)⁻¹|
      ≤ 1 / 4 * (b - a) * (1 / 2 * (b - a)) := by
        apply mul_le_mul
        · exact mul_le_mul_of_nonneg_right tt p.le
        · exact l.trans (by linarith)
        · exact abs_nonneg _
        · positivity
    _ = _ := by ring

theorem deg32 : lit (572957795130823208767981548141051703 / 10 ^ 34) = .fin (15019745 / 262144) := by
  have e : (572957795130823208767981548141051703 / 10 ^ 34 : Rat) =
      572957795130823208767981548141051703 / 10000000000000000000000000000000000 := by norm_num
  rw [e]
  decide +kernel

/-- The argument `1 - 2y/2^z` is exact. -/
theorem frac_exact {y z : Nat} (hz : z ≤ 23) (hy : y ≤ 2 ^ z) :
    Fl.sub f32 (.fin 1) (Fl.div f32 (Fl.mul f32 (.fin 2) (Fl.ofNat f32 y)) (.fin (2 ^ z)))
      = .fin (1 - 2 * y / 2 ^ z) := by
  have hz2 : (2 : Nat) ^ z ≤ 2 ^ 23 := Nat.pow_le_pow_right (by norm_num) hz
  have hp : (0 : Rat) < 2 ^ z := by positivity
  have e0 : Fl.ofNat f32 y = .fin y := rnd32_nat (by omega)
  have e1 : rnd f32 (2 * (y : Rat)) = .fin (2 * y) := by
    apply rnd32_pow2' y 1
    · rw [show pow2 1 = 2 by rw [pow2_eq]; norm_num]; push_cast; ring
    · rw [Nat.abs_cast]; push_cast; exact_mod_cast by omega
    · omega
    · omega
  have e2 : rnd f32 (2 * (y : Rat) / 2 ^ z) = .fin (2 * y / 2 ^ z) := by
    apply rnd32_pow2' y (1 - z)
    · rw [pow2_sub_nat, show pow2 1 = 2 by rw [pow2_eq]; norm_num]; push_cast; ring
    · rw [Nat.abs_cast]; push_cast; exact_mod_cast by omega
    · omega
    · omega
  have e3 : rnd f32 (1 + -(2 * (y : Rat) / 2 ^ z)) = .fin (1 - 2 * y / 2 ^ z) := by
    rw [← sub_eq_add_neg]
    apply rnd32_pow2' (2 ^ z - 2 * y : Int) (0 - z)
    · rw [pow2_sub_nat, pow2_zero]; push_cast; field_simp
    · rw [abs_le]
      have : ((2 ^ z : Nat) : Int) = 2 ^ z := by push_cast; ring
      have h1 : (y : Int) ≤ 2 ^ z := by rw [← this]; exact_mod_cast hy
      have h2 : (2 : Int) ^ z ≤ 8388608 := by rw [← this]; exact_mod_cast hz2
      constructor <;> omega
    · omega
    · omega
  rw [e0]
  show Fl.sub f32 _ (Fl.div f32 (rnd f32 _) _) = _
  rw [e1, Fl.div_fin f32 _ hp.ne', e2]
  exact e3

/-- The latitude of a tile edge is that of the projection, within 0.002 degrees. -/
theorem latitude_near {m : Libm} (hm : Accurate m) {y z : Nat} (hz : z ≤ 23) (hy : y ≤ 2 ^ z) :
    ∃ q : Rat, MapTileCoord.latitude m y (.fin (2 ^ z)) = .fin q ∧ |(q : ℝ) - mercatorLat y z| ≤ 1 / 500 := by
  unfold MapTileCoord.latitude toDegrees32
  rw [frac_exact hz hy, deg32]
  set a : Rat := 1 - 2 * y / 2 ^ z with ha
  have pz : (0 : Rat) < 2 ^ z := by positivity
  have hyz : (y : Rat) ≤ 2 ^ z := by exact_mod_cast hy
  have f0 : (0 : Rat) ≤ y / 2 ^ z := by positivity
  have f1 : (y : Rat) / 2 ^ z ≤ 1 := by rw [div_le_one pz]; exact hyz
  have a1 : |a| ≤ 1 := by
    rw [abs_le, ha, mul_div_assoc]; constructor <;> linarith
  have aR : |(a : ℝ)| ≤ 1 := by rw [← Rat.cast_abs]; exact_mod_cast a1
  have pa : |13176795 / 2 ^ 22 * a| ≤ 3.2 := by
    rw [abs_mul, abs_of_nonneg (by norm_num)]
    nlinarith [abs_nonneg a]
  obtain ⟨p, hp, -, ep⟩ := rnd32_err_le pa (by norm_num)
  have hp' : Fl.mul f32 pi32 (.fin a) = .fin p := hp
  rw [hp']
  have ep2 : |p - 13176795 / 2 ^ 22 * a| ≤ 1 / 10 ^ 6 := ep.trans (by norm_num)
  have ep3 : |(p : ℝ) - 13176795 / 2 ^ 22 * a| ≤ 1 / 10 ^ 6 := by
    have := (Rat.cast_le (K := ℝ)).mpr ep2
    push_cast at this
    exact this
  have hpi : |(13176795 / 2 ^ 22 : ℝ) - Real.pi| ≤ 1 / 10 ^ 6 := by
    have := Real.pi_gt_d6; have := Real.pi_lt_d6
    rw [abs_le]; constructor <;> norm_num at * <;> linarith
  have ep4 : |(p : ℝ) - Real.pi * a| ≤ 2 / 10 ^ 6 := by
    have e : (p : ℝ) - Real.pi * a = (p - 13176795 / 2 ^ 22 * a) + (13176795 / 2 ^ 22 - Real.pi) * a := by ring
    have e2 : |((13176795 / 2 ^ 22 : ℝ) - Real.pi) * a| ≤ 1 / 10 ^ 6 := by
      rw [abs_mul]
      calc _ ≤ 1 / 10 ^ 6 * (1 : ℝ) := mul_le_mul hpi aR (abs_nonneg _) (by norm_num)
        _ = _ := by ring
    rw [e]
    exact (abs_add_le _ _).trans (by linarith)
  have p4 : |p| ≤ 4 := by
    have h := abs_sub_abs_le_abs_sub p (13176795 / 2 ^ 22 * a)
    have : (1 / 10 ^ 6 : Rat) ≤ 1 / 2 := by norm_num
    linarith
  obtain ⟨v, hv, ev⟩ := hm.sinh p p4
  rw [hv]
  obtain ⟨w, hw, ew⟩ := hm.atan v
  rw [hw]
  have eg : |(w : ℝ) - gd (Real.pi * a)| ≤ 22 / 10 ^ 6 := by
    have e1 := arctan_lip v (Real.sinh p)
    have e2 := gd_lip p (Real.pi * a)
    have e3 : (w : ℝ) - gd (Real.pi * a) = (w - Real.arctan v) + (Real.arctan v - Real.arctan (Real.sinh p)) +
        (gd p - gd (Real.pi * a)) := by unfold gd; ring
    rw [e3]
    refine (abs_add_three _ _ _).trans ?_
    have : |Real.arctan v - Real.arctan (Real.sinh p)| ≤ 1 / 10 ^ 5 := e1.trans ev
    have : |gd p - gd (Real.pi * a)| ≤ 2 / 10 ^ 6 := e2.trans ep4
    linarith
  have g1 : |gd (Real.pi * a)| ≤ 1.58 := by
    have h1 := Real.arctan_lt_pi_div_two (Real.sinh (Real.pi * a))
    have h2 := Real.neg_pi_div_two_lt_arctan (Real.sinh (Real.pi * a))
    have := Real.pi_lt_d2
    rw [abs_le]; unfold gd; constructor <;> linarith
  have w1 : |(w : ℝ)| ≤ 1.6 := by
    have := abs_sub_abs_le_abs_sub (w : ℝ) (gd (Real.pi * a))
    linarith
  have w1' : |w| ≤ 1.6 := by
    have : ((|w| : Rat) : ℝ) ≤ ((1.6 : Rat) : ℝ) := by rw [Rat.cast_abs]; push_cast; exact w1
    exact_mod_cast this
  have wc : |w * (15019745 / 262144)| ≤ 93 := by
    rw [abs_mul, abs_of_nonneg (show (0 : Rat) ≤ 15019745 / 262144 by norm_num)]
    nlinarith [abs_nonneg w]
  obtain ⟨r, hr, -, er⟩ := rnd32_err_le wc (by norm_num)
  refine ⟨r, hr, ?_⟩
  have er2 : |(r : ℝ) - w * (15019745 / 262144)| ≤ 1 / 10 ^ 5 := by
    have := (Rat.cast_le (K := ℝ)).mpr (er.trans (show _ ≤ (1 / 10 ^ 5 : Rat) by norm_num))
    push_cast at this
    exact this
  have k0 := Real.pi_pos
  have hk : |(15019745 / 262144 : ℝ) - 180 / Real.pi| ≤ 1 / 10 ^ 5 := by
    have h1 := Real.pi_gt_d20
    have h2 := Real.pi_lt_d20
    have hlo : 180 / Real.pi ≤ 180 / 3.14159265358979323846 := by
      apply div_le_div_of_nonneg_left <;> linarith
    have hhi : 180 / 3.14159265358979323847 ≤ 180 / Real.pi := by
      apply div_le_div_of_nonneg_left <;> linarith
    rw [abs_le]; constructor <;> norm_num at * <;> linarith
  have hk2 : 180 / Real.pi ≤ 58 := by
    have := (abs_le.mp hk).1
    norm_num at *
    linarith
  have em : mercatorLat y z = gd (Real.pi * a) * (180 / Real.pi) := by
    unfold mercatorLat gd
    rw [ha]; push_cast; rfl
  rw [em, show (r : ℝ) - gd (Real.pi * a) * (180 / Real.pi) = (r - w * (15019745 / 262144)) +
    w * (15019745 / 262144 - 180 / Real.pi) + (w - gd (Real.pi * a)) * (180 / Real.pi) by ring]
  refine (abs_add_three _ _ _).trans ?_
  have t2 : |(w : ℝ) * (15019745 / 262144 - 180 / Real.pi)| ≤ 1.6 * (1 / 10 ^ 5) := by
    rw [abs_mul]; exact mul_le_mul w1 hk (abs_nonneg _) (by norm_num)
  have t3 : |((w : ℝ) - gd (Real.pi * a)) * (180 / Real.pi)| ≤ 22 / 10 ^ 6 * 58 := by
    rw [abs_mul, abs_of_pos (show 0 < 180 / Real.pi by positivity)]
    exact mul_le_mul eg hk2 (by positivity) (by norm_num)
  norm_num at t2 t3 er2 ⊢
  linarith

end Verif
