import Mathlib.Analysis.Complex.ExponentialBounds
import Mathlib.Analysis.Real.Pi.Bounds
import Mathlib.Analysis.SpecialFunctions.Trigonometric.Bounds
import Verif.Spec.MercatorRow
import Verif.Lemmas.MapTile
import Verif.Lemmas.FloatErr

/-!
# Rows of tiles
-/

namespace Verif

open Spec

theorem deg_const : Fl.div f32 pi32 (.fin 180) = .fin (9370165 / 536870912) := by decide +kernel

theorem cast_abs_le {q e : Rat} (h : |q| ≤ e) : |(q : ℝ)| ≤ (e : ℝ) := by
  rw [← Rat.cast_abs]
  exact_mod_cast h

/-- The angle in radians. -/
theorem toRadians_near {lat : Rat} (h0 : 0 ≤ lat) (h1 : lat ≤ 75) :
    ∃ a : Rat, toRadians32 (.fin lat) = .fin a ∧ 0 ≤ a ∧ a ≤ 131 / 100 ∧
      |(a : ℝ) - lat * (Real.pi / 180)| ≤ 3 / 10 ^ 7 := by
  have b0 : (0 : Rat) ≤ lat * (9370165 / 536870912) := by positivity
  have hb : |lat * (9370165 / 536870912)| ≤ 131 / 100 - 1 / 10000 := by
    rw [abs_of_nonneg b0]
    nlinarith
  obtain ⟨a, ha, he, hq⟩ := rnd32_err_le hb (by norm_num)
  have hq' : |a - lat * (9370165 / 536870912)| ≤ 1 / 10 ^ 7 := hq.trans (by norm_num)
  have hq'' := abs_le.mp hq'
  have hb' := abs_le.mp hb
  refine ⟨a, ?_, ?_, ?_, ?_⟩
  · unfold toRadians32
    rw [deg_const, Fl.mul_fin, ha]
  · rw [he]
    have h := rndq_mono prec32 b0
    rwa [rndq_zero] at h
  · linarith [hq''.2, hb'.2]
  · have p1 := Real.pi_gt_d20
    have p2 := Real.pi_lt_d20
    have r : |(a : ℝ) - lat * (9370165 / 536870912)| ≤ 1 / 10 ^ 7 := by
      have := cast_abs_le hq'
      push_cast at this
      exact this
    have r' := abs_le.mp r
    have l0 : (0 : ℝ) ≤ lat := by exact_mod_cast h0
    have l1 : (lat : ℝ) ≤ 75 := by exact_mod_cast h1
    have c : |(9370165 / 536870912 : ℝ) - Real.pi / 180| ≤ 1 / 10 ^ 9 := by
      rw [abs_le]; constructor <;> linarith
    have c' := abs_le.mp c
    have d : |(lat : ℝ) * (9370165 / 536870912 - Real.pi / 180)| ≤ 75 / 10 ^ 9 := by
      rw [abs_mul, abs_of_nonneg l0]
      calc (lat : ℝ) * |(9370165 / 536870912 : ℝ) - Real.pi / 180| ≤ 75 * (1 / 10 ^ 9) :=
            mul_le_mul l1 c (abs_nonneg _) (by norm_num)
        _ = _ := by norm_num
    have d' := abs_le.mp d
    rw [abs_le]
    constructor <;> nlinarith

theorem cos_lower {x : ℝ} (h0 : 0 ≤ x) (h1 : x ≤ 1311 / 1000) : 1 / 4 ≤ Real.cos x := by
  have p1 := Real.pi_gt_d20
  have p2 := Real.pi_lt_d20
  have hc : Real.cos (1311 / 1000) ≤ Real.cos x := Real.cos_le_cos_of_nonneg_of_le_pi h0 (by linarith) h1
  refine le_trans ?_ hc
  rw [← Real.sin_pi_div_two_sub]
  have hs : Real.sin (2597 / 10000) ≤ Real.sin (Real.pi / 2 - 1311 / 1000) :=
    Real.sin_le_sin_of_le_of_le_pi_div_two (by linarith) (by linarith) (by linarith)
  refine le_trans ?_ hs
  have := Real.sin_gt_sub_cube (x := 2597 / 10000) (by norm_num)
  norm_num at this ⊢
  linarith

/-- The quantity whose logarithm is taken. -/
noncomputable def slope (x : ℝ) : ℝ := Real.tan x + 1 / Real.cos x

theorem slope_eq {x : ℝ} (hc : 0 < Real.cos x) : slope x = (1 + Real.sin x) / Real.cos x := by
  unfold slope
  rw [Real.tan_eq_sin_div_cos]
  field_simp
  ring

theorem arsinh_tan {x : ℝ} (hc : 0 < Real.cos x) : Real.arsinh (Real.tan x) = Real.log (slope x) := by
  unfold Real.arsinh slope
  congr 2
  rw [Real.tan_eq_sin_div_cos, show 1 + (Real.sin x / Real.cos x) ^ 2 = (1 / Real.cos x) ^ 2 by
    have := Real.sin_sq_add_cos_sq x
    field_simp
    linarith]
  exact Real.sqrt_sq (by positivity)

theorem slope_bounds {x : ℝ} (h0 : 0 ≤ x) (h1 : x ≤ 1311 / 1000) : 1 ≤ slope x ∧ slope x ≤ 8 := by
  have hc := cos_lower h0 h1
  have hc1 := Real.cos_le_one x
  have hs1 := Real.sin_le_one x
  have p1 := Real.pi_gt_d20
  have hs0 : 0 ≤ Real.sin x := Real.sin_nonneg_of_nonneg_of_le_pi h0 (by linarith)
  rw [slope_eq (by linarith)]
  constructor
  · rw [le_div_iff₀ (by linarith)]
    linarith
  · rw [div_le_iff₀ (by linarith)]
    linarith

/-- The logarithm varies little with the angle. -/
theorem log_slope_near {a b : ℝ} (a0 : 0 ≤ a) (a1 : a ≤ 1311 / 1000) (b0 : 0 ≤ b) (b1 : b ≤ 1311 / 1000) :
    |Real.log (slope a) - Real.log (slope b)| ≤ 8 * |a - b| := by
  have key : ∀ {a b : ℝ}, 0 ≤ a → a ≤ 1311 / 1000 → 0 ≤ b → b ≤ 1311 / 1000 →
      Real.log (slope a) - Real.log (slope b) ≤ 8 * |a - b| := by
    intro a b a0 a1 b0 b1
    have ca := cos_lower a0 a1
    have cb := cos_lower b0 b1
    have sa := slope_bounds a0 a1
    have sb := slope_bounds b0 b1
    have p1 := Real.pi_gt_d20
    have sb0 : 0 ≤ Real.sin b := Real.sin_nonneg_of_nonneg_of_le_pi b0 (by linarith)
    rw [← Real.log_div (by linarith) (by linarith)]
    have hr : 0 < slope a / slope b := by
      apply div_pos <;> linarith
    refine (Real.log_le_sub_one_of_pos hr).trans ?_
    rw [slope_eq (by linarith), slope_eq (by linarith)]
    have e : (1 + Real.sin a) / Real.cos a / ((1 + Real.sin b) / Real.cos b) - 1 =
        (Real.cos b - Real.cos a + Real.sin (a - b)) / (Real.cos a * (1 + Real.sin b)) := by
      have : 1 + Real.sin b ≠ 0 := by linarith
      have : Real.cos a ≠ 0 := by linarith
      have : Real.cos b ≠ 0 := by linarith
      rw [Real.sin_sub]
      field_simp
      ring
    rw [e]
    have n1 : |Real.cos b - Real.cos a| ≤ |a - b| := by
      rw [abs_sub_comm a b]; exact Real.abs_cos_sub_cos_le b a
    have n2 : |Real.sin (a - b)| ≤ |a - b| := Real.abs_sin_le_abs
    have m1 := le_abs_self (Real.cos b - Real.cos a)
    have m2 := le_abs_self (Real.sin (a - b))
    have d : 1 / 4 ≤ Real.cos a * (1 + Real.sin b) := by nlinarith
    rw [div_le_iff₀ (by linarith)]
    nlinarith [abs_nonneg (a - b)]
  rw [abs_le]
  constructor
  · have := key b0 b1 a0 a1
    rw [abs_sub_comm b a] at this
    linarith
  · exact key a0 a1 b0 b1

theorem log_near {s S d : ℝ} (hS : 1 ≤ S) (d1 : d ≤ 1 / 10) (h : |s - S| ≤ d * S) :
    |Real.log s - Real.log S| ≤ d + 2 * d ^ 2 := by
  have h' := abs_le.mp h
  have d0 : 0 ≤ d := by
    by_contra hn
    have := abs_nonneg (s - S)
    nlinarith
  have s0 : 0 < s := by nlinarith
  have hSs : 0 < S := by linarith
  rw [abs_le]
  constructor
  · have := Real.log_le_sub_one_of_pos (show 0 < S / s by positivity)
    rw [Real.log_div hSs.ne' s0.ne'] at this
    have h2 : S / s - 1 ≤ d + 2 * d ^ 2 := by
      rw [div_sub_one s0.ne', div_le_iff₀ s0]
      have : S - s ≤ d * S := by linarith
      have hs : (1 - d) * S ≤ s := by linarith
      have : d * S ≤ (d + 2 * d ^ 2) * ((1 - d) * S) := by
        have : d ≤ (d + 2 * d ^ 2) * (1 - d) := by nlinarith [mul_nonneg d0 d0]
        nlinarith
      nlinarith [mul_le_mul_of_nonneg_left hs (show 0 ≤ d + 2 * d ^ 2 by positivity)]
    linarith
  · have := Real.log_le_sub_one_of_pos (show 0 < s / S by positivity)
    rw [Real.log_div s0.ne' hSs.ne'] at this
    have h2 : s / S - 1 ≤ d := by
      rw [div_sub_one hSs.ne', div_le_iff₀ hSs]
      linarith
    nlinarith [mul_nonneg d0 d0]

/-- The sum of tangent and secant as computed. -/
theorem slope_near {m : Libm} (hm : AccurateRow m) {a : Rat} (h0 : 0 ≤ a) (h1 : a ≤ 131 / 100) :
    ∃ s : Rat, Fl.add f32 (m.tan (.fin a)) (Fl.div f32 (.fin 1) (m.cos (.fin a))) = .fin s ∧
      |(s : ℝ) - slope a| ≤ 2 / 10 ^ 6 * slope a := by
  have a0 : (0 : ℝ) ≤ a := by exact_mod_cast h0
  have a1 : (a : ℝ) ≤ 131 / 100 := by
    have : ((a : Rat) : ℝ) ≤ ((131 / 100 : Rat) : ℝ) := by exact_mod_cast h1
    push_cast at this
    exact this
  obtain ⟨t, ht, et⟩ := hm.tan a h0 (by linarith)
  obtain ⟨c, hc, ec⟩ := hm.cos a h0 (by linarith)
  have p1 := Real.pi_gt_d20
  have C0 := cos_lower a0 (by linarith)
  have C1 := Real.cos_le_one (a : ℝ)
  have S0 : 0 ≤ Real.sin (a : ℝ) := Real.sin_nonneg_of_nonneg_of_le_pi a0 (by linarith)
  have S1 := Real.sin_le_one (a : ℝ)
  have T0 : 0 ≤ Real.tan (a : ℝ) := by
    rw [Real.tan_eq_sin_div_cos]
    exact div_nonneg S0 (by linarith)
  have T1 : Real.tan (a : ℝ) ≤ 4 := by
    rw [Real.tan_eq_sin_div_cos, div_le_iff₀ (by linarith)]
    linarith
  rw [abs_of_nonneg T0] at et
  rw [abs_of_pos (show 0 < Real.cos (a : ℝ) by linarith)] at ec
  have et' := abs_le.mp et
  have ec' := abs_le.mp ec
  have c0 : (1 / 5 : ℝ) ≤ c := by linarith [ec'.1]
  have c0q : (1 / 5 : Rat) ≤ c := by
    have : ((1 / 5 : Rat) : ℝ) ≤ (c : ℝ) := by push_cast; exact c0
    exact_mod_cast this
  have cne : c ≠ 0 := by intro h; rw [h] at c0q; norm_num at c0q
  have hi : |1 / c| ≤ 5 := by
    rw [abs_of_pos (by positivity), div_le_iff₀ (by linarith)]
    linarith
  obtain ⟨r, hr, -, er⟩ := rnd32_err (q := 1 / c) (hi.trans (by norm_num))
  rw [abs_of_pos (show (0 : Rat) < 1 / c by positivity)] at er
  have er' : |r - 1 / c| ≤ (1 / c) * (7 / 10 ^ 8) := by
    refine er.trans ?_
    have c1 : c ≤ 2 := by
      have : ((c : Rat) : ℝ) ≤ ((2 : Rat) : ℝ) := by push_cast; linarith [ec'.2]
      exact_mod_cast this
    have : (1 / 2 : Rat) ≤ 1 / c := one_div_le_one_div_of_le (by linarith) c1
    generalize 1 / c = u at this ⊢
    norm_num
    linarith
  have r1 : |(r : ℝ) - 1 / c| ≤ (1 / c) * (7 / 10 ^ 8) := by
    have := cast_abs_le er'
    push_cast at this
    exact this
  -- the secant
  have i1 : |(1 / c : ℝ) - 1 / Real.cos a| ≤ (11 / 10 ^ 7) * (1 / Real.cos a) := by
    have cp : (0 : ℝ) < c := by linarith
    have Cp : 0 < Real.cos (a : ℝ) := by linarith
    have : (1 / c : ℝ) - 1 / Real.cos a = (1 / Real.cos a) * ((Real.cos a - c) / c) := by field_simp
    rw [this, abs_mul, abs_of_pos (by positivity), mul_comm]
    apply mul_le_mul_of_nonneg_right _ (by positivity)
    rw [abs_div, abs_of_pos cp, div_le_iff₀ cp, abs_le]
    constructor <;> linarith [ec'.1, ec'.2]
  generalize hX : (1 / Real.cos (a : ℝ)) = X at *
  generalize (1 / c : ℝ) = u at r1 i1
  have X1 : 1 ≤ X := by rw [← hX, le_div_iff₀ (by linarith)]; linarith
  have X2 : X ≤ 4 := by rw [← hX, div_le_iff₀ (by linarith)]; linarith
  have i1' := abs_le.mp i1
  have r1' := abs_le.mp r1
  have t1 : |t| ≤ 5 := by
    have : ((|t| : Rat) : ℝ) ≤ ((5 : Rat) : ℝ) := by
      push_cast
      rw [abs_le]; constructor <;> linarith [et'.1, et'.2]
    exact_mod_cast this
  have rb : |r| ≤ 5 := by
    have : ((|r| : Rat) : ℝ) ≤ ((5 : Rat) : ℝ) := by
      push_cast
      rw [abs_le]; constructor <;> linarith [r1'.1, r1'.2, i1'.1, i1'.2]
    exact_mod_cast this
  obtain ⟨s, hs, -, es⟩ := rnd32_err (q := t + r) (by
    have := abs_add_le t r
    norm_num
    linarith)
  have es1 := cast_abs_le es
  push_cast at es1
  have tr0 : (0 : ℝ) ≤ t + r := by linarith [et'.1, r1'.1, i1'.1]
  rw [abs_of_nonneg tr0] at es1
  have es' := abs_le.mp es1
  refine ⟨s, ?_, ?_⟩
  · rw [ht, hc, Fl.div_fin f32 1 cne, hr, Fl.add_fin, hs]
  · have e : slope a = Real.tan a + X := by unfold slope; rw [hX]
    rw [e, abs_le]
    norm_num at es'
    constructor <;> linarith [et'.1, et'.2, r1'.1, r1'.2, i1'.1, i1'.2, es'.1, es'.2]

theorem log8 : Real.log 8 ≤ 208 / 100 := by
  have : (8 : ℝ) = 2 ^ 3 := by norm_num
  rw [this, Real.log_pow]
  have := Real.log_two_lt_d9
  norm_num at this ⊢
  linarith

/-- The last part of the computation, from the logarithm on. -/
theorem row_tail {l : Rat} {G : ℝ} (lG : |(l : ℝ) - G| ≤ 71 / 10 ^ 7) (G0 : 0 ≤ G) (G1 : G ≤ 208 / 100) {z : Nat}
    (hz : z ≤ 31) :
    ∃ f : Rat, Fl.mul f32 (Fl.div f32 (Fl.sub f32 (.fin 1) (Fl.div f32 (.fin l) pi32)) (.fin 2)) (.fin (2 ^ z)) = .fin f ∧
      0 ≤ f ∧ |(f : ℝ) - 2 ^ z * ((1 - G / Real.pi) / 2)| ≤ 2 ^ z * (2 / 10 ^ 6) ∧ (f : ℝ) ≤ 2 ^ z * (6 / 10) := by
  have p1 := Real.pi_gt_d20
  have p2 := Real.pi_lt_d20
  have lG' := abs_le.mp lG
  -- division by pi
  have lb : |l| ≤ 3 := by
    have : ((|l| : Rat) : ℝ) ≤ ((3 : Rat) : ℝ) := by
      push_cast
      rw [abs_le]; constructor <;> linarith [lG'.1, lG'.2]
    exact_mod_cast this
  have pp : (13176795 / 2 ^ 22 : Rat) ≠ 0 := by norm_num
  have db : |l / (13176795 / 2 ^ 22)| ≤ 1 := by
    rw [abs_div, abs_of_pos (show (0 : Rat) < 13176795 / 2 ^ 22 by norm_num), div_le_one (by norm_num)]
    norm_num
    linarith
  obtain ⟨d, hd, -, ed⟩ := rnd32_err_le db (by norm_num)
  have ed1 := cast_abs_le ed
  push_cast at ed1
  have dG : |(d : ℝ) - G / Real.pi| ≤ 25 / 10 ^ 7 := by
    have q1 : |(l : ℝ) / (13176795 / 2 ^ 22) - G / (13176795 / 2 ^ 22)| ≤ 23 / 10 ^ 7 := by
      rw [← sub_div, abs_div, abs_of_pos (show (0 : ℝ) < 13176795 / 2 ^ 22 by norm_num), div_le_iff₀ (by norm_num)]
      refine lG.trans (by norm_num)
    have q2 : |G / (13176795 / 2 ^ 22) - G / Real.pi| ≤ 6 / 10 ^ 8 := by
      have : G / (13176795 / 2 ^ 22) - G / Real.pi = G * ((Real.pi - 13176795 / 2 ^ 22) / (13176795 / 2 ^ 22 * Real.pi)) := by
        field_simp
      rw [this, abs_mul, abs_of_nonneg G0, abs_div, abs_of_pos (show (0 : ℝ) < 13176795 / 2 ^ 22 * Real.pi by positivity)]
      have n : |Real.pi - 13176795 / 2 ^ 22| ≤ 1 / 10 ^ 7 := by
        rw [abs_le]; norm_num at *; constructor <;> linarith
      have den : (9 : ℝ) ≤ 13176795 / 2 ^ 22 * Real.pi := by norm_num at *; linarith
      have : |Real.pi - 13176795 / 2 ^ 22| / (13176795 / 2 ^ 22 * Real.pi) ≤ 1 / 10 ^ 7 / 9 :=
        div_le_div₀ (by norm_num) n (by norm_num) den
      calc G * (|Real.pi - 13176795 / 2 ^ 22| / (13176795 / 2 ^ 22 * Real.pi)) ≤ 208 / 100 * (1 / 10 ^ 7 / 9) :=
            mul_le_mul G1 this (by positivity) (by norm_num)
        _ ≤ _ := by norm_num
    have t1 := abs_add_le ((d : ℝ) - l / (13176795 / 2 ^ 22)) (l / (13176795 / 2 ^ 22) - G / (13176795 / 2 ^ 22))
    rw [sub_add_sub_cancel] at t1
    have t2 := abs_add_le ((d : ℝ) - G / (13176795 / 2 ^ 22)) (G / (13176795 / 2 ^ 22) - G / Real.pi)
    rw [sub_add_sub_cancel] at t2
    norm_num at *
    linarith
  have dG' := abs_le.mp dG
  have Gp0 : 0 ≤ G / Real.pi := by positivity
  have Gp1 : G / Real.pi ≤ 67 / 100 := by
    rw [div_le_iff₀ (by linarith)]
    linarith
  generalize hP : G / Real.pi = P at *
  have d1 : |1 - d| ≤ 2 := by
    have : ((|1 - d| : Rat) : ℝ) ≤ ((2 : Rat) : ℝ) := by
      push_cast
      rw [abs_le]; constructor <;> linarith [dG'.1, dG'.2]
    exact_mod_cast this
  obtain ⟨e, he, -, ee⟩ := rnd32_err_le d1 (by norm_num)
  have ee1 := cast_abs_le ee
  push_cast at ee1
  have ee' := abs_le.mp ee1
  have e1 : |e / 2| ≤ 1 := by
    have : ((|e / 2| : Rat) : ℝ) ≤ ((1 : Rat) : ℝ) := by
      push_cast
      norm_num at *
      rw [abs_le]; constructor <;> linarith [dG'.1, dG'.2, ee'.1, ee'.2]
    exact_mod_cast this
  obtain ⟨h, hh, -, eh⟩ := rnd32_err_le e1 (by norm_num)
  have eh1 := cast_abs_le eh
  push_cast at eh1
  have eh' := abs_le.mp eh1
  have hy : |(h : ℝ) - (1 - P) / 2| ≤ 16 / 10 ^ 7 := by
    norm_num at *
    rw [abs_le]; constructor <;> linarith [dG'.1, dG'.2, ee'.1, ee'.2, eh'.1, eh'.2]
  have hy' := abs_le.mp hy
  have h0' : (0 : Rat) ≤ h := by
    have : ((0 : Rat) : ℝ) ≤ (h : ℝ) := by push_cast; linarith [hy'.1]
    exact_mod_cast this
  have hle : h ≤ 1 := by
    have : (h : ℝ) ≤ ((1 : Rat) : ℝ) := by push_cast; linarith [hy'.2]
    exact_mod_cast this
  have z1 : (2 : Rat) ^ z ≤ 2 ^ 31 := pow_le_pow_right₀ (by norm_num) hz
  have zp : (0 : Rat) < 2 ^ z := by positivity
  have zo : (1 : Rat) ≤ 2 ^ z := one_le_pow₀ (by norm_num)
  have fb : |h * 2 ^ z| ≤ 2 ^ z := by
    rw [abs_of_nonneg (by positivity)]
    nlinarith
  obtain ⟨f, hf, ef, eff⟩ := rnd32_err_le fb (z1.trans (by norm_num))
  have eff1 := cast_abs_le eff
  push_cast at eff1
  have zor : (1 : ℝ) ≤ 2 ^ z := one_le_pow₀ (by norm_num)
  have fin : |(f : ℝ) - 2 ^ z * ((1 - P) / 2)| ≤ 2 ^ z * (2 / 10 ^ 6) := by
    have k : |(h : ℝ) * 2 ^ z - 2 ^ z * ((1 - P) / 2)| ≤ 2 ^ z * (16 / 10 ^ 7) := by
      rw [mul_comm (h : ℝ), ← mul_sub, abs_mul, abs_of_pos (by positivity)]
      exact mul_le_mul_of_nonneg_left hy (by positivity)
    have := abs_add_le ((f : ℝ) - h * 2 ^ z) (h * 2 ^ z - 2 ^ z * ((1 - P) / 2))
    rw [sub_add_sub_cancel] at this
    clear * - this k eff1 zor
    generalize (2 : ℝ) ^ z = Z at *
    norm_num at *
    linarith
  refine ⟨f, ?_, ?_, fin, ?_⟩
  · unfold pi32
    rw [Fl.div_fin f32 l pp, hd, Fl.sub_fin, he, Fl.div_fin f32 e two_ne_zero, hh, Fl.mul_fin, hf]
  · rw [ef]
    have := rndq_mono prec32 (show (0 : Rat) ≤ h * 2 ^ z from mul_nonneg h0' zp.le)
    rwa [rndq_zero] at this
  · have := (abs_le.mp fin).2
    clear * - this Gp0 zor
    generalize (2 : ℝ) ^ z = Z at *
    norm_num at *
    nlinarith

/-- The distance from the top of the map as computed. -/
theorem row_value {m : Libm} (hm : AccurateRow m) {lat : Rat} (h0 : 0 ≤ lat) (h1 : lat ≤ 75) {z : Nat} (hz : z ≤ 31) :
    ∃ f : Rat, MapTileCoord.row m (.fin lat) (.fin (2 ^ z)) = min (⌊f⌋.toNat) (2 ^ 32 - 1) ∧ 0 ≤ f ∧
      |(f : ℝ) - 2 ^ z * mercatorY lat| ≤ 2 ^ z * (2 / 10 ^ 6) ∧ (f : ℝ) ≤ 2 ^ z * (6 / 10) := by
  obtain ⟨a, ha, a0, a1, ea⟩ := toRadians_near h0 h1
  obtain ⟨s, hs, es⟩ := slope_near hm a0 a1
  have A0 : (0 : ℝ) ≤ a := by exact_mod_cast a0
  have A1 : (a : ℝ) ≤ 131 / 100 := by
    have : ((a : Rat) : ℝ) ≤ ((131 / 100 : Rat) : ℝ) := by exact_mod_cast a1
    push_cast at this
    exact this
  have l0 : (0 : ℝ) ≤ lat := by exact_mod_cast h0
  have p1 := Real.pi_gt_d20
  have p2 := Real.pi_lt_d20
  have B0 : 0 ≤ (lat : ℝ) * (Real.pi / 180) := by positivity
  have ea' := abs_le.mp ea
  have B1 : (lat : ℝ) * (Real.pi / 180) ≤ 1311 / 1000 := by linarith [ea'.1]
  have sa := slope_bounds A0 (by linarith)
  have sb := slope_bounds B0 B1
  have g1 := log_near sa.1 (by norm_num) es
  have g2 := log_slope_near A0 (by linarith) B0 B1
  have es' := abs_le.mp es
  have s1 : (1 / 2 : Rat) ≤ s := by
    have : ((1 / 2 : Rat) : ℝ) ≤ (s : ℝ) := by push_cast; linarith [es'.1, sa.1]
    exact_mod_cast this
  obtain ⟨l, hl, el⟩ := hm.ln s s1
  have G0 := Real.log_nonneg sb.1
  have G1 : Real.log (slope (lat * (Real.pi / 180))) ≤ 208 / 100 :=
    (Real.log_le_log (by linarith) sb.2).trans log8
  have hG : mercatorY lat = (1 - Real.log (slope (lat * (Real.pi / 180))) / Real.pi) / 2 := by
    unfold mercatorY
    rw [arsinh_tan (by linarith [cos_lower B0 B1])]
  generalize Real.log (slope (lat * (Real.pi / 180))) = G at *
  generalize Real.log (slope a) = G' at *
  have g12 : |Real.log s - G| ≤ 5 / 10 ^ 6 := by
    have := abs_add_le (Real.log s - G') (G' - G)
    rw [sub_add_sub_cancel] at this
    norm_num at *
    linarith
  have g12' := abs_le.mp g12
  have el1 : |(l : ℝ) - Real.log s| ≤ 21 / 10 ^ 7 := by
    refine el.trans ?_
    have : |Real.log s| ≤ 21 / 10 := by rw [abs_le]; constructor <;> linarith [g12'.1, g12'.2]
    linarith
  have lG : |(l : ℝ) - G| ≤ 71 / 10 ^ 7 := by
    have := abs_add_le ((l : ℝ) - Real.log s) (Real.log s - G)
    rw [sub_add_sub_cancel] at this
    linarith
  obtain ⟨f, hf, f0, f1, f2⟩ := row_tail lG G0 G1 hz
  refine ⟨f, ?_, f0, ?_, f2⟩
  · unfold MapTileCoord.row
    simp only [ha, hs, hl]
    rw [hf]
    unfold Fl.floor Fl.toU32 Fl.toUInt
    simp only [Int.floor_intCast]
  · rw [hG]; exact f1

end Verif
