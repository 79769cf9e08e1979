import Verif.Lemmas.Mercator

/-!
# Property C77: the latitudes of the pixel rows of map tiles
-/

namespace Verif.Props

open Verif Verif.MapTileCoord
open Verif.Spec (mercatorLat Accurate exists_accurate)

/-- The latitude at which pixel row `i` of a tile looks up its values (see `C33_tile`). -/
def rowLat (start stop : LatLon) (i : Nat) : Fl :=
  Fl.add f32 start.lat (Fl.mul f32 (Fl.ofNat f32 i) (Fl.div f32 (Fl.sub f32 stop.lat start.lat) (.fin 256)))

theorem toPosition_lat {m : Libm} (hm : Accurate m) {x y z : Nat} (hz : z ≤ 23) (hy : y ≤ 2 ^ z) :
    ∃ p q, toPosition m ⟨x, y, z⟩ = .ok p ∧ p.lat = .fin q ∧ |(q : ℝ) - mercatorLat y z| ≤ 1 / 500 := by
  obtain ⟨q, h1, h2⟩ := latitude_near hm hz hy
  refine ⟨⟨latitude m y (.fin (2 ^ z)), longitude x (.fin (2 ^ z))⟩, q, ?_, h1, h2⟩
  unfold toPosition
  rw [zoomPow_eq (show z ≤ 31 by omega)]
  rfl

theorem mercator_bounds (y : ℝ) (z : Nat) : |mercatorLat y z| ≤ 90 := by
  unfold mercatorLat
  have h1 := Real.arctan_lt_pi_div_two (Real.sinh (Real.pi * (1 - 2 * y / 2 ^ z)))
  have h2 := Real.neg_pi_div_two_lt_arctan (Real.sinh (Real.pi * (1 - 2 * y / 2 ^ z)))
  have p := Real.pi_pos
  rw [abs_mul, abs_of_pos (show 0 < 180 / Real.pi by positivity)]
  have : |Real.arctan (Real.sinh (Real.pi * (1 - 2 * y / 2 ^ z)))| ≤ Real.pi / 2 := by
    rw [abs_le]; constructor <;> linarith
  calc _ ≤ Real.pi / 2 * (180 / Real.pi) := mul_le_mul_of_nonneg_right this (by positivity)
    _ = 90 := by field_simp; norm_num

/-- Rows of a tile are placed linearly between its edges, up to rounding. -/
theorem rowLat_near {s e : LatLon} {a b : Rat} (ha : s.lat = .fin a) (hb : e.lat = .fin b) (a1 : |a| ≤ 91)
    (b1 : |b| ≤ 91) {i : Nat} (hi : i ≤ 256) :
    ∃ q : Rat, rowLat s e i = .fin q ∧ |q - (a + i * ((b - a) / 256))| ≤ 1 / 1000 := by
  have hi' : (i : Rat) ≤ 256 := by exact_mod_cast hi
  have i0 : (0 : Rat) ≤ i := by positivity
  have a1' := abs_le.mp a1
  have b1' := abs_le.mp b1
  have n0 : |b - a| ≤ 182 := by rw [abs_le]; constructor <;> linarith [a1'.1, a1'.2, b1'.1, b1'.2]
  obtain ⟨d, hd, -, ed⟩ := rnd32_err_le n0 (by norm_num)
  have ed' : |d - (b - a)| ≤ 2 / 10 ^ 5 := ed.trans (by norm_num)
  have d1 : |d / 256| ≤ 1 := by
    have := abs_sub_abs_le_abs_sub d (b - a)
    rw [abs_div, abs_of_pos (show (0 : Rat) < 256 by norm_num), div_le_one (by norm_num)]
    norm_num at ed'
    linarith
  obtain ⟨c, hc, -, ec⟩ := rnd32_err_le d1 (by norm_num)
  have ec' : |c - d / 256| ≤ 1 / 10 ^ 7 := ec.trans (by norm_num)
  have c1 : |c| ≤ 2 := by
    have := abs_sub_abs_le_abs_sub c (d / 256)
    norm_num at ec'
    linarith
  have m1 : |i * c| ≤ 512 := by
    rw [abs_mul, abs_of_nonneg i0]
    nlinarith [abs_nonneg c]
  obtain ⟨k, hk, -, ek⟩ := rnd32_err_le m1 (by norm_num)
  have ek' : |k - i * c| ≤ 1 / 10 ^ 4 := ek.trans (by norm_num)
  have s1 : |a + k| ≤ 700 := by
    have := abs_sub_abs_le_abs_sub k (i * c)
    norm_num at ek'
    exact (abs_add_le _ _).trans (by linarith)
  obtain ⟨q, hq, -, eq⟩ := rnd32_err_le s1 (by norm_num)
  have eq' : |q - (a + k)| ≤ 1 / 10 ^ 4 := eq.trans (by norm_num)
  refine ⟨q, ?_, ?_⟩
  · have hi2 : Fl.ofNat f32 i = .fin i := rnd32_nat (by omega)
    unfold rowLat
    rw [ha, hb, hi2]
    have hs : Fl.sub f32 (.fin b) (.fin a) = .fin d := by
      rw [show Fl.sub f32 (.fin b) (.fin a) = rnd f32 (b + -a) from rfl, ← sub_eq_add_neg]; exact hd
    rw [hs, Fl.div_fin f32 _ (by norm_num), hc]
    show Fl.add f32 _ (rnd f32 _) = _
    rw [hk]
    exact hq
  · rw [show q - (a + i * ((b - a) / 256)) = (q - (a + k)) + (k - i * c) + (i * (c - d / 256) + i * ((d - (b - a)) / 256)) by ring]
    refine (abs_add_three _ _ _).trans ?_
    have t1 : |i * (c - d / 256)| ≤ 256 * (1 / 10 ^ 7) := by
      rw [abs_mul, abs_of_nonneg i0]; exact mul_le_mul hi' ec' (abs_nonneg _) (by norm_num)
    have t2 : |i * ((d - (b - a)) / 256)| ≤ 256 * (2 / 10 ^ 5 / 256) := by
      rw [abs_mul, abs_of_nonneg i0, abs_div, abs_of_pos (show (0 : Rat) < 256 by norm_num)]
      exact mul_le_mul hi' (div_le_div_of_nonneg_right ed' (by norm_num)) (by positivity) (by norm_num)
    have := abs_add_le (i * (c - d / 256)) (i * ((d - (b - a)) / 256))
    norm_num at *
    linarith

/-- C77 is false: at zoom level 0, pixel row 64 of the only tile is looked up more than seven degrees
too far south, whatever accurate library is used. -/
theorem C77_counterexample (m : Libm) (hm : Accurate m) :
    ∃ start stop q, toPosition m ⟨0, 0, 0⟩ = .ok start ∧ toPosition m ⟨1, 1, 0⟩ = .ok stop ∧
      Fl.add f32 start.lat (Fl.mul f32 (Fl.ofNat f32 64) (Fl.div f32 (Fl.sub f32 stop.lat start.lat) (.fin 256)))
        = .fin q ∧ q + 7 < mercatorLat (64 / 256) 0 := by
  obtain ⟨s, a, hs, ha, na⟩ := toPosition_lat (x := 0) (y := 0) (z := 0) hm (by norm_num) (by norm_num)
  obtain ⟨e, b, he, hb, nb⟩ := toPosition_lat (x := 1) (y := 1) (z := 0) hm (by norm_num) (by norm_num)
  have p0 := Real.pi_pos
  have p3 := Real.pi_gt_d2
  have sq3 : √3 ≤ (1.8 : ℝ) := by rw [Real.sqrt_le_left (by norm_num)]; norm_num
  have ma := abs_le.mp (mercator_bounds ((0 : Nat) : ℝ) 0)
  have mb := abs_le.mp (mercator_bounds ((1 : Nat) : ℝ) 0)
  generalize hA : mercatorLat ((0 : Nat) : ℝ) 0 = A at *
  generalize hB : mercatorLat ((1 : Nat) : ℝ) 0 = B at *
  have na' := abs_le.mp na
  have nb' := abs_le.mp nb
  have bound : ∀ q : Rat, |(q : ℝ)| ≤ 91 → |q| ≤ 91 := by
    intro q h
    have : ((|q| : Rat) : ℝ) ≤ ((91 : Rat) : ℝ) := by rw [Rat.cast_abs]; push_cast; exact h
    exact_mod_cast this
  have a1 : |a| ≤ 91 := bound a (by rw [abs_le]; constructor <;> linarith [na'.1, na'.2, ma.1, ma.2])
  have b1 : |b| ≤ 91 := bound b (by rw [abs_le]; constructor <;> linarith [nb'.1, nb'.2, mb.1, mb.2])
  obtain ⟨q, hq, eq⟩ := rowLat_near ha hb a1 b1 (i := 64) (by norm_num)
  refine ⟨s, e, q, hs, he, hq, ?_⟩
  have south : B ≤ -60 := by
    rw [← hB]
    unfold mercatorLat
    have h1 : √3 ≤ Real.sinh Real.pi := by
      have := (Real.self_le_sinh_iff (x := Real.pi)).mpr p0.le
      linarith
    have h2 := Real.arctan_strictMono.monotone h1
    rw [Real.arctan_sqrt_three] at h2
    have e : Real.pi * (1 - 2 * ((1 : Nat) : ℝ) / 2 ^ 0) = -Real.pi := by push_cast; ring
    rw [e, Real.sinh_neg, Real.arctan_neg]
    have : Real.pi / 3 * (180 / Real.pi) ≤ Real.arctan (Real.sinh Real.pi) * (180 / Real.pi) :=
      mul_le_mul_of_nonneg_right h2 (by positivity)
    have e2 : Real.pi / 3 * (180 / Real.pi) = 60 := by field_simp; norm_num
    linarith
  have north : 60 ≤ mercatorLat (64 / 256) 0 := by
    unfold mercatorLat
    have h1 : √3 ≤ Real.sinh (Real.pi / 2) := by
      have hm : Real.sinh (3 / 2) ≤ Real.sinh (Real.pi / 2) := by
        rw [Real.sinh_le_sinh]; linarith
      have h3 := Real.quadratic_le_exp_of_nonneg (show (0 : ℝ) ≤ 3 / 4 by norm_num)
      have h4 : Real.exp (3 / 2) = Real.exp (3 / 4) * Real.exp (3 / 4) := by rw [← Real.exp_add]; norm_num
      have h5 : (4 : ℝ) ≤ Real.exp (3 / 2) := by rw [h4]; nlinarith
      have h6 : Real.exp (-(3 / 2)) ≤ 1 / 4 := by
        rw [Real.exp_neg, ← one_div]
        exact div_le_div_of_nonneg_left (by norm_num) (by norm_num) h5
      have h7 : Real.sinh (3 / 2) = (Real.exp (3 / 2) - Real.exp (-(3 / 2))) / 2 := Real.sinh_eq _
      linarith
    have h2 := Real.arctan_strictMono.monotone h1
    rw [Real.arctan_sqrt_three] at h2
    have e : Real.pi * (1 - 2 * (64 / 256 : ℝ) / 2 ^ 0) = Real.pi / 2 := by norm_num; ring
    rw [e]
    have : Real.pi / 3 * (180 / Real.pi) ≤ Real.arctan (Real.sinh (Real.pi / 2)) * (180 / Real.pi) :=
      mul_le_mul_of_nonneg_right h2 (by positivity)
    have e2 : Real.pi / 3 * (180 / Real.pi) = 60 := by field_simp; norm_num
    linarith
  have eqR : |(q : ℝ) - (a + 64 * ((b - a) / 256))| ≤ 1 / 1000 := by
    have := (Rat.cast_le (K := ℝ)).mpr eq
    push_cast at this
    exact this
  have := (abs_le.mp eqR).2
  linarith [na'.2, nb'.2, ma.2]

/-- C77, the part that holds: every pixel row of every tile up to zoom level 23 is looked up within
0.005 + 300/4^zoom degrees of its Web Mercator latitude.  Missing: the second summand, which comes from
the linear interpolation and is what `C77_counterexample` exhibits at zoom level 0. -/
theorem C77_close_partial (m : Libm) (hm : Accurate m) {x y z i : Nat} (hz : z ≤ 23) (hy : y < 2 ^ z)
    (hi : i < 256) :
    ∃ start stop q, toPosition m ⟨x, y, z⟩ = .ok start ∧ toPosition m ⟨x + 1, y + 1, z⟩ = .ok stop ∧
      Fl.add f32 start.lat (Fl.mul f32 (Fl.ofNat f32 i) (Fl.div f32 (Fl.sub f32 stop.lat start.lat) (.fin 256)))
        = .fin q ∧ |(q : ℝ) - mercatorLat (y + i / 256) z| ≤ 1 / 200 + 300 / 4 ^ z := by
  obtain ⟨s, a, hs, ha, na⟩ := toPosition_lat (x := x) hm hz hy.le
  obtain ⟨e, b, he, hb, nb⟩ := toPosition_lat (x := x + 1) (y := y + 1) hm hz hy
  have p0 := Real.pi_pos
  have ma := abs_le.mp (mercator_bounds (y : ℝ) z)
  have mb := abs_le.mp (mercator_bounds ((y + 1 : Nat) : ℝ) z)
  have na' := abs_le.mp na
  have nb' := abs_le.mp nb
  have bound : ∀ q : Rat, |(q : ℝ)| ≤ 91 → |q| ≤ 91 := by
    intro q h
    have : ((|q| : Rat) : ℝ) ≤ ((91 : Rat) : ℝ) := by rw [Rat.cast_abs]; push_cast; exact h
    exact_mod_cast this
  have a1 : |a| ≤ 91 := bound a (by rw [abs_le]; constructor <;> linarith [na'.1, na'.2, ma.1, ma.2])
  have b1 : |b| ≤ 91 := bound b (by rw [abs_le]; constructor <;> linarith [nb'.1, nb'.2, mb.1, mb.2])
  obtain ⟨q, hq, eq⟩ := rowLat_near ha hb a1 b1 (i := i) (by omega)
  refine ⟨s, e, q, hs, he, hq, ?_⟩
  have eqR : |(q : ℝ) - (a + i * ((b - a) / 256))| ≤ 1 / 1000 := by
    have := (Rat.cast_le (K := ℝ)).mpr eq
    push_cast at this
    exact this
  have pz : (0 : ℝ) < 2 ^ z := by positivity
  set t : ℝ := i / 256 with ht
  have t0 : 0 ≤ t := by positivity
  have t1 : t ≤ 1 := by
    rw [ht, div_le_one (by norm_num)]; exact_mod_cast hi.le
  -- from south to north
  set lo : ℝ := Real.pi * (1 - 2 * (y + 1) / 2 ^ z) with hlo
  set hi' : ℝ := Real.pi * (1 - 2 * y / 2 ^ z) with hhi
  have hd : hi' - lo = 2 * Real.pi / 2 ^ z := by rw [hlo, hhi]; field_simp; ring
  have lt : lo < hi' := by have : 0 < hi' - lo := by rw [hd]; positivity
                           linarith
  have g := gd_interp lt (show 0 ≤ 1 - t by linarith) (show 1 - t ≤ 1 by linarith)
  have ex : lo + (1 - t) * (hi' - lo) = Real.pi * (1 - 2 * (y + t) / 2 ^ z) := by
    rw [hlo, hhi]; field_simp; ring
  rw [ex, hd] at g
  have g2 : (2 * Real.pi / 2 ^ z) ^ 2 / 8 = Real.pi ^ 2 / 2 / 4 ^ z := by
    rw [show (4 : ℝ) ^ z = (2 ^ z) ^ 2 by rw [← pow_mul, mul_comm, pow_mul]; norm_num]
    field_simp; ring
  rw [g2] at g
  have gm : |mercatorLat (y + t) z - (mercatorLat y z + t * (mercatorLat ((y + 1 : Nat) : ℝ) z - mercatorLat y z))|
      ≤ 300 / 4 ^ z := by
    have e1 : mercatorLat (y + t) z - (mercatorLat y z + t * (mercatorLat ((y + 1 : Nat) : ℝ) z - mercatorLat y z)) =
      (gd (Real.pi * (1 - 2 * (y + t) / 2 ^ z)) - (gd lo + (1 - t) * (gd hi' - gd lo))) * (180 / Real.pi) := by
      unfold mercatorLat gd
      rw [hlo, hhi]; push_cast; ring
    rw [e1, abs_mul, abs_of_pos (show 0 < 180 / Real.pi by positivity)]
    calc _ ≤ Real.pi ^ 2 / 2 / 4 ^ z * (180 / Real.pi) := mul_le_mul_of_nonneg_right g (by positivity)
      _ = 90 * Real.pi / 4 ^ z := by field_simp; ring
      _ ≤ 300 / 4 ^ z := by
        apply div_le_div_of_nonneg_right _ (by positivity)
        have := Real.pi_lt_d2
        linarith
  have e2 : (q : ℝ) - mercatorLat (y + t) z = (q - (a + i * ((b - a) / 256))) +
      ((1 - t) * (a - mercatorLat y z) + t * (b - mercatorLat ((y + 1 : Nat) : ℝ) z)) +
      -(mercatorLat (y + t) z - (mercatorLat y z + t * (mercatorLat ((y + 1 : Nat) : ℝ) z - mercatorLat y z))) := by
    rw [show (i : ℝ) * ((b - a) / 256) = t * (b - a) by rw [ht]; ring]; ring
  rw [e2]
  refine (abs_add_three _ _ _).trans ?_
  rw [abs_neg]
  have m1 : |(1 - t) * (a - mercatorLat y z) + t * (b - mercatorLat ((y + 1 : Nat) : ℝ) z)| ≤ 1 / 500 := by
    refine (abs_add_le _ _).trans ?_
    rw [abs_mul, abs_mul, abs_of_nonneg t0, abs_of_nonneg (show 0 ≤ 1 - t by linarith)]
    nlinarith
  linarith

/-- The hypotheses of both theorems can be met. -/
example : ∃ m : Libm, Accurate m := exists_accurate

example : (8 : Nat) ≤ 23 ∧ 90 < 2 ^ 8 ∧ 128 < 256 := by norm_num

end Verif.Props
