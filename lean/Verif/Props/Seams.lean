import Mathlib.Analysis.Complex.ExponentialBounds
import Verif.Props.Mercator
import Verif.Props.MapTile

/-!
# Property C187: the tiles of a zoom level are parts of one picture
-/

namespace Verif.Props

open Verif Verif.MapTileCoord MapTileRenderer
open Verif.Spec (mercatorLat Accurate exists_accurate)

/-! ## Distances between the edges of tiles -/

theorem cosh_pi_le {x : ℝ} (h : |x| ≤ Real.pi) : Real.cosh x ≤ 28 := by
  have p := Real.pi_lt_d2
  have e1 : Real.exp |x| ≤ Real.exp 4 := Real.exp_le_exp.mpr (by linarith)
  have e4 : Real.exp 4 = Real.exp 1 ^ 4 := by rw [← Real.exp_nat_mul]; norm_num
  have e2 : Real.exp 1 ^ 4 ≤ 2.7182818286 ^ 4 := pow_le_pow_left₀ (Real.exp_pos 1).le Real.exp_one_lt_d9.le 4
  have e3 : Real.exp (-|x|) ≤ 1 := Real.exp_le_one_iff.mpr (by linarith [abs_nonneg x])
  rw [← Real.cosh_abs, Real.cosh_eq]
  norm_num at e2
  linarith

theorem gd_gap {a b : ℝ} (ha : |a| ≤ Real.pi) (hb : |b| ≤ Real.pi) (h : b ≤ a) : 1 / 28 * (a - b) ≤ gd a - gd b := by
  have hd : ∀ x, deriv gd x = (Real.cosh x)⁻¹ := fun x => (gd_hasDeriv x).deriv
  refine (convex_Icc (-Real.pi) Real.pi).mul_sub_le_image_sub_of_le_deriv (f := gd)
    (fun x _ => (gd_hasDeriv x).continuousAt.continuousWithinAt)
    (fun x _ => (gd_hasDeriv x).differentiableAt.differentiableWithinAt) (fun x hx => ?_) b (abs_le.mp hb) a (abs_le.mp ha) h
  rw [hd, one_div]
  have hx' : x ∈ Set.Icc (-Real.pi) Real.pi := interior_subset hx
  exact inv_anti₀ (Real.cosh_pos x) (cosh_pi_le (abs_le.mpr hx'))

/-- The edges of a tile up to zoom level 10 are at least 0.0125 degrees apart. -/
theorem mercator_gap {y z : Nat} (hz : z ≤ 10) (hy : y < 2 ^ z) :
    125 / 10000 ≤ mercatorLat y z - mercatorLat ((y + 1 : Nat) : ℝ) z := by
  have p := Real.pi_pos
  have pz : (0 : ℝ) < 2 ^ z := by positivity
  have pz2 : (2 : ℝ) ^ z ≤ 1024 := by
    calc (2 : ℝ) ^ z ≤ 2 ^ 10 := pow_le_pow_right₀ (by norm_num) hz
      _ = 1024 := by norm_num
  have arg : ∀ k : Nat, k ≤ 2 ^ z → |Real.pi * (1 - 2 * (k : ℝ) / 2 ^ z)| ≤ Real.pi := by
    intro k hk
    have hk' : (k : ℝ) ≤ 2 ^ z := by exact_mod_cast hk
    have h1 : (k : ℝ) / 2 ^ z ≤ 1 := (div_le_one pz).mpr hk'
    have h2 : 0 ≤ (k : ℝ) / 2 ^ z := by positivity
    rw [abs_mul, abs_of_pos p]
    have : |1 - 2 * (k : ℝ) / 2 ^ z| ≤ 1 := by
      rw [mul_div_assoc, abs_le]; constructor <;> linarith
    nlinarith
  have hd : Real.pi * (1 - 2 * (y : ℝ) / 2 ^ z) - Real.pi * (1 - 2 * ((y + 1 : Nat) : ℝ) / 2 ^ z) = 2 * Real.pi / 2 ^ z := by
    push_cast; field_simp; ring
  have g := gd_gap (arg y hy.le) (arg (y + 1) hy) (by
    have : 0 < 2 * Real.pi / 2 ^ z := by positivity
    linarith)
  rw [hd] at g
  have e : mercatorLat y z - mercatorLat ((y + 1 : Nat) : ℝ) z =
      (gd (Real.pi * (1 - 2 * (y : ℝ) / 2 ^ z)) - gd (Real.pi * (1 - 2 * ((y + 1 : Nat) : ℝ) / 2 ^ z))) * (180 / Real.pi) := by
    unfold mercatorLat gd; ring
  rw [e]
  refine le_trans ?_ (mul_le_mul_of_nonneg_right g (by positivity))
  have : 1 / 28 * (2 * Real.pi / 2 ^ z) * (180 / Real.pi) = 360 / 28 / 2 ^ z := by field_simp; norm_num
  rw [this, le_div_iff₀ pz]
  linarith

/-! ## Rounding of rows -/

/-- Rows are placed linearly, up to an error that is small compared with their distance. -/
theorem row_near {a b : Rat} (a1 : |a| ≤ 91) (b1 : |b| ≤ 91) (hd : 8 / 1000 ≤ a - b) {i : Nat} (hi : i ≤ 256) :
    ∃ q : Rat, pixelPos (.fin a) (.fin b) i = .fin q ∧ |q - (a - i * ((a - b) / 256))| ≤ (a - b) * (4 / 10 ^ 7) + 6 / 10 ^ 6 ∧
      (i = 0 → |q - a| ≤ 6 / 10 ^ 6) := by
  have hi' : (i : Rat) ≤ 256 := by exact_mod_cast hi
  have i0 : (0 : Rat) ≤ i := by positivity
  have a1' := abs_le.mp a1
  have b1' := abs_le.mp b1
  obtain ⟨D, hD⟩ : ∃ D, D = a - b := ⟨_, rfl⟩
  have D0 : 8 / 1000 ≤ D := by rw [hD]; exact hd
  have D1 : D ≤ 182 := by linarith [a1'.2, b1'.1]
  have n0 : |b - a| = D := by rw [abs_sub_comm, abs_of_nonneg (by linarith), hD]
  have tiny : (1 : Rat) / 2 ^ 150 ≤ D / 10 ^ 12 := by
    have : (1 : Rat) / 2 ^ 150 ≤ 8 / 1000 / 10 ^ 12 := by norm_num
    linarith
  obtain ⟨d, ed, -, xd⟩ := rnd32_err (q := b - a) (by rw [n0]; exact D1.trans (by norm_num))
  rw [n0] at xd
  have xd' := abs_le.mp (xd.trans (show _ ≤ D / 10 ^ 7 by norm_num at tiny ⊢; linarith))
  have d1 : |d / 256| ≤ D / 255 := by rw [abs_le]; constructor <;> linarith [xd'.1, xd'.2]
  obtain ⟨c, ec, -, xc⟩ := rnd32_err (q := d / 256) (by
    have : D / 255 ≤ 2 ^ 127 := by norm_num; linarith
    linarith)
  have xc' := abs_le.mp (xc.trans (show _ ≤ D / 255 / 10 ^ 7 by norm_num at tiny ⊢; linarith))
  have c1 : |c| ≤ D / 250 := by rw [abs_le]; constructor <;> linarith [xd'.1, xd'.2, xc'.1, xc'.2]
  have m1 : |i * c| ≤ D * 2 := by
    rw [abs_mul, abs_of_nonneg i0]
    have := mul_le_mul hi' c1 (abs_nonneg c) (by norm_num)
    linarith
  obtain ⟨k, ek, -, xk⟩ := rnd32_err (q := i * c) (by
    have : D * 2 ≤ 2 ^ 127 := by norm_num; linarith
    linarith)
  have m2 : |i * c| ≤ D * (256 / 250) := by
    rw [abs_mul, abs_of_nonneg i0]
    have := mul_le_mul hi' c1 (abs_nonneg c) (by norm_num)
    linarith
  generalize |(i : Rat) * c| = w at xk m2
  have xk' := abs_le.mp (xk.trans (show _ ≤ D / 10 ^ 7 by norm_num at tiny ⊢; linarith))
  have t1 : |i * (c - d / 256)| ≤ 256 * (D / 255 / 10 ^ 7) := by
    rw [abs_mul, abs_of_nonneg i0]
    exact mul_le_mul hi' (abs_le.mpr xc') (abs_nonneg _) (by norm_num)
  have t2 : |i * ((d - (b - a)) / 256)| ≤ 256 * (D / 10 ^ 7 / 256) := by
    rw [abs_mul, abs_of_nonneg i0, abs_div, abs_of_pos (show (0 : Rat) < 256 by norm_num)]
    exact mul_le_mul hi' (div_le_div_of_nonneg_right (abs_le.mpr xd') (by norm_num)) (by positivity) (by norm_num)
  have t1' := abs_le.mp t1
  have t2' := abs_le.mp t2
  have ident : k - -(i * (D / 256)) = (k - i * c) + i * (c - d / 256) + i * ((d - (b - a)) / 256) := by rw [hD]; ring
  have kerr : |k - -(i * (D / 256))| ≤ D * (4 / 10 ^ 7) := by
    rw [ident, abs_le]
    constructor <;> linarith [xk'.1, xk'.2, t1'.1, t1'.2, t2'.1, t2'.2]
  have kerr' := abs_le.mp kerr
  have f0 : 0 ≤ i * (D / 256) := by positivity
  have f1 : i * (D / 256) ≤ D := by
    have := mul_le_mul_of_nonneg_right hi' (show 0 ≤ D / 256 by positivity)
    linarith
  have s1 : |a + k| ≤ 92 := by rw [abs_le]; constructor <;> linarith [a1'.1, a1'.2, b1'.1, b1'.2, kerr'.1, kerr'.2]
  obtain ⟨q, eq, -, xq⟩ := rnd32_err_le s1 (by norm_num)
  have xq' := abs_le.mp (xq.trans (show _ ≤ (6 / 10 ^ 6 : Rat) by norm_num))
  refine ⟨q, ?_, ?_, ?_⟩
  · have e0 : Fl.ofNat f32 i = .fin i := rnd32_nat (by omega)
    have e0' : Fl.ofNat f32 tileSizePx = .fin 256 := by
      have := rnd32_nat (n := 256) (by norm_num)
      exact_mod_cast this
    unfold pixelPos
    rw [e0, e0', Fl.sub_fin, ed, Fl.div_fin f32 _ (by norm_num), ec, Fl.mul_fin, ek, Fl.add_fin, eq]
  · rw [← hD, abs_le]
    constructor <;> linarith [xq'.1, xq'.2, kerr'.1, kerr'.2]
  · rintro rfl
    have k0 : k = 0 := by
      have h : rnd f32 ((0 : Nat) * c) = .fin 0 := by rw [Nat.cast_zero, zero_mul]; exact rnd_zero f32
      rw [h] at ek
      cases ek; rfl
    rw [k0] at xq'
    rw [abs_le]
    constructor <;> linarith [xq'.1, xq'.2]

/-! ## C187 -/

/-- The latitude of the upper edge of a row of tiles. -/
theorem edge {m : Libm} (hm : Accurate m) {y z : Nat} (hz : z ≤ 10) (hy : y ≤ 2 ^ z) :
    ∃ a : Rat, latitude m y (.fin (2 ^ z)) = .fin a ∧ |a| ≤ 91 ∧ |(a : ℝ) - mercatorLat y z| ≤ 1 / 500 := by
  obtain ⟨a, h1, h2⟩ := latitude_near hm (show z ≤ 23 by omega) hy
  refine ⟨a, h1, ?_, h2⟩
  have h3 := abs_le.mp h2
  have h4 := abs_le.mp (mercator_bounds (y : ℝ) z)
  have : |(a : ℝ)| ≤ 91 := by rw [abs_le]; constructor <;> linarith [h3.1, h3.2, h4.1, h4.2]
  have h : ((|a| : Rat) : ℝ) ≤ ((91 : Rat) : ℝ) := by rw [Rat.cast_abs]; push_cast; exact this
  exact_mod_cast h

/-- The latitude of a pixel row, counted from the top of the map. -/
def rowOfMap (m : Libm) (z r : Nat) : Fl :=
  pixelPos (latitude m (r / 256) (.fin (2 ^ z))) (latitude m (r / 256 + 1) (.fin (2 ^ z))) (r % 256)

theorem rowOfMap_next {m : Libm} (hm : Accurate m) {z r : Nat} (hz : z ≤ 10) (hr : r + 1 < 256 * 2 ^ z) :
    ∃ q q' : Rat, rowOfMap m z r = .fin q ∧ rowOfMap m z (r + 1) = .fin q' ∧ q' < q := by
  have gap : ∀ {y : Nat} {a b : Rat}, y < 2 ^ z → |(a : ℝ) - mercatorLat y z| ≤ 1 / 500 →
      |(b : ℝ) - mercatorLat ((y + 1 : Nat) : ℝ) z| ≤ 1 / 500 → 8 / 1000 ≤ a - b := by
    intro y a b hy ha hb
    have g := mercator_gap hz hy
    have ha' := abs_le.mp ha
    have hb' := abs_le.mp hb
    have : ((8 / 1000 : Rat) : ℝ) ≤ ((a - b : Rat) : ℝ) := by push_cast; linarith [ha'.1, ha'.2, hb'.1, hb'.2]
    exact_mod_cast this
  have hy : r / 256 < 2 ^ z := by omega
  obtain ⟨a, ea, a1, na⟩ := edge hm hz hy.le
  obtain ⟨b, eb, b1, nb⟩ := edge hm hz (show r / 256 + 1 ≤ 2 ^ z from hy)
  have hd := gap hy na nb
  have hi : r % 256 < 256 := Nat.mod_lt _ (by norm_num)
  obtain ⟨q, eq, xq, -⟩ := row_near a1 b1 hd (i := r % 256) hi.le
  have xq' := abs_le.mp xq
  by_cases hw : r % 256 = 255
  · have e1 : (r + 1) / 256 = r / 256 + 1 := by omega
    have e2 : (r + 1) % 256 = 0 := by omega
    have hy' : r / 256 + 1 < 2 ^ z := by omega
    obtain ⟨c, ec, c1, nc⟩ := edge hm hz (show r / 256 + 1 + 1 ≤ 2 ^ z from hy')
    obtain ⟨q', eq', -, xq0⟩ := row_near b1 c1 (gap hy' nb nc) (i := 0) (by norm_num)
    have x0 := abs_le.mp (xq0 rfl)
    refine ⟨q, q', ?_, ?_, ?_⟩
    · unfold rowOfMap; rw [ea, eb, eq]
    · unfold rowOfMap; rw [e1, e2, eb, ec, eq']
    · rw [hw] at xq'
      push_cast at xq'
      linarith [xq'.1, x0.2]
  · have e1 : (r + 1) / 256 = r / 256 := by omega
    have e2 : (r + 1) % 256 = r % 256 + 1 := by omega
    obtain ⟨q', eq', xq0, -⟩ := row_near a1 b1 hd (i := r % 256 + 1) (by omega)
    have x0 := abs_le.mp xq0
    refine ⟨q, q', ?_, ?_, ?_⟩
    · unfold rowOfMap; rw [ea, eb, eq]
    · unfold rowOfMap; rw [e1, e2, ea, eb, eq']
    · push_cast at x0
      linarith [xq'.1, x0.2]

theorem rowOfMap_fin {m : Libm} (hm : Accurate m) {z r : Nat} (hz : z ≤ 10) (hr : r < 256 * 2 ^ z) :
    ∃ q : Rat, rowOfMap m z r = .fin q := by
  by_cases h : r + 1 < 256 * 2 ^ z
  · obtain ⟨q, _, h, _⟩ := rowOfMap_next hm hz h
    exact ⟨q, h⟩
  · obtain ⟨k, rfl⟩ : ∃ k, r = k + 1 := ⟨r - 1, by have := Nat.one_le_two_pow (n := z); omega⟩
    obtain ⟨_, q, _, h, _⟩ := rowOfMap_next hm hz hr
    exact ⟨q, h⟩

theorem rowOfMap_strict {m : Libm} (hm : Accurate m) {z r : Nat} (hz : z ≤ 10) :
    ∀ n, r + n + 1 < 256 * 2 ^ z → ∀ q q' : Rat, rowOfMap m z r = .fin q → rowOfMap m z (r + n + 1) = .fin q' → q' < q := by
  intro n
  induction n with
  | zero =>
    intro h q q' h1 h2
    obtain ⟨u, u', e1, e2, hu⟩ := rowOfMap_next hm hz h
    rw [h1] at e1; rw [h2] at e2
    cases e1; cases e2
    exact hu
  | succ n ih =>
    intro h q q' h1 h2
    obtain ⟨u, u', e1, e2, hu⟩ := rowOfMap_next hm hz (r := r + n + 1) (by omega)
    have e2' : rowOfMap m z (r + (n + 1) + 1) = .fin u' := e2
    rw [h2] at e2'
    cases e2'
    exact hu.trans (ih (by omega) q u h1 e1)

/-- C187: the tiles of a zoom level are parts of one picture of the world. There is one latitude for each of its rows and one
longitude for each of its columns, and the pixel of any tile in this row and column shows the value at this place. The
columns are equally spaced, also from one tile to the next one, and each row is south of the rows above it, also those of the
tiles above. -/
theorem C187_one_picture (m : Libm) (hm : Accurate m) (z : Nat) (hz : z ≤ 10) : ∃ lat lon : Nat → Rat,
    (∀ k, lon k = 360 * k / (256 * 2 ^ z) - 180) ∧
    (∀ r r', r < r' → r' < 256 * 2 ^ z → lat r' < lat r) ∧
    ∀ (T : Type) (valueFn : LatLon → Res (Option T)) (v : LatLon → Option T) (_ : ∀ p, valueFn p = .ok (v p))
      (colorFn : T → Color) (x y : Nat), x < 2 ^ z → y < 2 ^ z → ∃ d, createSingleTile m valueFn ⟨x, y, z⟩ colorFn = .ok d ∧
      d.width = 256 ∧ d.height = 256 ∧ ∀ i j, i < 256 → j < 256 → d.pixel j i =
        some (match v (LatLon.new (.fin (lat (256 * y + i))) (.fin (lon (256 * x + j)))) with
          | some a => colorFn a
          | none => Color.transparent) := by
  classical
  refine ⟨fun r => if h : r < 256 * 2 ^ z then (rowOfMap_fin hm hz h).choose else 0,
    fun k => 360 * k / (256 * 2 ^ z) - 180, fun _ => rfl, fun r r' h h' => ?_, ?_⟩
  · simp only [h', h.trans h', dif_pos]
    obtain ⟨n, rfl⟩ : ∃ n, r' = r + n + 1 := ⟨r' - r - 1, by omega⟩
    exact rowOfMap_strict hm hz n h' _ _ (rowOfMap_fin hm hz (h.trans h')).choose_spec (rowOfMap_fin hm hz h').choose_spec
  · intro T valueFn v hv colorFn x y hx hy
    have hz2 : (2 : Nat) ^ z ≤ 2 ^ 10 := Nat.pow_le_pow_right (by norm_num) hz
    obtain ⟨start, stop, d, e1, e2, e3, -, w, h, px⟩ := C33_tile m ⟨x, y, z⟩ (by show z ≤ 31; omega)
      (by show x + 1 < 2 ^ 32; omega) (by show y + 1 < 2 ^ 32; omega) valueFn v hv colorFn
    refine ⟨d, e3, w, h, fun i j hi hj => ?_⟩
    rw [px i j hi hj]
    unfold toPosition at e1 e2
    rw [zoomPow_eq (show z ≤ 31 by omega)] at e1 e2
    cases e1
    cases e2
    have e256 : Fl.ofNat f32 tileSizePx = .fin 256 := by
      have := rnd32_nat (n := 256) (by norm_num)
      exact_mod_cast this
    have hr : 256 * y + i < 256 * 2 ^ z := by omega
    have f1 : (256 * y + i) / 256 = y := by omega
    have f2 : (256 * y + i) % 256 = i := by omega
    have hlat := (rowOfMap_fin hm hz hr).choose_spec
    simp only [hr, dif_pos]
    rw [← hlat]
    have hlon := pixelPos_lon hz hx hj
    unfold rowOfMap pixelPos at *
    rw [e256] at *
    simp only [f1, f2]
    rw [longitude_eq (by omega) hx.le, longitude_eq (by omega) (show x + 1 ≤ 2 ^ z from hx), hlon]
    push_cast
    rfl

/-- C187 for what is saved: the pixels of all saved tiles of a zoom level are pixels of one picture. -/
theorem C187_saved {T : Type} (m : Libm) (hm : Accurate m) (e : LatLonExtent) (zooms : Nat × Nat)
    (valueFn : LatLon → Res (Option T)) (v : LatLon → Option T) (hv : ∀ p, valueFn p = .ok (v p)) (colorFn : T → Color)
    (trace : List Saved) (o : Outcome) (h : runAllTiles m e zooms valueFn colorFn trace o) (z : Nat) (hz : z ≤ 10) :
    ∃ (picture : Nat → Nat → Color), ∀ s ∈ trace, s.tile.zoom = z → s.tile.x < 2 ^ z → s.tile.y < 2 ^ z →
      ∀ i j, i < 256 → j < 256 → s.picture.pixel j i = some (picture (256 * s.tile.x + j) (256 * s.tile.y + i)) := by
  obtain ⟨lat, lon, -, -, key⟩ := C187_one_picture m hm z hz
  refine ⟨fun k r => match v (LatLon.new (.fin (lat r)) (.fin (lon k))) with
    | some a => colorFn a
    | none => Color.transparent, fun s hs hsz hx hy i j hi hj => ?_⟩
  obtain ⟨d, hd, -, -, px⟩ := key T valueFn v hv colorFn s.tile.x s.tile.y hx hy
  have hp := (C32_no_wrong_tile m e zooms valueFn colorFn trace o h).2.2 s hs
  have et : s.tile = ⟨s.tile.x, s.tile.y, z⟩ := by rw [← hsz]
  rw [et] at hp
  rw [hp] at hd
  cases hd
  exact px i j hi hj

/-- The last column of a tile and the first one of its neighbour are as far apart as any two columns. -/
example : ∃ m : Libm, Accurate m ∧ ∃ lat lon : Nat → Rat, lon 256 - lon 255 = lon 1 - lon 0 ∧ lat 256 < lat 255 ∧
    lat 255 < lat 254 := by
  obtain ⟨m, hm⟩ := exists_accurate
  obtain ⟨lat, lon, h1, h2, -⟩ := C187_one_picture m hm 3 (by norm_num)
  refine ⟨m, hm, lat, lon, ?_, h2 _ _ (by norm_num) (by norm_num), h2 _ _ (by norm_num) (by norm_num)⟩
  rw [h1, h1, h1, h1]
  norm_num

end Verif.Props
