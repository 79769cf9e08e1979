import Verif.Props.Interp
import Verif.Props.Rows
import Verif.Props.Mercator
import Verif.Props.MapTile

/-!
# C122: every place of the area has its pixel
-/

namespace Verif.Props

open Verif MapTileRenderer MapTileCoord
open Verif.Spec (Accurate AccurateRow mercatorLat mercatorY mercatorLat_mercatorY)

/-- The Web Mercator longitude of pixel column `j` of tile column `x`. -/
def pixelLon (x z j : Nat) : Rat := 360 * (256 * x + j) / (256 * 2 ^ z) - 180

/-! ## Tile coordinates with fractions -/

/-- The column of a longitude is a rounded number that is near to the exact one. -/
theorem column_value {lon : Rat} (h0 : -180 ≤ lon) (h1 : lon ≤ 180) {z : Nat} (hz : z ≤ 10) :
    ∃ f : Rat, column (.fin lon) (.fin (2 ^ z)) = ⌊f⌋.toNat ∧ 0 ≤ f ∧ |f - (lon + 180) / 360 * 2 ^ z| ≤ 2 ^ z / 2 ^ 21 := by
  have p1 : (1 : Rat) ≤ 2 ^ z := one_le_pow₀ (by norm_num)
  have p2 : (2 : Rat) ^ z ≤ 2 ^ 10 := pow_le_pow_right₀ (by norm_num) hz
  obtain ⟨a, ha, ha', ea⟩ := rnd32_err_le (q := lon + 180) (B := 360) (by rw [abs_le]; constructor <;> linarith) (by norm_num)
  have a0 : 0 ≤ a := by rw [ha']; exact rndq_nonneg (by linarith)
  have ea := abs_le.mp ea
  have t : (1 : Rat) / 2 ^ 150 ≤ 1 / 2 ^ 30 := by norm_num
  have a1 : a ≤ 361 := by
    have : (360 : Rat) / 2 ^ 24 + 1 / 2 ^ 30 ≤ 1 := by norm_num
    linarith [ea.2]
  obtain ⟨b, hb, hb', eb⟩ := rnd32_err_le (q := a / 360) (B := 2)
    (by rw [abs_of_nonneg (by positivity), div_le_iff₀ (by norm_num)]; linarith) (by norm_num)
  have b0 : 0 ≤ b := by rw [hb']; exact rndq_nonneg (by positivity)
  have eb := abs_le.mp eb
  have b1 : b ≤ 2 := by
    have : (361 : Rat) / 360 + 2 / 2 ^ 24 + 1 / 2 ^ 30 ≤ 2 := by norm_num
    have : a / 360 ≤ 361 / 360 := by gcongr
    linarith [eb.2]
  obtain ⟨c, hc, hc', ec⟩ := rnd32_err_le (q := b * 2 ^ z) (B := 2 * 2 ^ z)
    (by rw [abs_of_nonneg (by positivity)]; gcongr) (by linarith [show (2 : Rat) * 2 ^ 10 ≤ 2 ^ 127 by norm_num])
  have c0 : 0 ≤ c := by rw [hc']; exact rndq_nonneg (by positivity)
  have ec := abs_le.mp ec
  have ebl : |b - (lon + 180) / 360| ≤ 4 / 2 ^ 24 := by
    have : (360 : Rat) / 2 ^ 24 / 360 + 1 / 2 ^ 30 / 360 + 2 / 2 ^ 24 + 1 / 2 ^ 30 ≤ 4 / 2 ^ 24 := by norm_num
    rw [abs_le]
    constructor <;> linarith [ea.1, ea.2, eb.1, eb.2]
  have ebl := abs_le.mp ebl
  have ebz : |b * 2 ^ z - (lon + 180) / 360 * 2 ^ z| ≤ 4 / 2 ^ 24 * 2 ^ z := by
    rw [← sub_mul, abs_mul, abs_of_nonneg (show (0 : Rat) ≤ 2 ^ z by positivity)]
    exact mul_le_mul_of_nonneg_right (abs_le.mpr ebl) (by positivity)
  have ebz := abs_le.mp ebz
  have key : |c - (lon + 180) / 360 * 2 ^ z| ≤ 2 ^ z / 2 ^ 21 := by
    have t2 : (1 : Rat) / 2 ^ 30 ≤ 2 ^ z / 2 ^ 30 := by gcongr
    have t3 : 4 / 2 ^ 24 * (2 : Rat) ^ z + 2 * 2 ^ z / 2 ^ 24 + 2 ^ z / 2 ^ 30 ≤ 2 ^ z / 2 ^ 21 := by
      have : (0 : Rat) ≤ 2 ^ z := by positivity
      norm_num
      linarith
    rw [abs_le]
    constructor <;> linarith [ec.1, ec.2, ebz.1, ebz.2]
  refine ⟨c, ?_, c0, key⟩
  unfold column
  show Fl.toU32 (Fl.floor (Fl.mul f32 (Fl.div f32 (rnd f32 _) _) _)) = _
  rw [ha, Fl.div_fin f32 _ (by norm_num), hb]
  show Fl.toU32 (Fl.floor (rnd f32 _)) = _
  rw [hc]
  simp only [Fl.floor, Fl.toU32, Fl.toUInt, Int.floor_intCast]
  have hcb : c < 2 ^ 31 := by
    have : 2 * (2 : Rat) ^ z / 2 ^ 24 ≤ 2 * 2 ^ 10 / 2 ^ 24 := by gcongr
    have : b * 2 ^ z ≤ 2 * 2 ^ 10 := by gcongr
    have : (2 : Rat) * 2 ^ 10 / 2 ^ 24 + 2 * 2 ^ 10 + 1 / 2 ^ 30 < 2 ^ 31 := by norm_num
    linarith [ec.2]
  have hfl : ⌊c⌋ < 2 ^ 31 := by rw [Int.floor_lt]; push_cast; exact hcb
  omega

/-- Among the tiles from `lo` to `hi` there is one with a pixel close to a coordinate. -/
theorem clamp_pixel {r ε : ℝ} {lo hi : Nat} (h : lo ≤ hi) (h0 : 0 ≤ r) (hε : 0 ≤ ε) (h1 : (lo : ℝ) ≤ r + ε)
    (h2 : r - ε < hi + 1) : ∃ k i : Nat, lo ≤ k ∧ k ≤ hi ∧ i < 256 ∧ |(k : ℝ) + i / 256 - r| ≤ 1 / 256 + ε := by
  have f0 : (0 : ℝ) ≤ ⌊r⌋₊ := by positivity
  have f1 : (⌊r⌋₊ : ℝ) ≤ r := Nat.floor_le h0
  have f2 : r < ⌊r⌋₊ + 1 := Nat.lt_floor_add_one r
  rcases Nat.lt_or_ge ⌊r⌋₊ lo with hlt | hge
  · refine ⟨lo, 0, le_refl _, h, by norm_num, ?_⟩
    have : ((⌊r⌋₊ + 1 : Nat) : ℝ) ≤ lo := by exact_mod_cast hlt
    push_cast at this ⊢
    rw [zero_div, add_zero, abs_le]
    constructor <;> linarith
  rcases Nat.lt_or_ge hi ⌊r⌋₊ with hlt' | hge'
  · refine ⟨hi, 255, h, le_refl _, by norm_num, ?_⟩
    have : ((hi + 1 : Nat) : ℝ) ≤ ⌊r⌋₊ := by exact_mod_cast hlt'
    push_cast at this ⊢
    rw [abs_le]
    constructor <;> linarith
  · set u := 256 * (r - ⌊r⌋₊) with hu
    have u0 : 0 ≤ u := by rw [hu]; linarith
    have u1 : u < 256 := by rw [hu]; linarith
    have g1 := Nat.floor_le u0
    have g2 := Nat.lt_floor_add_one u
    refine ⟨⌊r⌋₊, ⌊u⌋₊, hge, hge', ?_, ?_⟩
    · rw [Nat.floor_lt u0]; exact_mod_cast u1
    · rw [abs_le]
      constructor <;> linarith

/-! ## The pixel of a place -/

/-- A column of tiles and of pixels for a longitude of the extent. -/
theorem place_column {w e lon : Rat} (hw : -180 ≤ w) (h1 : w ≤ lon) (h2 : lon ≤ e) (he : e ≤ 1799 / 10) {z : Nat}
    (hz : z ≤ 10) : ∃ x j : Nat, column (.fin w) (.fin (2 ^ z)) ≤ x ∧ x ≤ column (.fin e) (.fin (2 ^ z)) ∧ x < 2 ^ z ∧
      j < 256 ∧ |pixelLon x z j - lon| ≤ 360 / (256 * 2 ^ z) + 1 / 1000 := by
  have p0 : (0 : Rat) < 2 ^ z := by positivity
  have p2 : (2 : Rat) ^ z ≤ 2 ^ 10 := pow_le_pow_right₀ (by norm_num) hz
  obtain ⟨a, ha, a0, ea⟩ := column_value hw (show w ≤ 180 by linarith) hz
  obtain ⟨b, hb, b0, eb⟩ := column_value (lon := e) (show -180 ≤ e by linarith) (by linarith) hz
  have mono : column (.fin w) (.fin (2 ^ z)) ≤ column (.fin e) (.fin (2 ^ z)) :=
    column_mono p0 (by rw [Fl.le_fin]; linarith)
  have ea := abs_le.mp ea
  have eb := abs_le.mp eb
  have ha' : (column (.fin w) (.fin (2 ^ z)) : Rat) ≤ a := by
    rw [ha]
    have h := Int.floor_le a
    have : ((⌊a⌋.toNat : Int) : Rat) = ⌊a⌋ := by rw [Int.toNat_of_nonneg (Int.floor_nonneg.mpr a0)]
    rw [← this] at h
    exact_mod_cast h
  have hb' : b < (column (.fin e) (.fin (2 ^ z)) : Rat) + 1 ∧ (column (.fin e) (.fin (2 ^ z)) : Rat) ≤ b := by
    rw [hb]
    have h := Int.lt_floor_add_one b
    have h' := Int.floor_le b
    have : ((⌊b⌋.toNat : Int) : Rat) = ⌊b⌋ := by rw [Int.toNat_of_nonneg (Int.floor_nonneg.mpr b0)]
    rw [← this] at h h'
    exact ⟨by exact_mod_cast h, by exact_mod_cast h'⟩
  have l1 : (w + 180) / 360 * 2 ^ z ≤ (lon + 180) / 360 * 2 ^ z := by gcongr
  have l2 : (lon + 180) / 360 * 2 ^ z ≤ (e + 180) / 360 * 2 ^ z := by gcongr
  have l0 : 0 ≤ (lon + 180) / 360 * 2 ^ z := mul_nonneg (div_nonneg (by linarith) (by norm_num)) p0.le
  obtain ⟨x, j, x1, x2, hj, hxj⟩ := clamp_pixel (r := (((lon + 180) / 360 * 2 ^ z : Rat) : ℝ))
    (ε := ((2 ^ z / 2 ^ 21 : Rat) : ℝ)) mono (by exact_mod_cast l0) (by exact_mod_cast (by positivity : (0 : Rat) ≤ 2 ^ z / 2 ^ 21))
    (by
      have : (column (.fin w) (.fin (2 ^ z)) : Rat) ≤ (lon + 180) / 360 * 2 ^ z + 2 ^ z / 2 ^ 21 := by linarith [ea.2]
      have := (Rat.cast_le (K := ℝ)).mpr this
      rwa [Rat.cast_add, Rat.cast_natCast] at this)
    (by
      have : (lon + 180) / 360 * 2 ^ z - 2 ^ z / 2 ^ 21 < (column (.fin e) (.fin (2 ^ z)) : Rat) + 1 := by
        linarith [eb.1, hb'.1]
      have := (Rat.cast_lt (K := ℝ)).mpr this
      rwa [Rat.cast_sub, Rat.cast_add, Rat.cast_natCast, Rat.cast_one] at this)
  refine ⟨x, j, x1, x2, ?_, hj, ?_⟩
  · have hx : (x : Rat) < 2 ^ z := by
      have c1 : (x : Rat) ≤ column (.fin e) (.fin (2 ^ z)) := by exact_mod_cast x2
      have c2 : (e + 180) / 360 * 2 ^ z ≤ (1799 / 10 + 180) / 360 * 2 ^ z := by gcongr
      have c3 : (1799 / 10 + 180) / 360 * (2 : Rat) ^ z + 2 ^ z / 2 ^ 21 < 2 ^ z := by
        norm_num
        linarith
      linarith [eb.2, hb'.2]
    exact_mod_cast hx
  · have hQ : |(x : Rat) + j / 256 - (lon + 180) / 360 * 2 ^ z| ≤ 1 / 256 + 2 ^ z / 2 ^ 21 := by
      have h := hxj
      rw [show (x : ℝ) + j / 256 - (((lon + 180) / 360 * 2 ^ z : Rat) : ℝ) =
        (((x : Rat) + j / 256 - (lon + 180) / 360 * 2 ^ z : Rat) : ℝ) by push_cast; ring, ← Rat.cast_abs,
        show (1 / 256 : ℝ) + ((2 ^ z / 2 ^ 21 : Rat) : ℝ) = ((1 / 256 + 2 ^ z / 2 ^ 21 : Rat) : ℝ) by push_cast; ring] at h
      exact_mod_cast h
    have e1 : pixelLon x z j - lon = ((x : Rat) + j / 256 - (lon + 180) / 360 * 2 ^ z) * (360 / 2 ^ z) := by
      unfold pixelLon
      field_simp
      ring
    rw [e1, abs_mul, abs_of_pos (show (0 : Rat) < 360 / 2 ^ z by positivity)]
    refine (mul_le_mul_of_nonneg_right hQ (by positivity)).trans ?_
    have e2 : (1 / 256 + (2 : Rat) ^ z / 2 ^ 21) * (360 / 2 ^ z) = 360 / (256 * 2 ^ z) + 360 / 2 ^ 21 := by
      field_simp
    rw [e2]
    have : (360 : Rat) / 2 ^ 21 ≤ 1 / 1000 := by norm_num
    linarith

theorem mercatorY_mono {a b : ℝ} (h0 : 0 ≤ a) (h1 : a ≤ b) (h2 : b ≤ 75) : mercatorY b ≤ mercatorY a := by
  have p := Real.pi_pos
  have ht : Real.tan (a * (Real.pi / 180)) ≤ Real.tan (b * (Real.pi / 180)) := by
    rcases h1.eq_or_lt with rfl | h1
    · rfl
    · exact (Real.tan_lt_tan_of_nonneg_of_lt_pi_div_two (by positivity) (by nlinarith) (by nlinarith)).le
  have := Real.arsinh_le_arsinh.mpr ht
  unfold mercatorY
  gcongr

theorem mercatorY_nonneg {a : ℝ} (h0 : 0 ≤ a) (h1 : a ≤ 75) : 0 ≤ mercatorY a := by
  have p1 := Real.pi_gt_d20
  have p2 := Real.pi_lt_d20
  have B0 : 0 ≤ a * (Real.pi / 180) := by positivity
  have B1 : a * (Real.pi / 180) ≤ 1311 / 1000 := by nlinarith
  have sb := slope_bounds B0 B1
  have G1 : Real.log (slope (a * (Real.pi / 180))) ≤ 208 / 100 := (Real.log_le_log (by linarith) sb.2).trans log8
  unfold mercatorY
  rw [arsinh_tan (by linarith [cos_lower B0 B1])]
  have : Real.log (slope (a * (Real.pi / 180))) / Real.pi ≤ 1 := by
    rw [div_le_one Real.pi_pos]
    linarith
  linarith

theorem mercatorLat_lip (a b : ℝ) (z : Nat) : |mercatorLat a z - mercatorLat b z| ≤ |a - b| * (360 / 2 ^ z) := by
  have p := Real.pi_pos
  have h := gd_lip (Real.pi * (1 - 2 * a / 2 ^ z)) (Real.pi * (1 - 2 * b / 2 ^ z))
  have e : mercatorLat a z - mercatorLat b z =
      (gd (Real.pi * (1 - 2 * a / 2 ^ z)) - gd (Real.pi * (1 - 2 * b / 2 ^ z))) * (180 / Real.pi) := by
    unfold mercatorLat gd; ring
  rw [e, abs_mul, abs_of_pos (show 0 < 180 / Real.pi by positivity)]
  refine (mul_le_mul_of_nonneg_right h (by positivity)).trans (le_of_eq ?_)
  have e2 : Real.pi * (1 - 2 * a / 2 ^ z) - Real.pi * (1 - 2 * b / 2 ^ z) = (a - b) * (-(2 * Real.pi / 2 ^ z)) := by ring
  rw [e2, abs_mul, abs_neg, abs_of_pos (show 0 < 2 * Real.pi / 2 ^ z by positivity)]
  field_simp
  ring

theorem place_row {m : Libm} (hm : AccurateRow m) {s n lat : Rat} (hs : 0 ≤ s) (h1 : s ≤ lat) (h2 : lat ≤ n) (hn : n ≤ 75)
    {z : Nat} (hz : z ≤ 10) : ∃ y i : Nat,
      min (row m (.fin s) (.fin (2 ^ z))) (row m (.fin n) (.fin (2 ^ z))) ≤ y ∧
      y ≤ max (row m (.fin s) (.fin (2 ^ z))) (row m (.fin n) (.fin (2 ^ z))) ∧ y < 2 ^ z ∧ i < 256 ∧
      |mercatorLat (y + i / 256) z - lat| ≤ 360 / (256 * 2 ^ z) + 1 / 1000 := by
  have p0 : (0 : ℝ) < 2 ^ z := by positivity
  have rowOf : ∀ q : Rat, 0 ≤ q → q ≤ 75 → (row m (.fin q) (.fin (2 ^ z)) : ℝ) ≤ 2 ^ z * (mercatorY q + 2 / 10 ^ 6) ∧
      2 ^ z * (mercatorY q - 2 / 10 ^ 6) < row m (.fin q) (.fin (2 ^ z)) + 1 := by
    intro q q0 q1
    obtain ⟨t, e, -, t1, t2⟩ := C103_row m hm q q0 q1 (.fin 0) z (by omega)
    unfold fromPosition at e
    rw [zoomPow_eq (by omega)] at e
    cases e
    exact ⟨t1, t2⟩
  obtain ⟨s1, s2⟩ := rowOf s hs (by linarith)
  obtain ⟨n1, n2⟩ := rowOf n (by linarith) hn
  have S0 : (0 : ℝ) ≤ s := by exact_mod_cast hs
  have L0 : (s : ℝ) ≤ lat := by exact_mod_cast h1
  have L1 : (lat : ℝ) ≤ n := by exact_mod_cast h2
  have N1 : (n : ℝ) ≤ 75 := by exact_mod_cast hn
  have m1 := mercatorY_mono S0 L0 (by linarith)
  have m2 := mercatorY_mono (by linarith) L1 N1
  have mz : mercatorY 0 = 1 / 2 := by unfold mercatorY; simp
  have m3 := mercatorY_mono (le_refl 0) S0 (by linarith)
  rw [mz] at m3
  have m4 := mercatorLat_mercatorY (lat := lat) (by linarith) (by linarith) z
  have r0 : (0 : ℝ) ≤ 2 ^ z * mercatorY lat := by
    exact mul_nonneg p0.le (mercatorY_nonneg (by linarith) (by linarith))
  obtain ⟨y, i, y1, y2, hi, hyi⟩ := clamp_pixel (r := 2 ^ z * mercatorY lat) (ε := 2 ^ z * (2 / 10 ^ 6))
    (lo := min (row m (.fin s) (.fin (2 ^ z))) (row m (.fin n) (.fin (2 ^ z))))
    (hi := max (row m (.fin s) (.fin (2 ^ z))) (row m (.fin n) (.fin (2 ^ z))))
    (min_le_max) r0 (by positivity)
    (by
      have h : ((min (row m (.fin s) (.fin (2 ^ z))) (row m (.fin n) (.fin (2 ^ z))) : Nat) : ℝ) ≤
        row m (.fin n) (.fin (2 ^ z)) := by exact_mod_cast min_le_right _ _
      have := mul_le_mul_of_nonneg_left m2 p0.le
      linarith)
    (by
      have h : (row m (.fin s) (.fin (2 ^ z)) : ℝ) ≤
        ((max (row m (.fin s) (.fin (2 ^ z))) (row m (.fin n) (.fin (2 ^ z))) : Nat) : ℝ) := by exact_mod_cast le_max_left _ _
      have := mul_le_mul_of_nonneg_left m1 p0.le
      linarith)
  refine ⟨y, i, y1, y2, ?_, hi, ?_⟩
  · have hy : (y : ℝ) < 2 ^ z := by
      have a : (y : ℝ) ≤ ((max (row m (.fin s) (.fin (2 ^ z))) (row m (.fin n) (.fin (2 ^ z))) : Nat) : ℝ) := by
        exact_mod_cast y2
      have b1 : 2 ^ z * (mercatorY s + 2 / 10 ^ 6) < (2 : ℝ) ^ z := by nlinarith
      have b2 : 2 ^ z * (mercatorY n + 2 / 10 ^ 6) < (2 : ℝ) ^ z := by nlinarith
      refine lt_of_le_of_lt a ?_
      rw [Nat.cast_max]
      exact max_lt (by linarith) (by linarith)
    exact_mod_cast hy
  · rw [← m4]
    refine (mercatorLat_lip _ _ z).trans ?_
    refine (mul_le_mul_of_nonneg_right hyi (by positivity)).trans ?_
    have e2 : (1 / 256 + (2 : ℝ) ^ z * (2 / 10 ^ 6)) * (360 / 2 ^ z) = 360 / (256 * 2 ^ z) + 360 * (2 / 10 ^ 6) := by
      field_simp
    rw [e2]
    norm_num

/-- C122: every place of the extent has its pixel.  For each latitude and longitude of the extent and each zoom level there
is a tile among those that are needed, on the map, and a pixel of it whose place on the Web Mercator map is the given one
up to the size of one pixel and a thousandth of a degree. -/
theorem C122_place (m : Libm) (hm : AccurateRow m) (south west north east lat lon : Rat) (h0 : 0 ≤ south)
    (h1 : south ≤ lat) (h2 : lat ≤ north) (h3 : north ≤ 75) (h4 : -180 ≤ west) (h5 : west ≤ lon) (h6 : lon ≤ east)
    (h7 : east ≤ 1799 / 10) (zooms : Nat × Nat) (z : Nat) (hz0 : zooms.1 ≤ z) (hz1 : z ≤ zooms.2) (hz : z ≤ 10) :
    ∃ t : MapTileCoord, t.zoom = z ∧ Needed m (finExtent south west north east) zooms t ∧ t.x < 2 ^ z ∧ t.y < 2 ^ z ∧
      ∃ i j : Nat, i < 256 ∧ j < 256 ∧ |pixelLon t.x z j - lon| ≤ 360 / (256 * 2 ^ z) + 1 / 1000 ∧
        |mercatorLat (t.y + i / 256) z - lat| ≤ 360 / (256 * 2 ^ z) + 1 / 1000 := by
  obtain ⟨x, j, x1, x2, x3, hj, ex⟩ := place_column h4 h5 h6 h7 hz
  obtain ⟨y, i, y1, y2, y3, hi, ey⟩ := place_row hm h0 h1 h2 h3 hz
  have hw : ∀ p : LatLon, fromPosition m p z = .ok ⟨column p.lon (.fin (2 ^ z)), row m p.lat (.fin (2 ^ z)), z⟩ := by
    intro p
    unfold fromPosition
    rw [zoomPow_eq (by omega)]
    rfl
  refine ⟨⟨x, y, z⟩, rfl, ⟨hz0, hz1, _, _, hw _, hw _, ?_, ?_, y1, y2⟩, x3, y3, i, j, hi, hj, ex, ey⟩
  · exact (min_le_left _ _).trans x1
  · exact x2.trans (le_max_right _ _)

/-- Berne on the area of the ICON-D2 model at zoom level 7. -/
example (m : Libm) (hm : AccurateRow m) : ∃ t : MapTileCoord, t.zoom = 7 ∧
    Needed m (finExtent (4318 / 100) (-394 / 100) (5808 / 100) (2034 / 100)) (0, 7) t ∧ t.x < 2 ^ 7 ∧ t.y < 2 ^ 7 ∧
      ∃ i j : Nat, i < 256 ∧ j < 256 ∧ |pixelLon t.x 7 j - 744 / 100| ≤ 360 / (256 * 2 ^ 7) + 1 / 1000 ∧
        |mercatorLat (t.y + i / 256) 7 - ((4695 / 100 : Rat) : ℝ)| ≤ 360 / (256 * 2 ^ 7) + 1 / 1000 :=
  C122_place m hm _ _ _ _ (4695 / 100) (744 / 100) (by norm_num) (by norm_num) (by norm_num) (by norm_num) (by norm_num)
    (by norm_num) (by norm_num) (by norm_num) (0, 7) 7 (by norm_num) (by norm_num) (by norm_num)

example : ∃ m, AccurateRow m := Verif.Spec.exists_accurateRow

end Verif.Props
