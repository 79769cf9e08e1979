import Verif.Lemmas.MercatorRow
import Verif.Props.CanDraw

/-!
# C103: the row of the tile of a position
-/

namespace Verif.Props

open Verif Verif.MapTileCoord
open Verif.Spec (mercatorY AccurateRow exists_accurateRow mercatorLat)

/-- C103: from the equator to 75 degrees north, the position is within two millionths of the height of the map of the
row of its tile, whatever accurate library is used. -/
theorem C103_row (m : Libm) (hm : AccurateRow m) (lat : Rat) (h0 : 0 ≤ lat) (h1 : lat ≤ 75) (lon : Fl) (z : Nat)
    (hz : z ≤ 31) :
    ∃ t, fromPosition m ⟨.fin lat, lon⟩ z = .ok t ∧ t.zoom = z ∧
      (t.y : ℝ) ≤ 2 ^ z * (mercatorY lat + 2 / 10 ^ 6) ∧ 2 ^ z * (mercatorY lat - 2 / 10 ^ 6) < t.y + 1 := by
  obtain ⟨f, hf, f0, f1, f2⟩ := row_value hm h0 h1 hz
  refine ⟨_, by unfold fromPosition; rw [zoomPow_eq hz]; rfl, rfl, ?_⟩
  simp only [hf]
  have z1 : (2 : ℝ) ^ z ≤ 2 ^ 31 := pow_le_pow_right₀ (by norm_num) hz
  have fl0 : 0 ≤ ⌊f⌋ := Int.floor_nonneg.mpr f0
  have small : ⌊f⌋.toNat ≤ 2 ^ 32 - 1 := by
    have : f ≤ 2 ^ 31 := by
      have : (f : ℝ) ≤ ((2 ^ 31 : Rat) : ℝ) := by
        push_cast
        norm_num at z1 ⊢
        linarith
      exact_mod_cast this
    have := Int.floor_le_floor this
    have e : ⌊(2 ^ 31 : Rat)⌋ = 2 ^ 31 := by norm_num
    rw [e] at this
    omega
  rw [min_eq_left small]
  have c : ((⌊f⌋.toNat : ℕ) : ℝ) = ((⌊f⌋ : ℤ) : ℝ) := by
    have : ((⌊f⌋.toNat : ℤ)) = ⌊f⌋ := Int.toNat_of_nonneg fl0
    exact_mod_cast this
  rw [c]
  have l1 : ((⌊f⌋ : ℤ) : ℝ) ≤ f := by
    have := Int.floor_le f
    exact_mod_cast this
  have l2 : (f : ℝ) < (⌊f⌋ : ℤ) + 1 := by
    have := Int.lt_floor_add_one f
    exact_mod_cast this
  have f1' := abs_le.mp f1
  rw [mul_add, mul_sub]
  constructor <;> linarith [f1'.1, f1'.2]

/-- C103: a position that is not that close to the upper or lower edge of its tile gets the right row. -/
theorem C103_exact (m : Libm) (hm : AccurateRow m) (lat : Rat) (h0 : 0 ≤ lat) (h1 : lat ≤ 75) (lon : Fl) (z : Nat)
    (hz : z ≤ 31) (r : Nat) (hr : (r : ℝ) ≤ 2 ^ z * (mercatorY lat - 2 / 10 ^ 6))
    (hr' : 2 ^ z * (mercatorY lat + 2 / 10 ^ 6) < r + 1) :
    ∃ t, fromPosition m ⟨.fin lat, lon⟩ z = .ok t ∧ t.y = r := by
  obtain ⟨t, e, -, t1, t2⟩ := C103_row m hm lat h0 h1 lon z hz
  refine ⟨t, e, ?_⟩
  have a : (t.y : ℝ) < r + 1 := by linarith
  have b : (r : ℝ) < t.y + 1 := by linarith
  have a' : t.y < r + 1 := by exact_mod_cast a
  have b' : r < t.y + 1 := by exact_mod_cast b
  omega

/-- The hypotheses can be met: at zoom level 1, every latitude from 1 to 75 degrees is in row 0. -/
example : ∃ m : Libm, AccurateRow m ∧ ∀ lat : Rat, 1 ≤ lat → lat ≤ 75 →
    ∃ t, fromPosition m ⟨.fin lat, .fin 8⟩ 1 = .ok t ∧ t.y = 0 := by
  obtain ⟨m, hm⟩ := exists_accurateRow
  refine ⟨m, hm, fun lat h0 h1 => C103_exact m hm lat (by linarith) h1 _ 1 (by norm_num) 0 ?_ ?_⟩
  all_goals
    have p1 := Real.pi_gt_d20
    have p2 := Real.pi_lt_d20
    have l0 : (1 : ℝ) ≤ lat := by exact_mod_cast h0
    have l1 : (lat : ℝ) ≤ 75 := by exact_mod_cast h1
    have b0 : 0 ≤ (lat : ℝ) * (Real.pi / 180) := by positivity
    have b1 : (lat : ℝ) * (Real.pi / 180) ≤ 1311 / 1000 := by nlinarith
    have sb := slope_bounds b0 b1
    unfold mercatorY
    rw [arsinh_tan (by linarith [cos_lower b0 b1])]
  · have G1 := (Real.log_le_log (by linarith) sb.2).trans log8
    have : Real.log (slope (lat * (Real.pi / 180))) / Real.pi ≤ 67 / 100 := by
      rw [div_le_iff₀ (by linarith)]
      linarith
    norm_num
    linarith
  · have hs : 1 + 1 / 100 ≤ slope (lat * (Real.pi / 180)) := by
      have hb : 1 / 100 ≤ (lat : ℝ) * (Real.pi / 180) := by nlinarith
      have hc := cos_lower b0 b1
      have hc1 := Real.cos_le_one ((lat : ℝ) * (Real.pi / 180))
      have ht : (lat : ℝ) * (Real.pi / 180) ≤ Real.tan (lat * (Real.pi / 180)) :=
        Real.le_tan b0 (by linarith)
      have : 1 ≤ 1 / Real.cos ((lat : ℝ) * (Real.pi / 180)) := by
        rw [le_div_iff₀ (by linarith)]; linarith
      unfold slope
      linarith
    have G0 : 9 / 1000 ≤ Real.log (slope (lat * (Real.pi / 180))) := by
      have := Real.one_sub_inv_le_log_of_pos (show 0 < slope (lat * (Real.pi / 180)) by linarith)
      have i : (slope (lat * (Real.pi / 180)))⁻¹ ≤ (1 + 1 / 100)⁻¹ := inv_anti₀ (by norm_num) hs
      norm_num at i
      linarith
    have : 2 / 1000 ≤ Real.log (slope (lat * (Real.pi / 180))) / Real.pi := by
      rw [le_div_iff₀ (by linarith)]
      linarith
    norm_num
    linarith

/-- The tiles of an area between the equator and 75 degrees north have coordinates in the range of `u32`. -/
theorem inRange_north {m : Libm} (hm : AccurateRow m) {e : LatLonExtent} {zooms : Nat × Nat} (hz : zooms.2 ≤ 18)
    (h0 : Fl.le e.minCoord.lon (.fin 180) = true) (h1 : Fl.le e.maxCoord.lon (.fin 180) = true) {a b : Rat}
    (ha : e.minCoord.lat = .fin a) (hb : e.maxCoord.lat = .fin b) (a0 : 0 ≤ a) (a1 : a ≤ 75) (b0 : 0 ≤ b) (b1 : b ≤ 75) :
    InRange m e zooms := by
  refine inRange_of_corners m e hz h0 h1 fun z _ hz' => ?_
  have key : ∀ q : Rat, 0 ≤ q → q ≤ 75 → row m (.fin q) (.fin (2 ^ z)) + 1 < 2 ^ 32 := by
    intro q q0 q1
    obtain ⟨f, hf, f0, -, f2⟩ := row_value hm q0 q1 (show z ≤ 31 by omega)
    rw [hf]
    have z1 : (2 : ℝ) ^ z ≤ 2 ^ 18 := pow_le_pow_right₀ (by norm_num) (by omega)
    have : f ≤ 2 ^ 18 := by
      have : (f : ℝ) ≤ ((2 ^ 18 : Rat) : ℝ) := by
        push_cast
        norm_num at z1 ⊢
        linarith
      exact_mod_cast this
    have := Int.floor_le_floor this
    have e : ⌊(2 ^ 18 : Rat)⌋ = 2 ^ 18 := by norm_num
    rw [e] at this
    omega
  rw [ha, hb]
  exact ⟨key a a0 a1, key b b0 b1⟩

end Verif.Props
