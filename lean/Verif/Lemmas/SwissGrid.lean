import Verif.Lemmas.Sqrt
import Verif.Lemmas.FloatErr
import Verif.Model.Geo
import Verif.Spec.Nearest

/-!
# Distances computed in binary32 and in exact arithmetic
-/

namespace Verif

open Spec (degrees)

theorem sq_close {x x' : Rat} (hx : |x| ≤ 1000) (h : |x' - x| ≤ |x| / 2 ^ 24 + 1 / 2 ^ 150) :
    |x' ^ 2 - x ^ 2| ≤ x ^ 2 * (3 / 2 ^ 24) + 1 / 2 ^ 130 := by
  have hX : 0 ≤ |x| := abs_nonneg x
  have e : x' ^ 2 - x ^ 2 = (x' - x) * (2 * x + (x' - x)) := by ring
  have h2 : |2 * x + (x' - x)| ≤ 2 * |x| + (|x| / 2 ^ 24 + 1 / 2 ^ 150) := by
    refine (abs_add_le _ _).trans ?_
    rw [abs_mul, abs_of_pos (by norm_num : (0 : Rat) < 2)]
    linarith
  rw [e, abs_mul]
  refine (mul_le_mul h h2 (abs_nonneg _) (by positivity)).trans ?_
  have e2 : x ^ 2 = |x| ^ 2 := (sq_abs x).symm
  rw [e2]
  set X := |x|
  have h3 : (X / 2 ^ 24 + 1 / 2 ^ 150) * (2 * X + (X / 2 ^ 24 + 1 / 2 ^ 150)) =
      X ^ 2 * (2 / 2 ^ 24 + 1 / 2 ^ 48) + X * (2 / 2 ^ 150 + 2 / 2 ^ 174) + (1 / 2 ^ 150) * (1 / 2 ^ 150) := by ring
  rw [h3]
  have h4 : X ^ 2 * (2 / 2 ^ 24 + 1 / 2 ^ 48) ≤ X ^ 2 * (3 / 2 ^ 24) :=
    mul_le_mul_of_nonneg_left (by norm_num) (sq_nonneg _)
  have h5 : X * (2 / 2 ^ 150 + 2 / 2 ^ 174) ≤ 1000 * (2 / 2 ^ 150 + 2 / 2 ^ 174) :=
    mul_le_mul_of_nonneg_right hx (by norm_num)
  have h6 : (1000 : Rat) * (2 / 2 ^ 150 + 2 / 2 ^ 174) + (1 / 2 ^ 150) * (1 / 2 ^ 150) ≤ 1 / 2 ^ 130 := by norm_num
  linarith

/-- The square of a distance as computed. -/
theorem dist_sq_close {a b c d : Rat} (h1 : |a - c| ≤ 1000) (h2 : |b - d| ≤ 1000) :
    ∃ D : Rat, LatLon.calcEuclideanDistSquared ⟨.fin a, .fin b⟩ ⟨.fin c, .fin d⟩ = .fin D ∧
      |D - ((a - c) ^ 2 + (b - d) ^ 2)| ≤ ((a - c) ^ 2 + (b - d) ^ 2) / 2 ^ 21 + 1 / 2 ^ 120 := by
  obtain ⟨x, hx, _, ex⟩ := rnd32_err (h1.trans (by norm_num))
  obtain ⟨y, hy, _, ey⟩ := rnd32_err (h2.trans (by norm_num))
  have sx := sq_close h1 ex
  have sy := sq_close h2 ey
  have bound : ∀ z : Rat, |z| ≤ 1000 → 0 ≤ z ^ 2 ∧ z ^ 2 ≤ 1000000 := by
    intro z hz
    refine ⟨sq_nonneg _, ?_⟩
    rw [← sq_abs]
    nlinarith [abs_nonneg z]
  obtain ⟨p0, p1⟩ := bound _ h1
  obtain ⟨q0, q1⟩ := bound _ h2
  set P := (a - c) ^ 2
  set Q := (b - d) ^ 2
  have sx' := abs_le.mp sx
  have sy' := abs_le.mp sy
  have bx : |x ^ 2| ≤ 2000000 := by rw [abs_le]; constructor <;> linarith [sx'.1, sx'.2]
  have by' : |y ^ 2| ≤ 2000000 := by rw [abs_le]; constructor <;> linarith [sy'.1, sy'.2]
  obtain ⟨X, hX, _, eX⟩ := rnd32_err (bx.trans (by norm_num))
  obtain ⟨Y, hY, _, eY⟩ := rnd32_err (by'.trans (by norm_num))
  rw [abs_of_nonneg (sq_nonneg x)] at eX
  rw [abs_of_nonneg (sq_nonneg y)] at eY
  have eX := abs_le.mp eX
  have eY := abs_le.mp eY
  have hs : |X + Y| ≤ (P + Q) * (1 + 5 / 2 ^ 24) + 1 / 2 ^ 125 := by
    rw [abs_le]
    constructor <;> linarith [sx'.1, sx'.2, sy'.1, sy'.2, eX.1, eX.2, eY.1, eY.2]
  obtain ⟨D, hD, _, eD⟩ := rnd32_err_le hs (by linarith)
  have eD := abs_le.mp eD
  refine ⟨D, ?_, ?_⟩
  · unfold LatLon.calcEuclideanDistSquared
    simp only
    rw [Fl.sub_fin, Fl.sub_fin, hx, hy]
    have e1 : Fl.mul f32 (.fin x) (.fin x) = .fin X := by rw [Fl.mul_fin, ← sq, hX]
    have e2 : Fl.mul f32 (.fin y) (.fin y) = .fin Y := by rw [Fl.mul_fin, ← sq, hY]
    rw [e1, e2, Fl.add_fin, hD]
  · rw [abs_le]
    constructor <;> linarith [sx'.1, sx'.2, sy'.1, sy'.2, eX.1, eX.2, eY.1, eY.2, eD.1, eD.2]

theorem degrees_nonneg (p q : Rat × Rat) : 0 ≤ degrees p q := Real.sqrt_nonneg _

theorem degrees_comm (p q : Rat × Rat) : degrees p q = degrees q p := by
  unfold degrees
  congr 2
  ring

/-- The root of the computed square. -/
theorem dist_close {p q : Rat × Rat} (h1 : |p.1 - q.1| ≤ 1000) (h2 : |p.2 - q.2| ≤ 1000) :
    ∃ D : Rat, LatLon.calcEuclideanDistSquared ⟨.fin p.1, .fin p.2⟩ ⟨.fin q.1, .fin q.2⟩ = .fin D ∧
      |Real.sqrt D - degrees p q| ≤ 1 / 2 ^ 21 * degrees p q + 1 / 2 ^ 60 := by
  obtain ⟨D, hD, e⟩ := dist_sq_close h1 h2
  refine ⟨D, hD, ?_⟩
  unfold degrees
  refine sqrt_close ?_ (by norm_num) (by norm_num) (by norm_num) ?_
  · exact_mod_cast add_nonneg (sq_nonneg _) (sq_nonneg _)
  · have : ((|D - ((p.1 - q.1) ^ 2 + (p.2 - q.2) ^ 2)| : Rat) : Real) ≤
        ((((p.1 - q.1) ^ 2 + (p.2 - q.2) ^ 2) / 2 ^ 21 + 1 / 2 ^ 120 : Rat) : Real) := by exact_mod_cast e
    push_cast at this ⊢
    refine this.trans (le_of_eq ?_)
    ring

theorem sqrt_triangle (a b c d : Real) :
    Real.sqrt ((a + c) ^ 2 + (b + d) ^ 2) ≤ Real.sqrt (a ^ 2 + b ^ 2) + Real.sqrt (c ^ 2 + d ^ 2) := by
  set s := Real.sqrt (a ^ 2 + b ^ 2) with hs
  set t := Real.sqrt (c ^ 2 + d ^ 2) with ht
  have hs0 : 0 ≤ s := Real.sqrt_nonneg _
  have ht0 : 0 ≤ t := Real.sqrt_nonneg _
  have hs2 : s ^ 2 = a ^ 2 + b ^ 2 := Real.sq_sqrt (by positivity)
  have ht2 : t ^ 2 = c ^ 2 + d ^ 2 := Real.sq_sqrt (by positivity)
  rw [Real.sqrt_le_left (by positivity)]
  have h : a * c + b * d ≤ s * t := by
    apply abs_le_of_sq_le_sq' _ (by positivity) |>.2
    rw [mul_pow, hs2, ht2]
    nlinarith [sq_nonneg (a * d - b * c)]
  nlinarith

theorem degrees_triangle (p q r : Rat × Rat) : degrees p r ≤ degrees p q + degrees q r := by
  unfold degrees
  have := sqrt_triangle ((p.1 : Real) - q.1) ((p.2 : Real) - q.2) ((q.1 : Real) - r.1) ((q.2 : Real) - r.2)
  push_cast
  rw [show (p.1 : Real) - q.1 + (q.1 - r.1) = p.1 - r.1 by ring,
    show (p.2 : Real) - q.2 + (q.2 - r.2) = p.2 - r.2 by ring] at this
  exact this

theorem degrees_le {p q : Rat × Rat} {e : Rat} (h1 : |p.1 - q.1| ≤ e) (h2 : |p.2 - q.2| ≤ e) :
    degrees p q ≤ (3 / 2 : Rat) * e := by
  have he : 0 ≤ e := (abs_nonneg _).trans h1
  unfold degrees
  rw [Real.sqrt_le_left (by exact_mod_cast (by positivity : 0 ≤ (3 / 2 : Rat) * e))]
  have a1 : (p.1 - q.1) ^ 2 ≤ e ^ 2 := by rw [← sq_abs]; gcongr
  have a2 : (p.2 - q.2) ^ 2 ≤ e ^ 2 := by rw [← sq_abs]; gcongr
  have : (p.1 - q.1) ^ 2 + (p.2 - q.2) ^ 2 ≤ ((3 / 2 : Rat) * e) ^ 2 := by nlinarith
  exact_mod_cast this

/-- Two positions that move a little. -/
theorem degrees_moved {p p' q q' : Rat × Rat} {e : Rat} (h1 : |p.1 - p'.1| ≤ e) (h2 : |p.2 - p'.2| ≤ e)
    {f : Rat} (h3 : |q.1 - q'.1| ≤ f) (h4 : |q.2 - q'.2| ≤ f) :
    degrees p q ≤ degrees p' q' + ((3 / 2 * (e + f) : Rat) : Real) := by
  have a := degrees_le h1 h2
  have b := degrees_le h3 h4
  rw [degrees_comm] at b
  have c := degrees_triangle p p' q
  have d := degrees_triangle p' q' q
  push_cast at a b ⊢
  linarith

end Verif
