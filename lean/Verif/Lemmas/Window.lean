import Verif.Lemmas.Geo
import Verif.Lemmas.Unstructured

/-!
# Rounding analysis of the grid geometry

One axis of a regular grid: `n` cells between `lo` and `hi` degrees, each at least 2^-10 degrees wide.
-/

namespace Verif

/-- One axis of a grid of reasonable resolution. -/
structure Axis (lo hi : Rat) (n : Nat) : Prop where
  lo_ge : -180 ≤ lo
  hi_le : hi ≤ 180
  pos : 0 < n
  width : (n : Rat) / 2 ^ 10 ≤ hi - lo

namespace Axis
variable {lo hi : Rat} {n : Nat}

theorem n_le (h : Axis lo hi n) : n ≤ 2 ^ 19 := by
  have h1 := h.width
  have h2 : (n : Rat) / 2 ^ 10 ≤ 360 := by linarith [h.lo_ge, h.hi_le]
  rw [div_le_iff₀ (by norm_num)] at h2
  have h3 : (n : Rat) ≤ (2 ^ 19 : Nat) := by push_cast; linarith
  exact_mod_cast h3

/-- The cell width computed by `LatLonGrid::new`. -/
theorem inc (h : Axis lo hi n) : ∃ i : Rat,
    Fl.div f32 (Fl.sub f32 (.fin hi) (.fin lo)) (Fl.ofNat f32 n) = .fin i ∧
    1 / 1025 ≤ i ∧ n * i ≤ hi - lo + 1 / 4096 ∧ hi - lo - 1 / 4096 ≤ n * i ∧ i ≤ 1000 := by
  have hn1 : (1 : Rat) ≤ n := by exact_mod_cast h.pos
  have hn0 : (n : Rat) ≠ 0 := by linarith
  have hD := h.width
  have hD2 : hi - lo ≤ 360 := by linarith [h.lo_ge, h.hi_le]
  have hD1 : 1 / 2 ^ 10 ≤ hi - lo := by
    refine le_trans ?_ hD
    gcongr
  have hof : Fl.ofNat f32 n = .fin n := rnd32_nat (h.n_le.trans (by norm_num))
  obtain ⟨r, hr, -, er⟩ := rnd32_err (q := hi - lo) (by
    rw [abs_of_nonneg (by linarith)]; linarith [show (360 : Rat) ≤ 2 ^ 127 by norm_num])
  rw [abs_of_nonneg (by linarith : 0 ≤ hi - lo), abs_le] at er
  have η : (1 : Rat) / 2 ^ 150 ≤ 1 / 2 ^ 40 := by norm_num
  have hrn : r = r / n * n := by field_simp
  have hr1 : (hi - lo) * (1 - 1 / 2 ^ 23) ≤ r := by linarith [er.1]
  have hr2 : r ≤ (hi - lo) * (1 + 1 / 2 ^ 23) := by linarith [er.2]
  have hρ : 1 / 1024 * (1 - 1 / 2 ^ 23) ≤ r / n := by
    rw [le_div_iff₀ (by linarith)]
    refine le_trans ?_ hr1
    have : (n : Rat) / 2 ^ 10 * (1 - 1 / 2 ^ 23) ≤ (hi - lo) * (1 - 1 / 2 ^ 23) :=
      mul_le_mul_of_nonneg_right hD (by norm_num)
    linarith
  have hr361 : r ≤ 361 := by linarith
  have hρ2 : r / n ≤ 361 := by
    rw [div_le_iff₀ (by linarith)]; nlinarith
  have hρ0 : 0 ≤ r / n := le_trans (by norm_num) hρ
  obtain ⟨i, hi', -, ei⟩ := rnd32_err (q := r / n) (by
    rw [abs_of_nonneg hρ0]
    linarith [show (361 : Rat) ≤ 2 ^ 127 by norm_num])
  rw [abs_of_nonneg hρ0, abs_le] at ei
  refine ⟨i, ?_, ?_, ?_, ?_, ?_⟩
  · rw [Fl.sub_fin, hr, hof, Fl.div_fin _ _ hn0, hi']
  · have : (1 : Rat) / 1025 ≤ 1 / 1024 * (1 - 1 / 2 ^ 23) * (1 - 1 / 2 ^ 23) := by norm_num
    have h2 : (1 : Rat) / 2 ^ 150 ≤ 1 / 1024 * (1 - 1 / 2 ^ 23) / 2 ^ 24 := by norm_num
    linarith [ei.1]
  · have h1 : i ≤ r / n * (1 + 1 / 2 ^ 23) := by
      have h2 : (1 : Rat) / 2 ^ 150 ≤ 1 / 1024 * (1 - 1 / 2 ^ 23) / 2 ^ 24 := by norm_num
      linarith [ei.2]
    have h2 : n * i ≤ r * (1 + 1 / 2 ^ 23) := by
      calc n * i ≤ n * (r / n * (1 + 1 / 2 ^ 23)) := mul_le_mul_of_nonneg_left h1 (by linarith)
        _ = r * (1 + 1 / 2 ^ 23) := by field_simp
    linarith
  · have h1 : r / n * (1 - 1 / 2 ^ 23) ≤ i := by
      have h2 : (1 : Rat) / 2 ^ 150 ≤ 1 / 1024 * (1 - 1 / 2 ^ 23) / 2 ^ 24 := by norm_num
      linarith [ei.1]
    have h2 : r * (1 - 1 / 2 ^ 23) ≤ n * i := by
      calc r * (1 - 1 / 2 ^ 23) = n * (r / n * (1 - 1 / 2 ^ 23)) := by field_simp
        _ ≤ n * i := mul_le_mul_of_nonneg_left h1 (by linarith)
    linarith
  · linarith [ei.2]

/-- The position of fractional coordinate `y` computed by `get_lat_lon_by_x_y`. -/
theorem position (h : Axis lo hi n) {i : Rat} (i1 : 1 / 1025 ≤ i) (i2 : n * i ≤ hi - lo + 1 / 4096)
    {y : Rat} (y0 : 0 ≤ y) (y1 : y ≤ n - 1 / 2) : ∃ c : Rat,
    Fl.add f32 (.fin lo) (Fl.mul f32 (.fin y) (.fin i)) = .fin c ∧
    |c - (lo + y * i)| ≤ 1 / 2 ^ 14 ∧ c < hi ∧ c < 180 ∧
    (IsFl f32 (.fin lo) → lo ≤ c) ∧ (1 / 2 ≤ y → lo ≤ c) := by
  have hD : hi - lo ≤ 360 := by linarith [h.lo_ge, h.hi_le]
  have hi0 : 0 ≤ i := le_trans (by norm_num) i1
  have hyi0 : 0 ≤ y * i := mul_nonneg y0 hi0
  have hyi : y * i ≤ n * i - i / 2 := by nlinarith
  obtain ⟨m, hm, hm', em⟩ := rnd32_err_le (q := y * i) (B := 361)
    (by rw [abs_of_nonneg hyi0]; linarith) (by norm_num)
  have hm0 : 0 ≤ m := by rw [hm']; exact rndq_nonneg hyi0
  rw [abs_le] at em
  obtain ⟨c, hc, hc', ec⟩ := rnd32_err_le (q := lo + m) (B := 500)
    (by
      have : (361 : Rat) / 2 ^ 24 + 1 / 2 ^ 150 ≤ 1 := by norm_num
      have := h.lo_ge
      have := h.hi_le
      rw [abs_le]; constructor <;> linarith [em.1, em.2]) (by norm_num)
  rw [abs_le] at ec
  have key : |c - (lo + y * i)| ≤ 1 / 2 ^ 14 := by
    have : (361 : Rat) / 2 ^ 24 + 1 / 2 ^ 150 + (500 / 2 ^ 24 + 1 / 2 ^ 150) ≤ 1 / 2 ^ 14 := by norm_num
    rw [abs_le]; constructor <;> linarith [em.1, em.2, ec.1, ec.2]
  have key' := abs_le.1 key
  refine ⟨c, by rw [Fl.mul_fin, hm, Fl.add_fin, hc], key, ?_, ?_, ?_, ?_⟩
  · have : (1 : Rat) / 2 ^ 14 + 1 / 4096 < 1 / 1025 / 2 := by norm_num
    linarith [key'.2]
  · have : (1 : Rat) / 2 ^ 14 + 1 / 4096 < 1 / 1025 / 2 := by norm_num
    linarith [key'.2, h.hi_le]
  · intro hlo
    rw [hc']
    exact rep_le_rndq prec32 hlo.1 (by linarith)
  · intro hy
    have : 1 / 2 * i ≤ y * i := mul_le_mul_of_nonneg_right hy hi0
    have : (1 : Rat) / 2 ^ 14 < 1 / 1025 / 2 := by norm_num
    linarith [key'.1]

/-- The fractional coordinate of position `a` computed by `get_x_y_by_lat_lon`. -/
theorem fraction (h : Axis lo hi n) {i : Rat} (i1 : 1 / 1025 ≤ i) (i2 : i ≤ 1000) {a : Rat} (a0 : -300 ≤ a)
    (a1 : a ≤ 300) : ∃ t : Rat,
    Fl.div f32 (Fl.sub f32 (.fin a) (.fin lo)) (.fin i) = .fin t ∧
    |t * i - (a - lo)| ≤ 1 / 2 ^ 14 ∧ |t| ≤ 2 ^ 20 := by
  have hw : 0 ≤ (n : Rat) / 2 ^ 10 := by positivity
  have hlo : lo ≤ 180 := by linarith [h.width, h.hi_le]
  have hipos : 0 < i := lt_of_lt_of_le (by norm_num) i1
  obtain ⟨s, hs, -, es⟩ := rnd32_err_le (q := a - lo) (B := 480)
    (by rw [abs_le]; constructor <;> linarith [h.lo_ge]) (by norm_num)
  rw [abs_le] at es
  have hsb : |s| ≤ 481 := by
    have : (480 : Rat) / 2 ^ 24 + 1 / 2 ^ 150 ≤ 1 := by norm_num
    rw [abs_le]; constructor <;> linarith [es.1, es.2, h.lo_ge]
  have hsi : |s / i| ≤ 481 * 1025 := by
    rw [abs_div, abs_of_pos hipos, div_le_iff₀ hipos]
    have : 481 * 1025 * (1 / 1025) ≤ 481 * 1025 * i := mul_le_mul_of_nonneg_left i1 (by norm_num)
    linarith
  obtain ⟨t, ht, -, et⟩ := rnd32_err (q := s / i) (hsi.trans (by norm_num))
  refine ⟨t, by rw [Fl.sub_fin, hs, Fl.div_fin _ _ hipos.ne', ht], ?_, ?_⟩
  · have h1 : |t * i - s| ≤ 481 / 2 ^ 24 + i / 2 ^ 150 := by
      have : t * i - s = (t - s / i) * i := by field_simp
      rw [this, abs_mul, abs_of_pos hipos]
      calc |t - s / i| * i ≤ (|s / i| / 2 ^ 24 + 1 / 2 ^ 150) * i := mul_le_mul_of_nonneg_right et hipos.le
        _ = |s| / 2 ^ 24 + i / 2 ^ 150 := by rw [abs_div, abs_of_pos hipos]; field_simp
        _ ≤ 481 / 2 ^ 24 + i / 2 ^ 150 := by gcongr
    have h2 : i / 2 ^ 150 ≤ 1000 / 2 ^ 150 := by gcongr
    have : (481 : Rat) / 2 ^ 24 + 1000 / 2 ^ 150 + (480 / 2 ^ 24 + 1 / 2 ^ 150) ≤ 1 / 2 ^ 14 := by norm_num
    rw [abs_le] at h1 ⊢
    constructor <;> linarith [h1.1, h1.2, es.1, es.2]
  · rw [abs_le] at hsi ⊢
    have h3 : |s / i| / 2 ^ 24 + 1 / 2 ^ 150 ≤ 1 := by
      have : |s / i| ≤ 481 * 1025 := by rw [abs_le]; exact hsi
      have h4 : |s / i| / 2 ^ 24 ≤ 481 * 1025 / 2 ^ 24 := by gcongr
      have : (481 : Rat) * 1025 / 2 ^ 24 + 1 / 2 ^ 150 ≤ 1 := by norm_num
      linarith
    have h5 := abs_le.1 (et.trans h3)
    have : (481 : Rat) * 1025 + 1 ≤ 2 ^ 20 := by norm_num
    constructor <;> linarith [h5.1, h5.2, hsi.1, hsi.2]

end Axis
end Verif

namespace Verif

theorem half_exact {x : Nat} (h : x ≤ 2 ^ 19) :
    Fl.add f32 (Fl.ofNat f32 x) (.fin (1 / 2)) = .fin (x + 1 / 2) := by
  rw [show Fl.ofNat f32 x = .fin x from rnd32_nat (h.trans (by norm_num)), Fl.add_fin]
  have hx : (x : Rat) ≤ 2 ^ 19 := by exact_mod_cast h
  have hx0 : (0 : Rat) ≤ x := by positivity
  have hrep : Rep f32 ((x : Rat) + 1 / 2) := by
    have := rep_mul_pow2 (F := f32) (m := 2 * x + 1) (e := -1) (by
      rw [abs_of_nonneg (by positivity)]
      have : f32.prec = 24 := rfl
      rw [this]
      have : (x : Int) ≤ 2 ^ 19 := by exact_mod_cast h
      norm_num at this ⊢
      omega) (by decide)
    rw [pow2_eq] at this
    have e : ((2 * (x : Int) + 1 : Int) : Rat) * 2 ^ (-1 : Int) = x + 1 / 2 := by
      push_cast; rw [zpow_neg_one]; ring
    rwa [e] at this
  refine rnd_exact prec32 hrep ?_
  rw [abs_of_nonneg (by positivity)]
  have : pow2 f32.emax = 2 ^ 128 := by rw [pow2_eq]; rfl
  rw [this]
  linarith [show (2 : Rat) ^ 19 + 1 < 2 ^ 128 by norm_num]

/-- If the sum of two squared differences is not larger than the squared maximum distance, then each
difference is at most the maximum distance up to rounding. -/
theorem near_axis {q c d A : Rat} (hq : |q - c| ≤ 1000) (d0 : 1 / 2 ^ 10 ≤ d) (d1 : d ≤ 16)
    {u : Rat} (hu : rnd f32 (q - c) = .fin u) (hA : rndq f32 (u * u) ≤ A)
    (hle : A ≤ rndq f32 (d * d)) : |q - c| ≤ d * (1 + 1 / 2 ^ 20) := by
  obtain ⟨u', hu', -, eu⟩ := rnd32_err (hq.trans (by norm_num))
  rw [hu, Fl.fin.injEq] at hu'
  subst hu'
  have hdd : 1 / 2 ^ 20 ≤ d * d := by
    calc (1 : Rat) / 2 ^ 20 = 1 / 2 ^ 10 * (1 / 2 ^ 10) := by norm_num
      _ ≤ d * d := mul_le_mul d0 d0 (by norm_num) (le_trans (by norm_num) d0)
  have hd2 : d * d ≤ 256 := by nlinarith
  obtain ⟨D, -, hD, eD⟩ := rnd32_err (q := d * d) (by
    rw [abs_of_nonneg (by positivity)]; linarith [show (256 : Rat) ≤ 2 ^ 127 by norm_num])
  rw [abs_of_nonneg (by positivity : 0 ≤ d * d), abs_le] at eD
  rw [← hD] at hle
  have hub : |u| ≤ 1001 := by
    have h1 : |u| ≤ |u - (q - c)| + |q - c| := by
      have := abs_add_le (u - (q - c)) (q - c)
      simpa using this
    have h2 : |q - c| / 2 ^ 24 ≤ 1000 / 2 ^ 24 := by gcongr
    have : (1000 : Rat) / 2 ^ 24 + 1 / 2 ^ 150 ≤ 1 := by norm_num
    linarith
  have huu : u * u ≤ 1001 * 1001 := by
    have := abs_mul_abs_self u
    have := mul_le_mul hub hub (abs_nonneg u) (by norm_num)
    linarith
  obtain ⟨U, -, hU, eU⟩ := rnd32_err (q := u * u) (by
    rw [abs_of_nonneg (mul_self_nonneg u)]; linarith [show (1001 * 1001 : Rat) ≤ 2 ^ 127 by norm_num])
  rw [abs_of_nonneg (mul_self_nonneg u), abs_le] at eU
  rw [← hU] at hA
  -- |u| ≤ d (1 + 2^-22)
  have hu2 : |u| ≤ d * (1 + 1 / 2 ^ 22) := by
    by_contra hlt
    rw [not_le] at hlt
    have hdp : 0 ≤ d := le_trans (by norm_num) d0
    have h1 : d * (1 + 1 / 2 ^ 22) * (d * (1 + 1 / 2 ^ 22)) ≤ |u| * |u| :=
      mul_le_mul hlt.le hlt.le (by positivity) (abs_nonneg u)
    rw [abs_mul_abs_self] at h1
    have h2 : d * (1 + 1 / 2 ^ 22) * (d * (1 + 1 / 2 ^ 22)) = d * d * ((1 + 1 / 2 ^ 22) * (1 + 1 / 2 ^ 22)) := by
      ring
    rw [h2] at h1
    have h3 : u * u * (1 - 1 / 2 ^ 24) ≤ d * d * (1 + 1 / 2 ^ 24) + 2 / 2 ^ 150 := by
      linarith [eU.1, eD.2]
    have h4 : d * d * ((1 + 1 / 2 ^ 22) * (1 + 1 / 2 ^ 22)) * (1 - 1 / 2 ^ 24) ≤ u * u * (1 - 1 / 2 ^ 24) :=
      mul_le_mul_of_nonneg_right h1 (by norm_num)
    have h5 : (1 : Rat) / 2 ^ 20 * ((1 + 1 / 2 ^ 22) * (1 + 1 / 2 ^ 22) * (1 - 1 / 2 ^ 24) - (1 + 1 / 2 ^ 24)) ≤
        d * d * ((1 + 1 / 2 ^ 22) * (1 + 1 / 2 ^ 22) * (1 - 1 / 2 ^ 24) - (1 + 1 / 2 ^ 24)) :=
      mul_le_mul_of_nonneg_right hdd (by norm_num)
    have h6 : (2 : Rat) / 2 ^ 150 <
        1 / 2 ^ 20 * ((1 + 1 / 2 ^ 22) * (1 + 1 / 2 ^ 22) * (1 - 1 / 2 ^ 24) - (1 + 1 / 2 ^ 24)) := by norm_num
    linarith
  have h7 : |q - c| ≤ |u - (q - c)| + |u| := by
    have := abs_add_le (q - c - u) u
    rw [abs_sub_comm (q - c) u] at this
    simpa using this
  have h8 : |q - c| * (1 - 1 / 2 ^ 24) ≤ d * (1 + 1 / 2 ^ 22) + 1 / 2 ^ 150 := by linarith
  by_contra hlt
  rw [not_le] at hlt
  have h9 : d * (1 + 1 / 2 ^ 20) * (1 - 1 / 2 ^ 24) ≤ |q - c| * (1 - 1 / 2 ^ 24) :=
    mul_le_mul_of_nonneg_right hlt.le (by norm_num)
  have h10 : (1 : Rat) / 2 ^ 10 * ((1 + 1 / 2 ^ 20) * (1 - 1 / 2 ^ 24) - (1 + 1 / 2 ^ 22)) ≤
      d * ((1 + 1 / 2 ^ 20) * (1 - 1 / 2 ^ 24) - (1 + 1 / 2 ^ 22)) :=
    mul_le_mul_of_nonneg_right d0 (by norm_num)
  have h11 : (1 : Rat) / 2 ^ 150 < 1 / 2 ^ 10 * ((1 + 1 / 2 ^ 20) * (1 - 1 / 2 ^ 24) - (1 + 1 / 2 ^ 22)) := by
    norm_num
  linarith

/-- What the window computation and the skip test do on one axis. -/
theorem Axis.window {lo hi : Rat} {n : Nat} (h : Axis lo hi n) {i : Rat} (i1 : 1 / 1025 ≤ i)
    (i2 : n * i ≤ hi - lo + 1 / 4096) (i3 : i ≤ 1000) {x : Nat} (hx : x < n) {c : Rat}
    (hc : |c - (lo + (x + 1 / 2) * i)| ≤ 1 / 2 ^ 14) {q d : Rat} (d0 : 0 ≤ d) (d1 : d ≤ 16)
    (q0 : -180 ≤ q - d) (q1 : q + d ≤ 179) (hqc : |q - c| ≤ d * (1 + 1 / 2 ^ 20)) :
    Fl.lt (.fin q) (Fl.sub f32 (.fin lo) (.fin d)) = false ∧
    Fl.gt (.fin q) (Fl.add f32 (.fin hi) (.fin d)) = false ∧
    (∃ a, Fl.sub f32 (.fin q) (.fin d) = .fin a ∧ -180 ≤ a ∧ a < 180 ∧
      ∃ t, Fl.div f32 (Fl.sub f32 (.fin a) (.fin lo)) (.fin i) = .fin t ∧ Fl.toUSize (.fin t) ≤ x) ∧
    (∃ b, Fl.add f32 (.fin q) (.fin d) = .fin b ∧ -180 ≤ b ∧ b < 180 ∧
      ∃ t, Fl.div f32 (Fl.sub f32 (.fin b) (.fin lo)) (.fin i) = .fin t ∧ x ≤ Fl.toUSize (.fin t)) := by
  have hipos : 0 < i := lt_of_lt_of_le (by norm_num) i1
  have hw0 : 0 ≤ (n : Rat) / 2 ^ 10 := by positivity
  have hlohi : lo ≤ hi := by linarith [h.width]
  have hx0 : (0 : Rat) ≤ x := by positivity
  have hxn : (x : Rat) + 1 ≤ n := by exact_mod_cast hx
  have hxi : 0 ≤ x * i := mul_nonneg hx0 hipos.le
  have hxn' : (x + 1) * i ≤ n * i := mul_le_mul_of_nonneg_right hxn hipos.le
  have hlo := h.lo_ge
  have hhi := h.hi_le
  rw [abs_le] at hc hqc
  have hds : d * (1 + 1 / 2 ^ 20) ≤ d + 1 / 2 ^ 16 := by
    have : d * (1 / 2 ^ 20) ≤ 16 * (1 / 2 ^ 20) := mul_le_mul_of_nonneg_right d1 (by norm_num)
    linarith
  have R : ∀ v : Rat, |v| ≤ 200 → ∃ r, rnd f32 v = .fin r ∧ r = rndq f32 v ∧ -(1 / 2 ^ 15) ≤ r - v ∧ r - v ≤ 1 / 2 ^ 15 := by
    intro v hv
    obtain ⟨r, h1, h2, h3⟩ := rnd32_err_le hv (by norm_num)
    have : (200 : Rat) / 2 ^ 24 + 1 / 2 ^ 150 ≤ 1 / 2 ^ 15 := by norm_num
    exact ⟨r, h1, h2, abs_le.1 (h3.trans this)⟩
  have rep180 : Rep f32 (-180 : Rat) := by
    have := rep_int (F := f32) (n := -180) (by decide) (by decide)
    simpa using this
  have rep179 : Rep f32 (179 : Rat) := by
    have := rep_int (F := f32) (n := 179) (by decide) (by decide)
    simpa using this
  have hslack : (1 : Rat) / 2 ^ 14 + 1 / 2 ^ 15 + 1 / 2 ^ 14 + 1 / 2 ^ 16 < 1 / 1025 / 2 := by norm_num
  refine ⟨?_, ?_, ?_, ?_⟩
  · obtain ⟨r, hr, -, h1, h2⟩ := R (lo - d) (by rw [abs_le]; constructor <;> linarith)
    rw [Fl.sub_fin, hr]
    simp only [Fl.lt, decide_eq_false_iff_not, not_lt]
    linarith [hc.1, hc.2, hqc.1, hqc.2]
  · obtain ⟨r, hr, -, h1, h2⟩ := R (hi + d) (by rw [abs_le]; constructor <;> linarith)
    rw [Fl.add_fin, hr]
    simp only [Fl.gt, Fl.lt, decide_eq_false_iff_not, not_lt]
    have : (1 : Rat) / 4096 + 1 / 2 ^ 14 + 1 / 2 ^ 15 + 1 / 2 ^ 16 ≤ 1 / 1025 / 2 := by norm_num
    linarith [hc.1, hc.2, hqc.1, hqc.2]
  · obtain ⟨a, ha, ha', h1, h2⟩ := R (q - d) (by rw [abs_le]; constructor <;> linarith)
    have ha1 : -180 ≤ a := by rw [ha']; exact rep_le_rndq prec32 rep180 q0
    have ha2 : a ≤ 179 := by rw [ha']; exact rndq_le_rep prec32 rep179 (by linarith)
    obtain ⟨t, ht, et, tb⟩ := h.fraction i1 i3 (a := a) (by linarith) (by linarith)
    refine ⟨a, by rw [Fl.sub_fin, ha], ha1, by linarith, t, ht, ?_⟩
    rw [abs_le] at et
    have hti : t * i < (x + 1) * i := by linarith [hc.1, hc.2, hqc.1, hqc.2, et.1, et.2]
    have htx : t < x + 1 := lt_of_mul_lt_mul_right hti hipos.le
    have hfl : ⌊t⌋ < (x : Int) + 1 := by
      rw [Int.floor_lt]; push_cast; exact htx
    simp only [Fl.toUSize, Fl.toUInt]
    omega
  · obtain ⟨b, hb, hb', h1, h2⟩ := R (q + d) (by rw [abs_le]; constructor <;> linarith)
    have hb1 : -180 ≤ b := by rw [hb']; exact rep_le_rndq prec32 rep180 (by linarith)
    have hb2 : b ≤ 179 := by rw [hb']; exact rndq_le_rep prec32 rep179 q1
    obtain ⟨t, ht, et, tb⟩ := h.fraction i1 i3 (a := b) (by linarith) (by linarith)
    refine ⟨b, by rw [Fl.add_fin, hb], hb1, by linarith, t, ht, ?_⟩
    rw [abs_le] at et
    have hti : x * i < t * i := by linarith [hc.1, hc.2, hqc.1, hqc.2, et.1, et.2]
    have htx : (x : Rat) < t := lt_of_mul_lt_mul_right hti hipos.le
    have hfl : (x : Int) ≤ ⌊t⌋ := by
      rw [Int.le_floor]; push_cast; exact htx.le
    have hxb : x ≤ 2 ^ 64 - 1 := by
      have := h.n_le
      omega
    simp only [Fl.toUSize, Fl.toUInt]
    omega

end Verif
