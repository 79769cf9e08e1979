import Verif.Props.Window

/-!
# Complement to C24: the date line
-/

namespace Verif.Props

open Verif

theorem toUSize_lt {t u i : Rat} (hi : 0 < i) (h0 : i ≤ t * i) (hb : t ≤ 2 ^ 20) (hu : u * i + i ≤ t * i) :
    Fl.toUSize (.fin u) < Fl.toUSize (.fin t) := by
  have h1 : u + 1 ≤ t := le_of_mul_le_mul_right (by linarith : (u + 1) * i ≤ t * i) hi
  have h2 : (1 : Rat) ≤ t := le_of_mul_le_mul_right (by linarith : 1 * i ≤ t * i) hi
  have f1 : ⌊u⌋ + 1 ≤ ⌊t⌋ := by
    rw [Int.le_floor]; push_cast
    linarith [Int.floor_le u]
  have f2 : ⌊t⌋ ≤ 2 ^ 20 := by
    have : (⌊t⌋ : Rat) ≤ ((2 ^ 20 : Int) : Rat) := by push_cast; linarith [Int.floor_le t]
    exact_mod_cast this
  have f3 : 1 ≤ ⌊t⌋ := by rw [Int.le_floor]; exact_mod_cast h2
  simp only [Fl.toUSize, Fl.toUInt]
  omega

theorem rounded {v : Rat} (hv : |v| ≤ 200) :
    ∃ r, rnd f32 v = .fin r ∧ Rep f32 r ∧ -(1 / 2 ^ 15) ≤ r - v ∧ r - v ≤ 1 / 2 ^ 15 := by
  obtain ⟨r, h1, h2, h3⟩ := rnd32_err_le hv (by norm_num)
  have : (200 : Rat) / 2 ^ 24 + 1 / 2 ^ 150 ≤ 1 / 2 ^ 15 := by norm_num
  exact ⟨r, h1, h2 ▸ rep_rndq f32 v, abs_le.1 (h3.trans this)⟩

/-- The turn that normalisation adds. -/
theorem normalise_west {v : Rat} (hv : Rep f32 v) (h1 : -540 < v) (h2 : v < -180) : LatLon.normalise (.fin v) = .fin (v + 360) := by
  obtain ⟨w, k, e, e1, e2, e3⟩ := normalise_spec hv
  have k1 : (k : Rat) < 0 := by linarith
  have k2 : (-2 : Rat) < k := by linarith
  have k1' : k < 0 := by exact_mod_cast k1
  have k2' : -2 < k := by exact_mod_cast k2
  obtain rfl : k = -1 := by omega
  rw [e]
  congr 1
  push_cast at e1
  linarith

theorem normalise_east {v : Rat} (hv : Rep f32 v) (h1 : 180 ≤ v) (h2 : v < 540) : LatLon.normalise (.fin v) = .fin (v - 360) := by
  obtain ⟨w, k, e, e1, e2, e3⟩ := normalise_spec hv
  have k1 : (0 : Rat) < k := by linarith
  have k2 : (k : Rat) < 2 := by linarith
  have k1' : 0 < k := by exact_mod_cast k1
  have k2' : k < 2 := by exact_mod_cast k2
  obtain rfl : k = 1 := by omega
  rw [e]
  congr 1
  push_cast at e1
  linarith

/-- **C24 fails all along the date line.**  On every grid of reasonable resolution around the earth (with two columns at least), a coordinate
that is closer to the date line than the maximum distance, on either side of it, is not looked at for any cell, not even for the one in which
it lies, unless it is as close to the northern or southern edge of the grid. -/
theorem C24_date_line {s n p q d : Rat} {dims : Nat × Nat} (h : Reasonable s (-180) n 180 dims) (h2 : 2 ≤ dims.1) (d0 : 0 < d)
    (d1 : d ≤ 16) (p0 : s + 1 / 2 ^ 10 ≤ p - d) (p1 : p + d ≤ n - 1 / 2 ^ 10) (q0 : -180 ≤ q) (q1 : q < 180)
    (hq : q - d ≤ -180 - 1 / 2 ^ 10 ∨ 180 + 1 / 2 ^ 10 ≤ q + d) (x y : Nat) :
    ¬ Covers (LatLonGrid.new dims (finExtent s (-180) n 180)) (.fin d) ⟨.fin p, .fin q⟩ x y := by
  obtain ⟨hlat, hlon⟩ := h
  obtain ⟨i, hi, i1, i2, -, i3⟩ := hlon.inc
  have s0 := hlat.lo_ge
  have n0 := hlat.hi_le
  have hipos : 0 < i := lt_of_lt_of_le (by norm_num) i1
  have hi181 : i ≤ 181 := by
    have : (2 : Rat) ≤ dims.1 := by exact_mod_cast h2
    have : 2 * i ≤ dims.1 * i := mul_le_mul_of_nonneg_right this hipos.le
    linarith
  -- latitudes
  obtain ⟨a0, ha0, ra0, ha1, ha2⟩ := rounded (v := p - d) (by rw [abs_le]; constructor <;> linarith)
  obtain ⟨a9, ha9, ra9, ha8, ha7⟩ := rounded (v := p + d) (by rw [abs_le]; constructor <;> linarith)
  -- longitudes
  obtain ⟨b0, hb0, rb0, hb1, hb2⟩ := rounded (v := q - d) (by rw [abs_le]; constructor <;> linarith)
  obtain ⟨b9, hb9, rb9, hb8, hb7⟩ := rounded (v := q + d) (by rw [abs_le]; constructor <;> linarith)
  obtain ⟨c0, c9, hc0, hc9, k1, k2, k3, k4, k5⟩ : ∃ c0 c9 : Rat, LatLon.normalise (.fin b0) = .fin c0 ∧ LatLon.normalise (.fin b9) = .fin c9 ∧
      -180 ≤ c9 ∧ c9 + 290 ≤ c0 ∧ c0 < 180 ∧ -180 ≤ c0 ∧ c9 < 180 := by
    rcases hq with hq | hq
    · refine ⟨b0 + 360, b9, normalise_west rb0 (by linarith) (by linarith), ?_, ?_, ?_, ?_, ?_, ?_⟩
      · exact normalise_id (by linarith) (by linarith)
      all_goals linarith
    · refine ⟨b0, b9 - 360, ?_, normalise_east rb9 (by linarith) (by linarith), ?_, ?_, ?_, ?_, ?_⟩
      · exact normalise_id (by linarith) (by linarith)
      all_goals linarith
  obtain ⟨t, ht, et, tb⟩ := hlon.fraction i1 i3 (a := c0) (by linarith) (by linarith)
  obtain ⟨u, hu, eu, ub⟩ := hlon.fraction i1 i3 (a := c9) (by linarith) (by linarith)
  rw [abs_le] at et eu tb
  have hlt : Fl.toUSize (.fin u) < Fl.toUSize (.fin t) := toUSize_lt hipos (by linarith) (by linarith) (by linarith)
  rintro ⟨-, mn, mx, hw, h1, h2, -, -⟩
  have inside : ∀ a c : Rat, s ≤ a → a < n → -180 ≤ c → c < 180 → (finExtent s (-180) n 180).isInside ⟨.fin a, .fin c⟩ = true := by
    intro a c e1 e2 e3 e4
    simp [LatLonExtent.isInside, finExtent, Fl.ge, Fl.le, Fl.lt, e1, e2, e3, e4]
  have gx : ∀ a c v : Rat, s ≤ a → a < n → -180 ≤ c → c < 180 →
      Fl.div f32 (Fl.sub f32 (.fin c) (.fin (-180))) (.fin i) = .fin v →
      ∃ r, (LatLonGrid.new dims (finExtent s (-180) n 180)).getXYByLatLon ⟨.fin a, .fin c⟩ = some (.fin v, r) := by
    intro a c v e1 e2 e3 e4 e5
    refine ⟨Fl.div f32 (Fl.sub f32 (.fin a) (.fin s)) (LatLonGrid.new dims (finExtent s (-180) n 180)).latInc, ?_⟩
    have hg : (LatLonGrid.new dims (finExtent s (-180) n 180)).lonInc = .fin i := hi
    unfold LatLonGrid.getXYByLatLon
    rw [hg]
    change (if (!(finExtent s (-180) n 180).isInside ⟨.fin a, .fin c⟩) = true then none else
      some (Fl.div f32 (Fl.sub f32 (.fin c) (.fin (-180))) (.fin i), _)) = _
    rw [inside a c e1 e2 e3 e4, e5]
    rfl
  have na0 : LatLon.normalise (.fin a0) = .fin a0 := normalise_id (by linarith) (by linarith)
  have na9 : LatLon.normalise (.fin a9) = .fin a9 := normalise_id (by linarith) (by linarith)
  obtain ⟨r0, g0⟩ := gx a0 c0 t (by linarith) (by linarith) k4 k3 ht
  obtain ⟨r9, g9⟩ := gx a9 c9 u (by linarith) (by linarith) k1 k5 hu
  unfold calcMinMaxXY at hw
  simp only [Fl.sub_fin, Fl.add_fin, ha0, ha9, hb0, hb9, LatLon.new, na0, na9, hc0, hc9, g0, g9, Res.ok.injEq, Prod.mk.injEq] at hw
  obtain ⟨rfl, rfl⟩ := hw
  simp only at h1 h2
  omega

/-- A grid of one degree around the earth, and places close to the date line on both sides. -/
example : Reasonable (-60) (-180) 60 180 (360, 120) ∧ (2 : Nat) ≤ 360 ∧ (0 : Rat) < 1 ∧ (-60 + 1 / 2 ^ 10 : Rat) ≤ -17 - 1 ∧
    ((-359 / 2 : Rat) - 1 ≤ -180 - 1 / 2 ^ 10 ∧ (180 + 1 / 2 ^ 10 : Rat) ≤ 359 / 2 + 1) :=
  ⟨⟨⟨by norm_num, by norm_num, by norm_num, by norm_num⟩, ⟨by norm_num, by norm_num, by norm_num, by norm_num⟩⟩, by norm_num, by norm_num,
    by norm_num, by norm_num⟩

end Verif.Props
