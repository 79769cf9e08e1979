import Verif.Lemmas.FloatOps
import Verif.Model.Geo

/-!
# Lemmas about coordinates and regular grids
-/

namespace Verif

/-- Multiples of 2^-16 up to 256 are exact in binary32. -/
theorem rep_grid {q : Rat} {n : Int} (h : q = n * pow2 (-16)) (hb : |q| ≤ 256) : Rep f32 q := by
  refine ⟨n, -16, h, ?_, by decide⟩
  have h16 : (pow2 (-16) : Rat) = 1 / 65536 := by decide +kernel
  rw [h16] at h
  rw [abs_le] at hb ⊢
  have e : (n : Rat) = q * 65536 := by rw [h]; ring
  have h1 : (-(2 ^ 24 : Int) : Rat) ≤ n := by rw [e]; norm_num; linarith [hb.1]
  have h2 : (n : Rat) ≤ (2 ^ 24 : Int) := by rw [e]; norm_num; linarith [hb.2]
  exact ⟨by exact_mod_cast h1, by exact_mod_cast h2⟩

/-- Every binary32 number of magnitude at least 128 is a multiple of 2^-16. -/
theorem grid_of_rep {q : Rat} (hr : Rep f32 q) (h : 128 ≤ |q|) : ∃ n : Int, q = n * pow2 (-16) := by
  obtain ⟨m, e, h1, h2, -⟩ := hr
  have he : -17 ≤ e := by
    by_contra hc
    have hm : (|m| : Rat) ≤ 2 ^ 24 := by exact_mod_cast h2
    have hp := pow2_mono (show e ≤ -18 by omega)
    have hp0 := pow2_pos e
    rw [h1, abs_mul, abs_of_pos hp0] at h
    have : (pow2 (-18) : Rat) = 1 / 2 ^ 18 := by decide +kernel
    rw [this] at hp
    have h3 : (|(m : Rat)|) * pow2 e ≤ 2 ^ 24 * (1 / 2 ^ 18) :=
      mul_le_mul hm hp hp0.le (by norm_num)
    norm_num at h3
    linarith
  rcases eq_or_lt_of_le he with he | he
  · -- magnitude exactly 128
    subst he
    have hm : (|m| : Rat) ≤ 2 ^ 24 := by exact_mod_cast h2
    have hp : (pow2 (-17) : Rat) = 1 / 2 ^ 17 := by decide +kernel
    have hp6 : (pow2 (-16) : Rat) = 1 / 2 ^ 16 := by decide +kernel
    rw [h1, abs_mul, abs_of_pos (pow2_pos _), hp] at h
    have h3 : (|m| : Rat) = 2 ^ 24 := by
      apply le_antisymm hm
      norm_num at h ⊢
      linarith
    rcases abs_choice (m : Rat) with h4 | h4
    · refine ⟨2 ^ 23, ?_⟩
      rw [h1, hp, hp6, ← h4, h3]; norm_num
    · refine ⟨-2 ^ 23, ?_⟩
      have : (m : Rat) = -2 ^ 24 := by linarith
      rw [h1, hp, hp6, this]; norm_num
  · obtain ⟨k, hk, -⟩ := pow2_int (show (0 : Int) ≤ e + 16 by omega)
    refine ⟨m * k, ?_⟩
    rw [h1, show e = (e + 16) + (-16) by ring, pow2_add, hk]
    push_cast
    ring

theorem rnd_grid {q : Rat} {n : Int} (h : q = n * pow2 (-16)) (hb : |q| ≤ 256) :
    rnd f32 q = .fin q := by
  apply rnd_exact prec32 (rep_grid h hb)
  refine lt_of_le_of_lt hb ?_
  decide +kernel

/-- Integers are multiples of 2^-16. -/
theorem int_grid (k : Int) : (k : Rat) = ((k * 65536 : Int) : Rat) * pow2 (-16) := by
  have h16 : (pow2 (-16) : Rat) = 1 / 65536 := by decide +kernel
  rw [h16]; push_cast; ring

theorem Fl.truncQ_spec (q : Rat) : |q - Fl.truncQ q| < 1 ∧ (0 ≤ q → 0 ≤ q - Fl.truncQ q) ∧
    (q ≤ 0 → q - Fl.truncQ q ≤ 0) := by
  unfold Fl.truncQ
  split
  · rename_i h
    have h1 := Int.floor_le q
    have h2 := Int.lt_floor_add_one q
    refine ⟨by rw [abs_lt]; constructor <;> linarith, fun _ => by linarith, fun h' => ?_⟩
    have : q = 0 := _root_.le_antisymm h' h
    subst this; simp
  · rename_i h
    have h1 := Int.floor_le (-q)
    have h2 := Int.lt_floor_add_one (-q)
    push_cast
    refine ⟨by rw [abs_lt]; constructor <;> linarith, fun h' => absurd h' h, fun _ => by linarith⟩

/-- Normalisation of a finite coordinate: the unique value in [-180, 180) that differs from it by a
whole number of turns. -/
theorem normalise_spec {v : Rat} (hv : Rep f32 v) :
    ∃ (w : Rat) (k : Int), LatLon.normalise (.fin v) = .fin w ∧ v = w + 360 * k ∧ -180 ≤ w ∧ w < 180 := by
  by_cases h1 : -180 ≤ v ∧ v < 180
  · refine ⟨v, 0, ?_, by simp, h1.1, h1.2⟩
    unfold LatLon.normalise
    have e1 : Fl.ge (.fin v) (.fin 360) = false := by
      simp only [Fl.ge, Fl.le, decide_eq_false_iff_not, not_le]; linarith [h1.2]
    have e2 : Fl.lt (.fin v) (.fin (-180)) = false := by
      simp only [Fl.lt, decide_eq_false_iff_not, not_lt]; linarith [h1.1]
    have e3 : Fl.ge (.fin v) (.fin 180) = false := by
      simp only [Fl.ge, Fl.le, decide_eq_false_iff_not, not_le]; linarith [h1.2]
    simp [e1, e2, e3]
  · -- |v| ≥ 180, hence a multiple of 2^-16
    have habs : 128 ≤ |v| := by
      rw [not_and_or, not_le, not_lt] at h1
      rw [le_abs]
      rcases h1 with h1 | h1
      · right; linarith
      · left; linarith
    obtain ⟨n, hn⟩ := grid_of_rep hv habs
    -- first stage: u in [0,360) or u = v in [180,360)
    have stage1 : ∃ (u : Rat) (k m : Int),
        (if Fl.ge (.fin v) (.fin 360) || Fl.lt (.fin v) (.fin (-180)) then
          Fl.remEuclid f32 (.fin v) (.fin 360) else .fin v) = .fin u ∧ v = u + 360 * k ∧ 0 ≤ u ∧
          u < 360 ∧ u = m * pow2 (-16) := by
      by_cases h2 : 360 ≤ v ∨ v < -180
      · rw [if_pos (by simpa [Fl.ge, Fl.le, Fl.lt] using h2)]
        obtain ⟨t1, t2, t3⟩ := Fl.truncQ_spec (v / 360)
        set tr := Fl.truncQ (v / 360) with htr
        have hrem : Fl.rem (.fin v) (.fin 360) = .fin (v - 360 * tr) := by
          simp [Fl.rem, htr]
        have hscale : v - 360 * tr = 360 * (v / 360 - tr) := by ring
        have hgrid : v - 360 * tr = ((n - 360 * tr * 65536 : Int) : Rat) * pow2 (-16) := by
          conv_lhs => rw [hn]
          have := int_grid (360 * tr)
          push_cast at this ⊢
          linarith
        unfold Fl.remEuclid
        rw [hrem]
        rw [abs_lt] at t1
        by_cases h3 : v - 360 * tr < 0
        · have e : Fl.lt (.fin (v - 360 * tr)) (.fin 0) = true := by simpa [Fl.lt] using h3
          simp only [e, if_true, Fl.abs]
          rw [abs_of_pos (by norm_num : (0 : Rat) < 360), Fl.add_fin]
          -- v is negative here
          have hvneg : v < 0 := by
            by_contra hc
            have := t2 (by have := not_lt.mp hc; positivity)
            linarith
          have hlow : -360 < v - 360 * tr := by rw [hscale]; linarith [t1.1]
          have hg2 : v - 360 * tr + 360 =
              ((n - 360 * tr * 65536 + 360 * 65536 : Int) : Rat) * pow2 (-16) := by
            rw [hgrid]
            have := int_grid 360
            push_cast at this ⊢
            linarith
          have hval : rnd f32 (v - 360 * tr + 360) = .fin (v - 360 * tr + 360) := by
            by_cases h4 : v - 360 * tr + 360 ≤ 256
            · exact rnd_grid hg2 (by rw [abs_of_pos (by linarith)]; exact h4)
            · -- then v < -360 and v is a multiple of 2^-15
              have hv256 : 256 ≤ |v| := by
                rw [abs_of_neg hvneg]
                by_contra hc
                have hv3 : -256 < v := by linarith
                have htr0 : tr = 0 := by
                  rw [htr]; unfold Fl.truncQ
                  rw [if_neg (by rw [not_le]; apply div_neg_of_neg_of_pos hvneg; norm_num)]
                  rw [neg_eq_zero, Int.floor_eq_iff]
                  constructor <;> norm_num <;> linarith
                rw [htr0] at h4
                push_cast at h4
                rcases h2 with h2 | h2 <;> linarith
              obtain ⟨n2, hn2⟩ : ∃ n2 : Int, v = n2 * pow2 (-15) := by
                have h128 : 128 ≤ |v / 2| := by
                  rw [abs_div, abs_of_pos (by norm_num : (0 : Rat) < 2)]; linarith
                obtain ⟨m, e, q1, q2, q3⟩ := hv
                -- v/2 is representable since v is large
                have hrep : Rep f32 (v / 2) := by
                  refine ⟨m, e - 1, ?_, q2, ?_⟩
                  · rw [q1, pow2_sub, pow2_one]; ring
                  · by_contra hc
                    have he : e ≤ -149 := by
                      have : f32.emin = -149 := rfl
                      omega
                    have hp := pow2_mono he
                    have hp0 := pow2_pos e
                    have hm : (|m| : Rat) ≤ 2 ^ 24 := by exact_mod_cast q2
                    rw [q1, abs_mul, abs_of_pos hp0] at habs
                    have h5 : (|(m : Rat)|) * pow2 e ≤ 2 ^ 24 * pow2 (-149) :=
                      mul_le_mul hm hp hp0.le (by norm_num)
                    have h6 : (2 : Rat) ^ 24 * pow2 (-149) < 128 := by decide +kernel
                    linarith
                obtain ⟨n2, hn2⟩ := grid_of_rep hrep h128
                refine ⟨n2, ?_⟩
                rw [show (-15 : Int) = -16 + 1 by norm_num, pow2_add, pow2_one]
                linarith
              apply rnd_exact prec32
              · refine ⟨n2 - 360 * tr * 32768 + 360 * 32768, -15, ?_, ?_, by decide⟩
                · have h15 : (pow2 (-15) : Rat) = 1 / 32768 := by decide +kernel
                  rw [h15] at hn2 ⊢
                  conv_lhs => rw [hn2]
                  push_cast; ring
                · have h15 : (pow2 (-15) : Rat) = 1 / 32768 := by decide +kernel
                  have e5 : ((n2 - 360 * tr * 32768 + 360 * 32768 : Int) : Rat) =
                      (v - 360 * tr + 360) * 32768 := by
                    rw [h15] at hn2
                    conv_rhs => rw [hn2]
                    push_cast; ring
                  have b1 : (0 : Rat) ≤ ((n2 - 360 * tr * 32768 + 360 * 32768 : Int) : Rat) := by
                    rw [e5]; apply mul_nonneg <;> linarith
                  have b2 : ((n2 - 360 * tr * 32768 + 360 * 32768 : Int) : Rat) ≤ (2 ^ 24 : Int) := by
                    rw [e5]; norm_num; linarith
                  have b1' : (0 : Int) ≤ n2 - 360 * tr * 32768 + 360 * 32768 := by exact_mod_cast b1
                  rw [abs_of_nonneg b1']
                  exact_mod_cast b2
              · rw [abs_of_pos (by linarith), show pow2 f32.emax = 2 ^ 128 by decide +kernel]
                have : (360 : Rat) < 2 ^ 128 := by norm_num
                linarith
          exact ⟨v - 360 * tr + 360, tr - 1, _, hval, by push_cast; ring, by linarith, by linarith, hg2⟩
        · have e : Fl.lt (.fin (v - 360 * tr)) (.fin 0) = false := by
            simpa [Fl.lt] using h3
          simp only [e]
          refine ⟨v - 360 * tr, tr, _, by simp, by ring, by linarith, ?_, hgrid⟩
          rw [hscale]; linarith [t1.2]
      · rw [if_neg (by simpa [Fl.ge, Fl.le, Fl.lt] using h2)]
        rw [not_or, not_le, not_lt] at h2
        refine ⟨v, 0, n, rfl, by simp, ?_, h2.1, hn⟩
        rw [not_and_or, not_le, not_lt] at h1
        rcases h1 with h1 | h1
        · linarith [h2.2]
        · linarith
    obtain ⟨u, k, m, s1, s2, s3, s4, s5⟩ := stage1
    unfold LatLon.normalise
    rw [s1]
    by_cases h5 : 180 ≤ u
    · have e : Fl.ge (.fin u) (.fin 180) = true := by simpa [Fl.ge, Fl.le] using h5
      simp only [e, if_true]
      refine ⟨u - 360, k + 1, ?_, by push_cast; linarith, by linarith, by linarith⟩
      rw [Fl.sub_fin]
      refine rnd_grid (n := m - 360 * 65536) ?_ (by rw [abs_le]; constructor <;> linarith)
      rw [s5]
      have := int_grid 360
      push_cast at this ⊢
      linarith
    · have e : Fl.ge (.fin u) (.fin 180) = false := by simpa [Fl.ge, Fl.le] using h5
      simp only [e]
      exact ⟨u, k, by simp, s2, by linarith, by linarith⟩

theorem normalise_id {v : Rat} (h1 : -180 ≤ v) (h2 : v < 180) : LatLon.normalise (.fin v) = .fin v := by
  unfold LatLon.normalise
  have e1 : Fl.ge (.fin v) (.fin 360) = false := by
    simp only [Fl.ge, Fl.le, decide_eq_false_iff_not, not_le]; linarith
  have e2 : Fl.lt (.fin v) (.fin (-180)) = false := by
    simp only [Fl.lt, decide_eq_false_iff_not, not_lt]; linarith
  have e3 : Fl.ge (.fin v) (.fin 180) = false := by
    simp only [Fl.ge, Fl.le, decide_eq_false_iff_not, not_le]; linarith
  simp [e1, e2, e3]

end Verif
