import Verif.Props.Places

/-!
# C159: the tiles of different zoom levels fit together
-/

namespace Verif.Props

open Verif MapTileCoord MapTileRenderer Spec

theorem rep_double {q : Rat} (h : Rep f32 q) : Rep f32 (2 * q) := by
  obtain ⟨m, e, h1, h2, h3⟩ := h
  refine ⟨m, e + 1, ?_, h2, by omega⟩
  rw [h1, pow2_eq, pow2_eq, zpow_add₀ (by norm_num)]
  ring

theorem rep_scale {q : Rat} (h : Rep f32 q) (z : Nat) : Rep f32 (q * 2 ^ z) := by
  induction z with
  | zero => simpa using h
  | succ z ih =>
    rw [pow_succ, ← mul_assoc, mul_comm _ 2]
    exact rep_double ih

theorem toU32_fin (q : Rat) : Fl.toU32 (Fl.floor (.fin q)) = min ⌊q⌋.toNat (2 ^ 32 - 1) := by
  show min (⌊((⌊q⌋ : Int) : Rat)⌋.toNat) (2 ^ 32 - 1) = _
  rw [Int.floor_intCast]

theorem toU32_neg {q : Rat} (h : q < 0) : Fl.toU32 (Fl.floor (rnd f32 q)) = 0 := by
  have h1 := Fl.rnd_le_fin prec32 (show IsFl f32 (.fin 0) from ⟨rep_zero _, by rw [abs_zero]; exact pow2_pos _⟩) h.le
  have h2 := Fl.toUInt_mono (m := 2 ^ 32 - 1) (Fl.floor_mono h1)
  have h3 : Fl.toUInt (2 ^ 32 - 1) (Fl.floor (.fin 0)) = 0 := by decide +kernel
  rw [h3] at h2
  exact Nat.le_zero.mp h2

/-- A float times a power of two, as a whole number: halving the result is taking the power before. -/
theorem scaled_half {f : Fl} (hf : IsFl f32 f) (z : Nat)
    (h : Fl.toU32 (Fl.floor (Fl.mul f32 f (.fin (2 ^ (z + 1))))) < 2 ^ 32 - 1) :
    Fl.toU32 (Fl.floor (Fl.mul f32 f (.fin (2 ^ (z + 1))))) / 2 = Fl.toU32 (Fl.floor (Fl.mul f32 f (.fin (2 ^ z)))) := by
  have p : ∀ k : Nat, (0 : Rat) < 2 ^ k := fun k => by positivity
  have hinf : ∀ k : Nat, Fl.mul f32 .pinf (.fin (2 ^ k)) = .pinf ∧ Fl.mul f32 .ninf (.fin (2 ^ k)) = .ninf ∧
      Fl.mul f32 .nan (.fin (2 ^ k)) = .nan := by
    intro k
    have := p k
    have : Fl.infSign (2 ^ k) = .pinf := by
      unfold Fl.infSign
      rw [if_pos this]
    exact ⟨this, by show Fl.neg _ = _; rw [this]; rfl, rfl⟩
  cases f with
  | nan => rw [(hinf _).2.2, (hinf _).2.2]; decide
  | ninf => rw [(hinf _).2.1, (hinf _).2.1]; decide
  | pinf => rw [(hinf _).1] at h; exact absurd h (by decide +kernel)
  | fin q =>
    rw [Fl.mul_fin] at h ⊢
    rw [Fl.mul_fin]
    rcases lt_or_ge q 0 with hq | hq
    · rw [toU32_neg (mul_neg_of_neg_of_pos hq (p _)), toU32_neg (mul_neg_of_neg_of_pos hq (p _))]
    · have r1 := rep_scale hf.1 (z + 1)
      have r0 := rep_scale hf.1 z
      have hnn : 0 ≤ q * 2 ^ z := mul_nonneg hq (p _).le
      have e2 : q * 2 ^ (z + 1) = 2 * (q * 2 ^ z) := by ring
      have hlt : |q * 2 ^ (z + 1)| < pow2 f32.emax := by
        rcases rnd_cases f32 (q * 2 ^ (z + 1)) with c | c | c
        · rw [c.1] at h
          exact absurd h (by decide +kernel)
        · rw [rndq_rep prec32 r1] at c
          have := pow2_pos f32.emax
          have : 0 ≤ q * 2 ^ (z + 1) := mul_nonneg hq (p _).le
          linarith [c.2]
        · rw [rndq_rep prec32 r1] at c
          exact c.2
      have hlt0 : |q * 2 ^ z| < pow2 f32.emax := by
        rw [abs_of_nonneg hnn]
        rw [e2, abs_of_nonneg (by linarith)] at hlt
        linarith
      rw [rnd_exact prec32 r1 hlt] at h ⊢
      rw [rnd_exact prec32 r0 hlt0, toU32_fin]
      rw [toU32_fin] at h ⊢
      rw [e2] at h ⊢
      have h2 : ⌊2 * (q * 2 ^ z)⌋.toNat < 2 ^ 32 - 1 := by
        rcases min_lt_iff.mp h with h | h
        · exact h
        · exact absurd h (lt_irrefl _)
      have h3 : ⌊2 * (q * 2 ^ z)⌋.toNat / 2 = ⌊q * 2 ^ z⌋.toNat := by
        obtain ⟨n, hn⟩ : ∃ n : Nat, ⌊q * 2 ^ z⌋ = n := ⟨⌊q * 2 ^ z⌋.toNat, (Int.toNat_of_nonneg (Int.floor_nonneg.mpr hnn)).symm⟩
        obtain ⟨k, hk⟩ : ∃ k : Nat, ⌊2 * (q * 2 ^ z)⌋ = k :=
          ⟨⌊2 * (q * 2 ^ z)⌋.toNat, (Int.toNat_of_nonneg (Int.floor_nonneg.mpr (by linarith))).symm⟩
        rw [hn, hk, Int.toNat_natCast, Int.toNat_natCast]
        rw [Int.floor_eq_iff] at hn hk
        push_cast at hn hk
        have a1 : k < 2 * n + 2 := by
          have : (k : Rat) < 2 * n + 2 := by linarith [hn.2, hk.1]
          exact_mod_cast this
        have a2 : 2 * n < k + 1 := by
          have : (2 * n : Rat) < k + 1 := by linarith [hn.1, hk.2]
          exact_mod_cast this
        omega
      rw [min_eq_left h2.le, h3, min_eq_left (by omega)]

theorem isFl_div (a : Fl) {b : Rat} (hb : b ≠ 0) : IsFl f32 (Fl.div f32 a (.fin b)) := by
  cases a with
  | fin q => rw [Fl.div_fin _ _ hb]; exact isFl_rnd _ _
  | _ => unfold Fl.div; (repeat' split) <;> trivial

/-- C159: the tile of a position at a zoom level is the parent of its tile at the next level: half the column, half the row,
rounded down, as long as the numbers do not exceed the range of tile numbers. -/
theorem C159_parent (m : Libm) (pos : LatLon) (z : Nat) (hz : z + 1 ≤ 31) :
    ∃ t t', fromPosition m pos z = .ok t ∧ fromPosition m pos (z + 1) = .ok t' ∧
      (t'.x < 2 ^ 32 - 1 → t'.x / 2 = t.x) ∧ (t'.y < 2 ^ 32 - 1 → t'.y / 2 = t.y) := by
  unfold fromPosition
  rw [zoomPow_eq (by omega), zoomPow_eq hz]
  refine ⟨_, _, rfl, rfl, fun h => ?_, fun h => ?_⟩
  · exact scaled_half (isFl_div _ (by norm_num)) z h
  · exact scaled_half (isFl_div _ (by norm_num)) z h

/-- C159: the north-west corner of a tile is exactly that of the first of its four children. -/
theorem C159_corner (m : Libm) (x y z : Nat) (hx : x ≤ 2 ^ 23) (hy : y ≤ 2 ^ 22) (hz : z + 1 ≤ 31) :
    ∃ p, toPosition m ⟨x, y, z⟩ = .ok p ∧ toPosition m ⟨2 * x, 2 * y, z + 1⟩ = .ok p := by
  unfold toPosition
  rw [zoomPow_eq (show z ≤ 31 by omega), zoomPow_eq hz]
  refine ⟨_, rfl, ?_⟩
  have e1 : ∀ n : Nat, n ≤ 2 ^ 24 → Fl.ofNat f32 n = .fin n := fun n h => rnd32_nat h
  have p : ∀ k : Nat, (2 : Rat) ^ k ≠ 0 := fun k => by positivity
  have e2 : longitude (2 * x) (.fin (2 ^ (z + 1))) = longitude x (.fin (2 ^ z)) := by
    unfold longitude
    rw [e1 _ (by omega), e1 _ (by omega), Fl.div_fin _ _ (p _), Fl.div_fin _ _ (p _)]
    congr 3
    push_cast
    rw [pow_succ]
    field_simp
  have e3 : latitude m (2 * y) (.fin (2 ^ (z + 1))) = latitude m y (.fin (2 ^ z)) := by
    unfold latitude
    have h2 : ∀ n : Nat, n ≤ 2 ^ 23 → rnd f32 (2 * (n : Rat)) = .fin (2 * (n : Rat)) := by
      intro n h
      have := rnd32_nat (n := 2 * n) (by omega)
      push_cast at this
      exact this
    rw [e1 _ (by omega), e1 _ (by omega), Fl.mul_fin, Fl.mul_fin, h2 _ (by omega), h2 _ (by omega), Fl.div_fin _ _ (p _),
      Fl.div_fin _ _ (p _)]
    congr 5
    push_cast
    rw [pow_succ]
    field_simp
  show Res.ok (LatLon.mk _ _) = Res.ok (LatLon.mk _ _)
  rw [e2, e3]

/-- The corners of an area have tile numbers in range at a zoom level. -/
def Fits (m : Libm) (e : LatLonExtent) (z : Nat) : Prop :=
  ∀ p ∈ [e.minCoord, e.maxCoord], ∃ t, fromPosition m p z = .ok t ∧ t.x < 2 ^ 32 - 1 ∧ t.y < 2 ^ 32 - 1

theorem Fits.corner {m : Libm} {e : LatLonExtent} {z : Nat} (hf : Fits m e (z + 1)) (hz : z + 1 ≤ 31) {p : LatLon}
    (hp : p ∈ [e.minCoord, e.maxCoord]) : ∃ t t', fromPosition m p z = .ok t ∧ fromPosition m p (z + 1) = .ok t' ∧
      t'.x / 2 = t.x ∧ t'.y / 2 = t.y := by
  obtain ⟨t, t', h1, h2, h3, h4⟩ := C159_parent m p z hz
  obtain ⟨u, u1, u2, u3⟩ := hf p hp
  rw [h2] at u1
  cases u1
  exact ⟨t, t', h1, h2, h3 u2, h4 u3⟩

/-- C159: whatever the schedule, if all tiles of an area are made, then with each tile also its parent is made, and of the
children of each tile at least one, as far as the zoom levels go. -/
theorem C159_pyramid {T : Type} (m : Libm) (e : LatLonExtent) (zooms : Nat × Nat) (hz : zooms.2 ≤ 31)
    (hf : ∀ z, zooms.1 < z → z ≤ zooms.2 → Fits m e z) (valueFn : LatLon → Res (Option T)) (colorFn : T → Color)
    (trace : List Saved) (h : runAllTiles m e zooms valueFn colorFn trace .done) :
    (∀ t ∈ trace.map Saved.tile, zooms.1 < t.zoom → ⟨t.x / 2, t.y / 2, t.zoom - 1⟩ ∈ trace.map Saved.tile) ∧
    (∀ t ∈ trace.map Saved.tile, t.zoom < zooms.2 →
      ∃ c ∈ trace.map Saved.tile, c.x / 2 = t.x ∧ c.y / 2 = t.y ∧ c.zoom = t.zoom + 1) := by
  obtain ⟨-, hi, -⟩ := C32_exactly_once m e zooms valueFn colorFn trace h
  have key : ∀ z, zooms.1 ≤ z → z < zooms.2 → ∃ a b a' b', fromPosition m e.minCoord z = .ok a ∧
      fromPosition m e.maxCoord z = .ok b ∧ fromPosition m e.minCoord (z + 1) = .ok a' ∧
      fromPosition m e.maxCoord (z + 1) = .ok b' ∧ a'.x / 2 = a.x ∧ a'.y / 2 = a.y ∧ b'.x / 2 = b.x ∧ b'.y / 2 = b.y := by
    intro z h1 h2
    obtain ⟨a, a', a1, a2, a3, a4⟩ := (hf (z + 1) (by omega) (by omega)).corner (by omega) (p := e.minCoord) (by simp)
    obtain ⟨b, b', b1, b2, b3, b4⟩ := (hf (z + 1) (by omega) (by omega)).corner (by omega) (p := e.maxCoord) (by simp)
    exact ⟨a, b, a', b', a1, b1, a2, b2, a3, a4, b3, b4⟩
  refine ⟨fun t ht h1 => ?_, fun t ht h1 => ?_⟩
  · rw [hi] at ht ⊢
    obtain ⟨n1, n2, a', b', ha', hb', n3, n4, n5, n6⟩ := ht
    obtain ⟨z, hz1⟩ : ∃ z, t.zoom = z + 1 := ⟨t.zoom - 1, by omega⟩
    obtain ⟨a, b, a2, b2, k1, k2, k3, k4, c1, c2, c3, c4⟩ := key z (by omega) (by omega)
    rw [hz1] at ha' hb'
    rw [k3] at ha'
    rw [k4] at hb'
    cases ha'
    cases hb'
    refine ⟨by simp only; omega, by simp only; omega, a, b, ?_, ?_, ?_⟩
    · simp only [hz1, Nat.add_sub_cancel]; exact k1
    · simp only [hz1, Nat.add_sub_cancel]; exact k2
    · simp only
      omega
  · rw [hi] at ht
    obtain ⟨n1, n2, a, b, ha, hb, n3, n4, n5, n6⟩ := ht
    obtain ⟨a0, b0, a', b', k1, k2, k3, k4, c1, c2, c3, c4⟩ := key t.zoom n1 h1
    rw [ha] at k1
    rw [hb] at k2
    cases k1
    cases k2
    refine ⟨⟨max (2 * t.x) (min a'.x b'.x), max (2 * t.y) (min a'.y b'.y), t.zoom + 1⟩, ?_, ?_, ?_, rfl⟩
    · rw [hi]
      refine ⟨by simp only; omega, by simp only; omega, a', b', k3, k4, ?_⟩
      simp only
      omega
    · simp only; omega
    · simp only; omega

/-- The condition holds for areas between the equator and 75 degrees north, up to zoom level 18. -/
theorem fits_north (m : Libm) (hm : AccurateRow m) (south west north east : Rat) (h0 : 0 ≤ south) (h1 : south ≤ north)
    (h2 : north ≤ 75) (h4 : west ≤ 180) (h5 : east ≤ 180) (z : Nat) (hz : z ≤ 18) :
    Fits m (finExtent south west north east) z := by
  have pz : (2 : ℝ) ^ z ≤ 2 ^ 18 := pow_le_pow_right₀ (by norm_num) hz
  have row : ∀ lat : Rat, 0 ≤ lat → lat ≤ 75 → ∀ lon : Rat, lon ≤ 180 → ∃ t, fromPosition m ⟨.fin lat, .fin lon⟩ z = .ok t ∧
      t.x < 2 ^ 32 - 1 ∧ t.y < 2 ^ 32 - 1 := by
    intro lat l0 l1 lon l2
    obtain ⟨t, e1, -, e2, -⟩ := C103_row m hm lat l0 l1 (.fin lon) z (by omega)
    refine ⟨t, e1, ?_, ?_⟩
    · unfold fromPosition at e1
      rw [zoomPow_eq (by omega)] at e1
      cases e1
      have c := column_mono (p := 2 ^ z) (by positivity) (show Fl.le (.fin lon) (.fin 180) = true by rwa [Fl.le_fin])
      have c2 := column_west hz (le_refl (2 ^ z))
      have e180 : MapTileCoord.west (2 ^ z) z = 180 := by
        unfold MapTileCoord.west; push_cast
        rw [mul_div_assoc, div_self (by positivity)]; norm_num
      rw [e180] at c2
      rw [c2] at c
      have : 2 ^ z ≤ 2 ^ 18 := Nat.pow_le_pow_right (by norm_num) hz
      simp only
      omega
    · have hy : mercatorY lat ≤ 1 / 2 + 1 := by
        have h3 := mercatorY_mono (a := 0) (b := lat) le_rfl (by exact_mod_cast l0) (by exact_mod_cast l1)
        have h4 : mercatorY 0 = 1 / 2 := by
          unfold mercatorY
          rw [zero_mul, Real.tan_zero, Real.arsinh_zero]
          norm_num
        rw [h4] at h3
        linarith
      have : (t.y : ℝ) ≤ 2 ^ 18 * 2 := by
        refine e2.trans ?_
        have : mercatorY lat + 2 / 10 ^ 6 ≤ 2 := by norm_num at *; linarith
        by_cases hpos : 0 ≤ mercatorY lat + 2 / 10 ^ 6
        · gcongr
        · push Not at hpos
          have : (0 : ℝ) < 2 ^ z := by positivity
          nlinarith
      have : t.y ≤ 2 ^ 18 * 2 := by exact_mod_cast this
      omega
  intro p hp
  simp only [finExtent, List.mem_cons, List.not_mem_nil, or_false] at hp
  rcases hp with rfl | rfl
  · exact row south h0 (by linarith) west h4
  · exact row north (by linarith) h2 east h5

/-- For the area of Switzerland the conditions hold at all zoom levels that are used. -/
example : ∃ m, AccurateRow m ∧ ∀ z, 0 < z → z ≤ 10 → Fits m (finExtent 45 5 48 11) z := by
  obtain ⟨m, hm⟩ := exists_accurateRow
  exact ⟨m, hm, fun z _ hz => fits_north m hm 45 5 48 11 (by norm_num) (by norm_num) (by norm_num) (by norm_num) (by norm_num) z
    (by omega)⟩

/-- Concrete columns: 7.5 degrees east is in column 533 of level 10 and in column 266 of level 9. -/
example : column (.fin (15 / 2)) (.fin (2 ^ 10)) = 533 ∧ column (.fin (15 / 2)) (.fin (2 ^ 9)) = 266 := by decide +kernel

end Verif.Props
