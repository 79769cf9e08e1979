import Verif.Props.Layer
import Verif.Props.Metobin
import Verif.Props.Physics
import Verif.Model.Readers

/-!
# The bytes written for layers whose cells hold given numbers up to rounding
-/

namespace Verif.Props

open Verif
open Verif.Spec (Filled cell)

/-- The cells of a grid of binary32 numbers hold the given numbers up to rounding, with -1 for missing ones. -/
def Holds (G : LatLonValueGrid Fl) (ni nj : Nat) (P : Nat → Nat → Option Rat) : Prop :=
  Filled G ni nj ∧ ∀ x y, x < ni → y < nj → (P x y = none → cell G ni x y = none) ∧
    ∀ q, P x y = some q → ∃ v : Rat, |v - q| ≤ |q| / 2 ^ 22 + 1 / 2 ^ 110 ∧
      cell G ni x y = if v = -1 then none else some (.fin v)

/-- The cells of a grid of bytes hold the codes of the given numbers. -/
def HoldsBytes (G : LatLonValueGrid UInt8) (missing : UInt8) (f : Fl → UInt8) (ni nj : Nat)
    (P : Nat → Nat → Option Rat) : Prop :=
  Filled G ni nj ∧ ∀ x y, x < ni → y < nj → (P x y = none → cell G ni x y = none) ∧
    ∀ q, P x y = some q → ∃ v : Rat, |v - q| ≤ |q| / 2 ^ 22 + 1 / 2 ^ 110 ∧
      cell G ni x y = if f (.fin v) = missing then none else some (f (.fin v))

/-! ## Codes -/

theorem floor_byte {v : Rat} (h0 : 0 ≤ v) (h1 : v < 256) :
    ((UInt8.ofNat (Fl.toU8 (.fin v))).toNat : Rat) ≤ v ∧ v < (UInt8.ofNat (Fl.toU8 (.fin v))).toNat + 1 := by
  have hf0 : 0 ≤ ⌊v⌋ := Int.floor_nonneg.mpr h0
  have hf1 : ⌊v⌋ < 256 := Int.floor_lt.mpr (by exact_mod_cast h1)
  have e : (UInt8.ofNat (Fl.toU8 (.fin v))).toNat = ⌊v⌋.toNat := by
    have := Metobin.asU8_toNat (.fin v)
    unfold Metobin.asU8 at this
    rw [this]
    simp only [Fl.toU8, Fl.toUInt]
    omega
  have e' : ((UInt8.ofNat (Fl.toU8 (.fin v))).toNat : Rat) = (⌊v⌋ : Rat) := by
    rw [e]
    have : ((⌊v⌋.toNat : Int) : Rat) = ((⌊v⌋ : Int) : Rat) := by rw [Int.toNat_of_nonneg hf0]
    exact_mod_cast this
  rw [e']
  exact ⟨Int.floor_le v, Int.lt_floor_add_one v⟩

theorem byte_eq_of_toNat {b c : UInt8} (h : b.toNat = c.toNat) : b = c := UInt8.toNat_inj.mp h

theorem byte_zero_of_lt {b : UInt8} (h : (b.toNat : Rat) < 1) : b = 0 := by
  have : b.toNat < 1 := by exact_mod_cast h
  exact byte_eq_of_toNat (by simpa using this)

theorem byte_ne_zero_of {b : UInt8} (h : (0 : Rat) < b.toNat) : b ≠ 0 := by
  rintro rfl; simp at h

theorem byte_ne_255_of {b : UInt8} (h : (b.toNat : Rat) < 255) : b ≠ 255 := by
  rintro rfl
  have : (UInt8.toNat 255 : Rat) = 255 := rfl
  linarith

/-- A cloud cover in percent, read to a byte. -/
theorem clcByte_acc {v q : Rat} (h : |v - q| ≤ |q| / 2 ^ 22 + 1 / 2 ^ 110) :
    (1001 / 1000 ≤ q → q ≤ 254 → clcByte (.fin v) ≠ 0 ∧ clcByte (.fin v) ≠ 255 ∧
      q - 1 - 1 / 1000 ≤ (clcByte (.fin v)).toNat ∧ ((clcByte (.fin v)).toNat : Rat) ≤ q + 1 / 1000) ∧
    (0 ≤ q → q ≤ 999 / 1000 → clcByte (.fin v) = 0) := by
  constructor
  · intro q1 q2
    rw [abs_of_nonneg (by linarith : 0 ≤ q)] at h
    have h := abs_le.mp (h.trans (show _ ≤ (1 / 1000 : Rat) by linarith))
    obtain ⟨f1, f2⟩ := floor_byte (v := v) (by linarith [h.1]) (by linarith [h.2])
    change ((clcByte (.fin v)).toNat : Rat) ≤ v at f1
    change v < ((clcByte (.fin v)).toNat : Rat) + 1 at f2
    refine ⟨byte_ne_zero_of (by linarith [h.1]), byte_ne_255_of (by linarith [h.2]), by linarith [h.1], by linarith [h.2]⟩
  · intro q1 q2
    rw [abs_of_nonneg q1] at h
    have h := abs_le.mp (h.trans (show _ ≤ (1 / 2000 : Rat) by linarith))
    rcases le_or_gt 0 v with v0 | v0
    · obtain ⟨f1, _⟩ := floor_byte v0 (by linarith [h.2])
      exact byte_zero_of_lt (by change ((clcByte (.fin v)).toNat : Rat) ≤ v at f1; linarith [h.2])
    · have : ⌊v⌋.toNat = 0 := by
        have : ⌊v⌋ < 0 := Int.floor_lt.mpr (by exact_mod_cast v0)
        omega
      unfold clcByte
      simp only [Fl.toU8, Fl.toUInt, this]
      rfl

/-- A height in meters, read to a byte. -/
theorem hhlByte_acc {v q : Rat} (h : |v - q| ≤ |q| / 2 ^ 22 + 1 / 2 ^ 110) :
    (1001 / 10 ≤ q * (328084 / 100000) → q * (328084 / 100000) ≤ 25499 → hhlByte (.fin v) ≠ 0 ∧ hhlByte (.fin v) ≠ 255 ∧
      q * (328084 / 100000) - 100 - 1 / 10 ≤ (hhlByte (.fin v)).toNat * 100 ∧
      ((hhlByte (.fin v)).toNat : Rat) * 100 ≤ q * (328084 / 100000) + 1 / 10) ∧
    (0 ≤ q → q * (328084 / 100000) ≤ 999 / 10 → hhlByte (.fin v) = 0) ∧
    (25501 ≤ q * (328084 / 100000) → q ≤ 100000 → hhlByte (.fin v) = 255) := by
  have key : 0 ≤ q → q ≤ 100000 → ∃ d : Rat, |d - q * (328084 / 100000) / 100| ≤ q / 50000000 + 1 / 2 ^ 100 ∧
      hhlByte (.fin v) = UInt8.ofNat (Fl.toU8 (.fin d)) := by
    intro q0 q1
    rw [abs_of_nonneg q0] at h
    have h := abs_le.mp h
    have hv : |v| ≤ q + q / 2 ^ 22 + 1 / 2 ^ 110 := by rw [abs_le]; constructor <;> linarith [h.1, h.2]
    obtain ⟨f, hf, ef⟩ := (C57_scale_accuracy (q := v) (by linarith)).1
    have ef' := abs_le.mp (ef.trans (show _ ≤ q * (3 / 2 ^ 22) + 1 / 2 ^ 105 by linarith))
    have hfq : |f / 100| ≤ q * (4 / 100) + 1 / 2 ^ 105 := by
      rw [abs_le]; constructor <;> linarith [ef'.1, ef'.2, h.1, h.2]
    obtain ⟨d, hd, _, ed⟩ := rnd32_err_le hfq (by linarith)
    have ed' := abs_le.mp ed
    refine ⟨d, ?_, ?_⟩
    · rw [abs_le]
      constructor <;> linarith [ef'.1, ef'.2, h.1, h.2, ed'.1, ed'.2]
    · unfold hhlByte
      rw [hf, Fl.div_fin _ _ (by norm_num), hd]
  refine ⟨?_, ?_, ?_⟩
  · intro q1 q2
    obtain ⟨d, hd, he⟩ := key (by linarith) (by linarith)
    have hd := abs_le.mp (hd.trans (show _ ≤ (1 / 1000 : Rat) by linarith))
    obtain ⟨f1, f2⟩ := floor_byte (v := d) (by linarith [hd.1]) (by linarith [hd.2])
    rw [← he] at f1 f2
    refine ⟨byte_ne_zero_of (by linarith [hd.1]), byte_ne_255_of (by linarith [hd.2]), by linarith [hd.1], by linarith [hd.2]⟩
  · intro q1 q2
    obtain ⟨d, hd, he⟩ := key q1 (by linarith)
    have hd := abs_le.mp (hd.trans (show _ ≤ (1 / 2000 : Rat) by linarith))
    rcases le_or_gt 0 d with d0 | d0
    · obtain ⟨f1, _⟩ := floor_byte d0 (by linarith [hd.2])
      rw [← he] at f1
      exact byte_zero_of_lt (by linarith [hd.2])
    · have : ⌊d⌋.toNat = 0 := by
        have : ⌊d⌋ < 0 := Int.floor_lt.mpr (by exact_mod_cast d0)
        omega
      rw [he]
      simp only [Fl.toU8, Fl.toUInt, this]
      rfl
  · intro q1 q2
    obtain ⟨d, hd, he⟩ := key (by linarith) q2
    have hd := abs_le.mp (hd.trans (show _ ≤ (1 / 400 : Rat) by linarith))
    have : 255 ≤ ⌊d⌋ := Int.le_floor.mpr (by push_cast; linarith [hd.1])
    rw [he]
    have e : Fl.toU8 (.fin d) = 255 := by
      simp only [Fl.toU8, Fl.toUInt]
      omega
    rw [e]
    rfl

/-- A wind component, read to a byte. -/
theorem uvByte_eq (x : Fl) : uvByte x = Metobin.speedByte x := rfl

/-! ## Temperature -/

theorem temp_bytes {G : LatLonValueGrid Fl} {ni nj : Nat} {P : Nat → Nat → Option Rat} (h : Holds G ni nj P) :
    ∃ bytes, Metobin.tempBin ⟨G⟩ = .ok bytes ∧ bytes.length = ni * nj ∧
      ∀ x y, x < ni → y < nj → ∃ b : UInt8, bytes[y * ni + x]? = some b ∧ (P x y = none → b = 255) ∧
        ∀ k, P x y = some k → -6399 / 100 ≤ k - 27315 / 100 → k - 27315 / 100 ≤ 6299 / 100 →
          b ≠ 255 ∧ |((b.toNat : Rat) - 128) / 2 - (k - 27315 / 100)| ≤ 1 / 4 + 2 / 1000 := by
  obtain ⟨hfill, hcell⟩ := h
  obtain ⟨bytes, b1, b2, b3⟩ := C37_file (l := ⟨G⟩) hfill
  refine ⟨bytes, b1, b2, fun x y hx hy => ?_⟩
  obtain ⟨b, c1, c2, c3⟩ := b3 x y hx hy
  obtain ⟨p1, p2⟩ := hcell x y hx hy
  refine ⟨b, c1, fun hq => c2 (p1 hq), fun k hk k1 k2 => ?_⟩
  obtain ⟨v, v1, v2⟩ := p2 k hk
  rw [abs_of_nonneg (by linarith : 0 ≤ k)] at v1
  have v1' := abs_le.mp (v1.trans (show _ ≤ (1 / 1000 : Rat) by linarith))
  rw [if_neg (by intro e; linarith [v1'.1])] at v2
  obtain ⟨c4, c5⟩ := c3 v v2 (by linarith [v1'.1]) (by linarith [v1'.2])
  refine ⟨c4, ?_⟩
  have c5' := abs_le.mp c5
  rw [abs_le]
  constructor <;> linarith [c5'.1, c5'.2, v1'.1, v1'.2]

/-! ## Precipitation -/

theorem cloudPrecip_new {C P0 P1 : LatLonValueGrid Fl} {L : CloudPrecipLayer}
    (h : CloudPrecipLayer.new C P0 P1 = .ok L) : L = ⟨C, P0, P1⟩ := by
  by_cases hfit : Fit C P0 ∧ Fit P0 P1
  · rw [(C43_cloud_precip C P0 P1).1.mpr hfit] at h
    exact (Res.ok.inj h).symm
  · rw [(C43_cloud_precip C P0 P1).2.mpr hfit] at h
    cases h

theorem precip_bytes {C P0 P1 : LatLonValueGrid Fl} {ni nj : Nat} {Q0 Q1 : Nat → Nat → Option Rat} (hC : Filled C ni nj)
    (h0 : Holds P0 ni nj Q0) (h1 : Holds P1 ni nj Q1) :
    ∃ bytes, Metobin.precipBin ⟨C, P0, P1⟩ = .ok bytes ∧ bytes.length = ni * nj ∧
      ∀ x y, x < ni → y < nj → ∀ t0 t1, Q0 x y = some t0 → Q1 x y = some t1 →
        0 ≤ t0 → t1 ≤ 1000 → t0 ≤ t1 → t1 - t0 ≤ 126 → ∃ b : UInt8, bytes[y * ni + x]? = some b ∧ b ≠ 255 ∧
          (201 / 1000 ≤ t1 - t0 → t1 - t0 ≤ 499 / 1000 → b = 1) ∧
          (t1 - t0 ≤ 199 / 1000 ∨ 501 / 1000 ≤ t1 - t0 → |(b.toNat : Rat) / 2 - (t1 - t0)| ≤ 1 / 4 + 2 / 1000) := by
  obtain ⟨f0, c0⟩ := h0
  obtain ⟨f1, c1⟩ := h1
  obtain ⟨bytes, b1, b2, b3, _⟩ := C38_file_partial (l := ⟨C, P0, P1⟩) hC f0 f1
  refine ⟨bytes, b1, b2, ?_⟩
  intro x y hx hy t0 t1 h0 h1 z0 z1 z2 z3
  obtain ⟨v0, a0, d0⟩ := (c0 x y hx hy).2 t0 h0
  obtain ⟨v1, a1, d1⟩ := (c1 x y hx hy).2 t1 h1
  rw [abs_of_nonneg z0] at a0
  rw [abs_of_nonneg (by linarith : 0 ≤ t1)] at a1
  have a0 := abs_le.mp (a0.trans (show _ ≤ (3 / 10000 : Rat) by linarith))
  have a1 := abs_le.mp (a1.trans (show _ ≤ (3 / 10000 : Rat) by linarith))
  rw [if_neg (by intro e; linarith [a0.1])] at d0
  rw [if_neg (by intro e; linarith [a1.1])] at d1
  obtain ⟨b, e1, e2⟩ := b3 x y hx hy _ _ d0 d1
  have habs : |v1 - v0| ≤ 127 := by
    rw [abs_le]; constructor <;> linarith [a0.1, a0.2, a1.1, a1.2]
  obtain ⟨a, ha, _, ea⟩ := rnd32_err_le habs (by norm_num)
  have ea := abs_le.mp (ea.trans (show _ ≤ (1 / 10000 : Rat) by norm_num))
  have hsub : Fl.sub f32 (.fin v1) (.fin v0) = .fin a := by rw [Fl.sub_fin, ha]
  obtain ⟨e3, e4, e5⟩ := e2 a hsub (by linarith [a0.1, a0.2, a1.1, a1.2, ea.1]) (by linarith [a0.1, a0.2, a1.1, a1.2, ea.2])
  refine ⟨b, e1, e3, ?_, ?_⟩
  · intro g1 g2
    exact e4 ⟨by linarith [a0.1, a0.2, a1.1, a1.2, ea.1], by linarith [a0.1, a0.2, a1.1, a1.2, ea.2]⟩
  · intro g
    have e5 := abs_le.mp (e5 (by
      rintro ⟨k1, k2⟩
      rcases g with g | g
      · linarith [a0.1, a0.2, a1.1, a1.2, ea.2]
      · linarith [a0.1, a0.2, a1.1, a1.2, ea.1]))
    rw [abs_le]
    constructor <;> linarith [a0.1, a0.2, a1.1, a1.2, ea.1, ea.2, e5.1, e5.2]

/-! ## Wind -/

theorem wind_new {U V G : LatLonValueGrid Fl} {L : WindLayer} (h : WindLayer.new U V (some G) = .ok L) :
    L = ⟨U, V, some G⟩ := by
  by_cases hfit : Fit U V ∧ ∀ g', some G = some g' → Fit g' U
  · rw [(C43_wind U V (some G)).1.mpr hfit] at h
    exact (Res.ok.inj h).symm
  · rw [(C43_wind U V (some G)).2.mpr hfit] at h
    cases h

theorem wind_bytes {U V G : LatLonValueGrid Fl} {ni nj : Nat} {Qu Qv Qg : Nat → Nat → Option Rat}
    (hU : Holds U ni nj Qu) (hV : Holds V ni nj Qv) (hG : Holds G ni nj Qg) :
    ∃ bytes, Metobin.windBin ⟨U, V, some G⟩ = .ok bytes ∧ bytes.length = ni * nj * 3 ∧
      ∀ x y, x < ni → y < nj → ∃ bu bv bg : UInt8, bytes[(y * ni + x) * 3]? = some bu ∧
        bytes[(y * ni + x) * 3 + 1]? = some bv ∧ bytes[(y * ni + x) * 3 + 2]? = some bg ∧
        ((Qu x y = none ∨ Qv x y = none) → bu = 255 ∧ bv = 255 ∧ bg = 255) ∧
        ∀ u v, Qu x y = some u → Qv x y = some v → |u| ≤ 60 → |v| ≤ 60 →
          1 / 1000 < |u + 1| → 1 / 1000 < |v + 1| →
          bu ≠ 255 ∧ |(bu.toNat : Rat) - 128 - u * (194384 / 100000)| ≤ 1 / 2 + 2 / 100 ∧
          bv ≠ 255 ∧ |(bv.toNat : Rat) - 128 - v * (194384 / 100000)| ≤ 1 / 2 + 2 / 100 ∧
          (Qg x y = none → bg = 255) ∧
          ∀ g, Qg x y = some g → 0 ≤ g → g ≤ 130 →
            bg ≠ 255 ∧ |(bg.toNat : Rat) - g * (194384 / 100000)| ≤ 1 / 2 + 2 / 100 := by
  obtain ⟨fu, cu⟩ := hU
  obtain ⟨fv, cv⟩ := hV
  obtain ⟨fg, cg⟩ := hG
  obtain ⟨bytes, b1, b2, b3⟩ := C39_file (l := ⟨U, V, some G⟩) fu fv (by rintro g ⟨⟩; exact fg)
  refine ⟨bytes, b1, b2, ?_⟩
  intro x y hx hy
  obtain ⟨bu, bv, bg, i1, i2, i3, n1, n2, n3, e⟩ := b3 x y hx hy
  refine ⟨bu, bv, bg, i1, i2, i3, ?_, ?_⟩
  · intro hnone
    have : cell U ni x y = none ∨ cell V ni x y = none :=
      hnone.imp (cu x y hx hy).1 (cv x y hx hy).1
    exact ⟨n1.mpr this, n2.mpr this, n3.mpr (this.imp id .inl)⟩
  · intro u v hu hv u60 v60 u1 v1
    have key : ∀ (G : LatLonValueGrid Fl) (q : Rat), |q| ≤ 60 → 1 / 1000 < |q + 1| →
        (∃ v : Rat, |v - q| ≤ |q| / 2 ^ 22 + 1 / 2 ^ 110 ∧ cell G ni x y = if v = -1 then none else some (.fin v)) →
        ∃ v : Rat, |v - q| ≤ 1 / 1000 ∧ |v| ≤ 1000 ∧ cell G ni x y = some (.fin v) ∧
          max 0 (min 254 (v * (194384 / 100000) + 128)) = v * (194384 / 100000) + 128 := by
      rintro G q q60 q1 ⟨v, v1, v2⟩
      have v1 := v1.trans (show _ ≤ (1 / 1000 : Rat) by linarith)
      have v1' := abs_le.mp v1
      have q60' := abs_le.mp q60
      refine ⟨v, v1, by rw [abs_le]; constructor <;> linarith [v1'.1, v1'.2, q60'.1, q60'.2], ?_, ?_⟩
      · rw [v2, if_neg]
        intro ev
        rw [ev] at v1
        rw [show q + 1 = -(-1 - q) by ring, abs_neg] at q1
        linarith
      · rw [min_eq_right (by linarith [v1'.1, v1'.2, q60'.1, q60'.2]),
          max_eq_right (by linarith [v1'.1, v1'.2, q60'.1, q60'.2])]
    obtain ⟨u', u2, u3, u4, u5⟩ := key U u u60 u1 ((cu x y hx hy).2 u hu)
    obtain ⟨v', v2, v3, v4, v5⟩ := key V v v60 v1 ((cv x y hx hy).2 v hv)
    obtain ⟨e1, e2, e3⟩ := e _ _ u4 v4
    have u2' := abs_le.mp u2
    have v2' := abs_le.mp v2
    have au := (C39_encoding.1 u' u3).1
    have av := (C39_encoding.1 v' v3).1
    rw [u5, ← e1] at au
    rw [v5, ← e2] at av
    have au := abs_le.mp au
    have av := abs_le.mp av
    refine ⟨e1 ▸ (C39_encoding.2.2 _).1, ?_, e2 ▸ (C39_encoding.2.2 _).1, ?_, ?_, ?_⟩
    · rw [abs_le]; constructor <;> linarith [au.1, au.2, u2'.1, u2'.2]
    · rw [abs_le]; constructor <;> linarith [av.1, av.2, v2'.1, v2'.2]
    · intro hg
      exact n3.mpr (.inr (.inr ((cg x y hx hy).1 hg)))
    · intro g hg g0 g1
      obtain ⟨g', d1, d2⟩ := (cg x y hx hy).2 g hg
      rw [abs_of_nonneg g0] at d1
      have d1 := abs_le.mp (d1.trans (show _ ≤ (1 / 1000 : Rat) by linarith))
      rw [if_neg (by intro e; linarith [d1.1])] at d2
      have hgc : gustCell ⟨U, V, some G⟩ ni x y = some (.fin g') := d2
      rw [hgc] at e3
      have ag := (C39_encoding.1 g' (by rw [abs_le]; constructor <;> linarith [d1.1, d1.2])).2
      rw [← e3, min_eq_right (by linarith [d1.1, d1.2])] at ag
      refine ⟨e3 ▸ (C39_encoding.2.2 _).2, ?_⟩
      have ag := abs_le.mp ag
      rw [abs_le]
      rcases le_total 0 (g' * (194384 / 100000 : Rat)) with hz | hz
      · rw [max_eq_right hz] at ag
        constructor <;> linarith [ag.1, ag.2, d1.1, d1.2]
      · rw [max_eq_left hz] at ag
        constructor <;> linarith [ag.1, ag.2, d1.1, d1.2]

/-! ## Levels -/

theorem verticalCloud_new {H C : List (LatLonValueGrid UInt8)} {L : VerticalCloudLayer}
    (h : VerticalCloudLayer.new H C = .ok L) : L = ⟨H, C⟩ := by
  unfold VerticalCloudLayer.new at h
  split at h
  · cases h
  · split at h
    · cases h
    · exact (Res.ok.inj h).symm

theorem verticalWind_new {H U V : List (LatLonValueGrid UInt8)} {L : VerticalWindLayer}
    (h : VerticalWindLayer.new H U V = .ok L) : L = ⟨H, U, V⟩ := by
  unfold VerticalWindLayer.new at h
  split at h
  · cases h
  · split at h
    · cases h
    · exact (Res.ok.inj h).symm

/-- The grids of `n` levels hold the codes of the given numbers. -/
def LevelsHold (gs : List (LatLonValueGrid UInt8)) (missing : UInt8) (f : Fl → UInt8) (n ni nj : Nat)
    (P : Nat → Nat → Nat → Option Rat) : Prop :=
  gs.length = n ∧ ∀ k, k < n → ∃ G, gs[k]? = some G ∧ HoldsBytes G missing f ni nj (P k)

theorem LevelsHold.filled {gs : List (LatLonValueGrid UInt8)} {missing : UInt8} {f : Fl → UInt8} {n ni nj : Nat}
    {P : Nat → Nat → Nat → Option Rat} (h : LevelsHold gs missing f n ni nj P) : ∀ g ∈ gs, Filled g ni nj := by
  intro g hg
  obtain ⟨k, hk⟩ := List.mem_iff_getElem?.mp hg
  have hlt : k < n := by
    rw [← h.1]
    by_contra hge
    rw [List.getElem?_eq_none (by omega)] at hk
    cases hk
  obtain ⟨G, h1, h2⟩ := h.2 k hlt
  rw [hk] at h1
  cases h1
  exact h2.1

theorem cloud_bytes {H C : List (LatLonValueGrid UInt8)} {n ni nj : Nat} (hn : 0 < n)
    {Qh Qc : Nat → Nat → Nat → Option Rat} (hH : LevelsHold H 0 hhlByte n ni nj Qh) (hC : LevelsHold C 0 clcByte n ni nj Qc) :
    ∃ bytes, Metobin.verticalCloudBin ⟨H, C⟩ = .ok bytes ∧ bytes.length = ni * nj * (n * 2) ∧
      ∀ x y k, x < ni → y < nj → k < n → ∃ bh bc : UInt8, bytes[((y * ni + x) * n + k) * 2]? = some bh ∧
        bytes[((y * ni + x) * n + k) * 2 + 1]? = some bc ∧
        (Qh k x y = none → bh = 255) ∧ (Qc k x y = none → bc = 255) ∧
        (∀ q, Qh k x y = some q →
          (1001 / 10 ≤ q * (328084 / 100000) → q * (328084 / 100000) ≤ 25499 → bh ≠ 255 ∧
            q * (328084 / 100000) - 100 - 1 / 10 ≤ bh.toNat * 100 ∧
            (bh.toNat : Rat) * 100 ≤ q * (328084 / 100000) + 1 / 10) ∧
          (0 ≤ q → q * (328084 / 100000) ≤ 999 / 10 ∨ 25501 ≤ q * (328084 / 100000) → q ≤ 100000 → bh = 255)) ∧
        ∀ q, Qc k x y = some q →
          (1001 / 1000 ≤ q → q ≤ 254 → bc ≠ 255 ∧ q - 1 - 1 / 1000 ≤ bc.toNat ∧ (bc.toNat : Rat) ≤ q + 1 / 1000) ∧
          (0 ≤ q → q ≤ 999 / 1000 → bc = 255) := by
  obtain ⟨bytes, b1, b2, b3⟩ := C42_clouds (l := ⟨H, C⟩) hn hH.1 hC.1 hH.filled hC.filled
  refine ⟨bytes, b1, b2, fun x y k hx hy hk => ?_⟩
  obtain ⟨GH, g1, _, g2⟩ := hH.2 k hk
  obtain ⟨GC, g3, _, g4⟩ := hC.2 k hk
  obtain ⟨e1, e2⟩ := b3 x y k GH GC hx hy g1 g3
  obtain ⟨p1, p2⟩ := g2 x y hx hy
  obtain ⟨p3, p4⟩ := g4 x y hx hy
  refine ⟨_, _, e1, e2, fun hq => by rw [p1 hq]; rfl, fun hq => by rw [p3 hq]; rfl, ?_, ?_⟩
  · intro q hq
    obtain ⟨v, v1, v2⟩ := p2 q hq
    obtain ⟨a1, a2, a3⟩ := hhlByte_acc v1
    refine ⟨fun q1 q2 => ?_, fun q0 q1 q2 => ?_⟩
    · obtain ⟨z1, z2, z3, z4⟩ := a1 q1 q2
      rw [v2, if_neg z1]
      exact ⟨z2, z3, z4⟩
    · rcases q1 with q1 | q1
      · rw [v2, if_pos (a2 q0 q1)]; rfl
      · have := a3 q1 q2
        rw [v2, this]; rfl
  · intro q hq
    obtain ⟨v, v1, v2⟩ := p4 q hq
    obtain ⟨a1, a2⟩ := clcByte_acc v1
    refine ⟨fun q1 q2 => ?_, fun q1 q2 => ?_⟩
    · obtain ⟨z1, z2, z3, z4⟩ := a1 q1 q2
      rw [v2, if_neg z1]
      exact ⟨z2, z3, z4⟩
    · rw [v2, if_pos (a2 q1 q2)]; rfl

theorem verticalWind_bytes {H U V : List (LatLonValueGrid UInt8)} {n ni nj : Nat} (hn : 0 < n)
    {Qh Qu Qv : Nat → Nat → Nat → Option Rat} (hH : LevelsHold H 0 hhlByte n ni nj Qh)
    (hU : LevelsHold U 255 uvByte n ni nj Qu) (hV : LevelsHold V 255 uvByte n ni nj Qv) :
    ∃ bytes, Metobin.verticalWindBin ⟨H, U, V⟩ = .ok bytes ∧ bytes.length = ni * nj * (n * 3) ∧
      ∀ x y k, x < ni → y < nj → k < n → ∃ bh bu bv : UInt8, bytes[((y * ni + x) * n + k) * 3]? = some bh ∧
        bytes[((y * ni + x) * n + k) * 3 + 1]? = some bu ∧ bytes[((y * ni + x) * n + k) * 3 + 2]? = some bv ∧
        (Qh k x y = none → bh = 255) ∧
        (∀ q, Qh k x y = some q → 1001 / 10 ≤ q * (328084 / 100000) →
          q * (328084 / 100000) ≤ 25499 → bh ≠ 255 ∧ q * (328084 / 100000) - 100 - 1 / 10 ≤ bh.toNat * 100 ∧
            (bh.toNat : Rat) * 100 ≤ q * (328084 / 100000) + 1 / 10) ∧
        (bu = 255 ↔ Qu k x y = none ∨ Qv k x y = none) ∧ (bv = 255 ↔ Qu k x y = none ∨ Qv k x y = none) ∧
        ∀ u v, Qu k x y = some u → Qv k x y = some v →
          (|u| ≤ 60 → |(bu.toNat : Rat) - 128 - u * (194384 / 100000)| ≤ 1 / 2 + 2 / 100) ∧
          (|v| ≤ 60 → |(bv.toNat : Rat) - 128 - v * (194384 / 100000)| ≤ 1 / 2 + 2 / 100) := by
  obtain ⟨bytes, b1, b2, b3⟩ := C42_wind (l := ⟨H, U, V⟩) hn hH.1 hU.1 hV.1 hH.filled hU.filled hV.filled
  refine ⟨bytes, b1, b2, fun x y k hx hy hk => ?_⟩
  obtain ⟨GH, g1, _, g2⟩ := hH.2 k hk
  obtain ⟨GU, g3, _, g4⟩ := hU.2 k hk
  obtain ⟨GV, g5, _, g6⟩ := hV.2 k hk
  obtain ⟨e1, e2, e3⟩ := b3 x y k GH GU GV hx hy g1 g3 g5
  obtain ⟨p1, p2⟩ := g2 x y hx hy
  obtain ⟨p3, p4⟩ := g4 x y hx hy
  obtain ⟨p5, p6⟩ := g6 x y hx hy
  have height : (Qh k x y = none → (cell GH ni x y).getD 255 = 255) ∧
      (∀ q, Qh k x y = some q → 1001 / 10 ≤ q * (328084 / 100000) →
        q * (328084 / 100000) ≤ 25499 → (cell GH ni x y).getD 255 ≠ 255 ∧
          q * (328084 / 100000) - 100 - 1 / 10 ≤ ((cell GH ni x y).getD 255).toNat * 100 ∧
          (((cell GH ni x y).getD 255).toNat : Rat) * 100 ≤ q * (328084 / 100000) + 1 / 10) := by
    refine ⟨fun hq => by rw [p1 hq]; rfl, fun q hq q1 q2 => ?_⟩
    obtain ⟨v, d1, d2⟩ := p2 q hq
    obtain ⟨z1, z2, z3, z4⟩ := (hhlByte_acc d1).1 q1 q2
    rw [d2, if_neg z1]
    exact ⟨z2, z3, z4⟩
  have speed : ∀ {v q : Rat}, |v - q| ≤ |q| / 2 ^ 22 + 1 / 2 ^ 110 → |q| ≤ 60 →
      |((uvByte (.fin v)).toNat : Rat) - 128 - q * (194384 / 100000)| ≤ 1 / 2 + 2 / 100 := by
    intro v q hvq q60
    have hvq := abs_le.mp (hvq.trans (show _ ≤ (1 / 1000 : Rat) by linarith))
    have q60 := abs_le.mp q60
    have av := (C39_encoding.1 v (by rw [abs_le]; constructor <;> linarith [hvq.1, hvq.2, q60.1, q60.2])).1
    rw [min_eq_right (by linarith [hvq.1, hvq.2, q60.1, q60.2]),
      max_eq_right (by linarith [hvq.1, hvq.2, q60.1, q60.2]), ← uvByte_eq] at av
    have av := abs_le.mp av
    rw [abs_le]
    constructor <;> linarith [hvq.1, hvq.2, av.1, av.2]
  have ne255 : ∀ v, uvByte v ≠ 255 := fun v => (C39_encoding.2.2 v).1
  rcases hu : Qu k x y with _ | u
  · obtain ⟨e4, e5⟩ := e3 (.inl (p3 hu))
    exact ⟨_, _, _, e1, e4, e5, height.1, height.2, by simp, by simp, by simp⟩
  · rcases hv' : Qv k x y with _ | v
    · obtain ⟨e4, e5⟩ := e3 (.inr (p5 hv'))
      exact ⟨_, _, _, e1, e4, e5, height.1, height.2, by simp, by simp, by simp⟩
    · obtain ⟨u', d1, d2⟩ := p4 u hu
      obtain ⟨v', d3, d4⟩ := p6 v hv'
      rw [if_neg (ne255 _)] at d2 d4
      obtain ⟨e4, e5⟩ := e2 _ _ d2 d4
      refine ⟨_, _, _, e1, e4, e5, height.1, height.2, by simp [ne255], by simp [ne255], ?_⟩
      rintro _ _ ⟨⟩ ⟨⟩
      exact ⟨speed d1, speed d3⟩

end Verif.Props
