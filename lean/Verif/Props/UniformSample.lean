import Verif.Props.Imaging

/-!
# Sampling a picture of one colour (C74)

Exactly which values of a channel survive the sampling of a uniform picture: zero and the powers of two, and no others.
-/

namespace Verif.Props

open Verif

/-- The sample between pixels, with the four surrounding pixels. -/
theorem sample_between {i : Image} (hi : i.WF) (hw : i.width ≤ 2 ^ 24) (hh : i.height ≤ 2 ^ 24) {x y : Rat} {m n : Nat}
    (hx0 : (m : Rat) < x) (hx1 : x < m + 1) (hy0 : (n : Rat) < y) (hy1 : y < n + 1) (hm : m + 1 < i.width) (hn : n + 1 < i.height)
    {tl tr bl br : Color} (htl : i.pixel m n = some tl) (htr : i.pixel (m + 1) n = some tr) (hbl : i.pixel m (n + 1) = some bl)
    (hbr : i.pixel (m + 1) (n + 1) = some br) :
    i.interpolatePixelColor (.fin x) (.fin y) = .ok (Image.interpolateColor
      (Image.interpolateColor tl (rnd f32 (1 - (x - m))) tr (rnd f32 (x - m))) (rnd f32 (1 - (y - n)))
      (Image.interpolateColor bl (rnd f32 (1 - (x - m))) br (rnd f32 (x - m))) (rnd f32 (y - n))) := by
  have hw' : Fl.ofNat f32 i.width = .fin i.width := rnd32_nat hw
  have hh' : Fl.ofNat f32 i.height = .fin i.height := rnd32_nat hh
  have fl : ∀ {z : Rat} {k : Nat}, (k : Rat) < z → z < k + 1 →
      Fl.floor (.fin z) = .fin (k : Rat) ∧ Fl.ceil (.fin z) = .fin ((k + 1 : Nat) : Rat) := by
    intro z k h1 h2
    have e1 : ⌊z⌋ = k := by rw [Int.floor_eq_iff]; exact ⟨by exact_mod_cast h1.le, by exact_mod_cast h2⟩
    have e2 : ⌈z⌉ = (k : Int) + 1 := by
      rw [Int.ceil_eq_iff]; push_cast
      exact ⟨by linarith, h2.le⟩
    simp only [Fl.floor, Fl.ceil, e1, e2]
    push_cast
    exact ⟨rfl, rfl⟩
  obtain ⟨fx, cx⟩ := fl hx0 hx1
  obtain ⟨fy, cy⟩ := fl hy0 hy1
  have neg : ∀ k : Nat, Fl.lt (.fin ((k : Nat) : Rat)) (.fin 0) = false := by
    intro k
    simp only [Fl.lt, decide_eq_false_iff_not, not_lt]
    exact Nat.cast_nonneg k
  have big : ∀ {k l : Nat}, k < l → Fl.ge (.fin (k : Rat)) (.fin (l : Rat)) = false := by
    intro k l h
    simp only [Fl.ge, Fl.le, decide_eq_false_iff_not, not_le]
    exact_mod_cast h
  have u : ∀ {k : Nat}, k ≤ 2 ^ 24 → Fl.toU32 (.fin (k : Rat)) = k := fun h => Fl.toUInt_nat (by omega)
  unfold Image.interpolatePixelColor
  simp only [fx, fy, cx, cy, hw', hh']
  rw [neg, neg, big (by omega), big (by omega)]
  simp only [Bool.or_self, Bool.false_eq_true, if_false]
  rw [u (by omega), u (by omega), u (by omega), u (by omega), if_neg (by omega)]
  simp only [getPixelColor_eq hi, htl, htr, hbl, hbr, Option.getD_some, Res.bind_ok]
  have s1 : ∀ {z : Rat} {k : Nat}, Fl.sub f32 (.fin ((k + 1 : Nat) : Rat)) (.fin z) = rnd f32 (1 - (z - k)) := by
    intro z k
    show rnd f32 _ = _
    congr 1
    push_cast
    ring
  have s2 : ∀ {z : Rat} {k : Nat}, Fl.sub f32 (.fin z) (.fin (k : Rat)) = rnd f32 (z - k) := by
    intro z k
    show rnd f32 _ = _
    congr 1
    ring
  rw [s1, s1, s2, s2]

/-- The part after the point of an `f32` is an `f32`. -/
theorem fraction_isFl {x : Rat} {m : Nat} (hx : IsFl f32 (.fin x)) (h0 : (m : Rat) < x) (h1 : x < m + 1) :
    Rep f32 (x - m) := by
  obtain ⟨⟨k, e, rfl, hk, he⟩, -⟩ := hx
  have pe := pow2_pos e
  by_cases hneg : 0 ≤ e
  · exfalso
    obtain ⟨j, rfl⟩ := Int.eq_ofNat_of_zero_le hneg
    have e1 : (k : Rat) * pow2 (j : Int) = ((k * 2 ^ j : Int) : Rat) := by rw [pow2_nat]; push_cast; rfl
    rw [e1] at h0 h1
    have a1 : (m : Int) < k * 2 ^ j := by exact_mod_cast h0
    have a2 : k * 2 ^ j < (m : Int) + 1 := by exact_mod_cast h1
    omega
  · obtain ⟨j, hj⟩ := Int.eq_ofNat_of_zero_le (show 0 ≤ -e by omega)
    have hone : pow2 (j : Int) * pow2 e = 1 := by
      rw [← pow2_add, ← hj, show -e + e = 0 by ring, pow2_zero]
    have hm : (m : Rat) = ((m * 2 ^ j : Int) : Rat) * pow2 e := by
      push_cast
      rw [mul_assoc, ← pow2_nat, hone, mul_one]
    refine ⟨k - m * 2 ^ j, e, ?_, ?_, he⟩
    · rw [hm]; push_cast; ring
    · rw [hm] at h0
      have h0' : (m : Int) * 2 ^ j < k := by
        have := lt_of_mul_lt_mul_right h0 pe.le
        exact_mod_cast this
      have hp : (0 : Int) ≤ (m : Int) * 2 ^ j := by positivity
      rw [abs_le] at hk ⊢
      constructor <;> linarith [hk.1, hk.2]

/-- The two weights together are one up to a quarter of the last place. -/
theorem weights_one {a : Rat} (h0 : 0 < a) (h1 : a < 1) (ha : Rep f32 a) :
    ∃ v, Rep f32 v ∧ 0 ≤ v ∧ v ≤ 1 ∧ rnd f32 (1 - a) = .fin v ∧ rnd f32 a = .fin a ∧ |v + a - 1| ≤ 1 / 2 ^ 25 := by
  have one : Rep f32 (1 : Rat) := by simpa using rep_nat (F := f32) (n := 1) (by decide) (by decide)
  have lim : (1 : Rat) < pow2 f32.emax := by rw [show pow2 f32.emax = 2 ^ 128 by decide +kernel]; norm_num
  have e1 : rnd f32 (1 - a) = .fin (rndq f32 (1 - a)) :=
    rnd_fin prec32 one lim (by rw [abs_of_pos (by linarith)]; linarith)
  refine ⟨rndq f32 (1 - a), rep_rndq _ _, rndq_nonneg (by linarith), rndq_le_rep prec32 one (by linarith), e1,
    rnd_exact prec32 ha (by rw [abs_of_pos h0]; linarith), ?_⟩
  have err := rndq_err_expo f32 (1 - a)
  have hne : (1 - a) ≠ 0 := by linarith
  have hl : ilog2 (1 - a) < 0 := by
    by_contra hc
    have := (ilog2_spec hne).1
    have h2 : pow2 0 ≤ pow2 (ilog2 (1 - a)) := pow2_mono (by omega)
    rw [pow2_zero] at h2
    rw [abs_of_pos (by linarith)] at this
    linarith
  have hx : expo f32 (1 - a) ≤ -24 := by
    unfold expo
    have p : (f32.prec : Int) = 24 := rfl
    have q : f32.emin = -149 := rfl
    rw [p, q]
    omega
  have hp : pow2 (expo f32 (1 - a)) ≤ pow2 (-24) := pow2_mono hx
  rw [show pow2 (-24) = 1 / 2 ^ 24 by decide +kernel] at hp
  have : rndq f32 (1 - a) + a - 1 = rndq f32 (1 - a) - (1 - a) := by ring
  rw [this]
  refine err.trans ?_
  linarith

/-- A channel that is a power of two in both pixels keeps its value. -/
theorem channel_kept {a : Rat} (h0 : 0 < a) (h1 : a < 1) (ha : Rep f32 a) {v : UInt8} (hv : v = 0 ∨ ∃ k, v.toNat = 2 ^ k) :
    Image.interpolateChannel v (rnd f32 (1 - a)) v (rnd f32 a) = v := by
  obtain ⟨w, rw_, w0, w1, e1, e2, hs⟩ := weights_one h0 h1 ha
  rw [e1, e2]
  rcases hv with rfl | ⟨k, hk⟩
  · unfold Image.interpolateChannel
    rw [show Fl.ofNat f32 (0 : UInt8).toNat = .fin 0 by decide +kernel, Fl.mul_fin, Fl.mul_fin, zero_mul, zero_mul, rnd_zero,
      Fl.add_fin, add_zero, rnd_zero]
    decide +kernel
  · have hk7 : k < 8 := by
      have := v.toNat_lt
      rw [hk] at this
      exact (Nat.pow_lt_pow_iff_right (by norm_num : 1 < 2)).mp (show 2 ^ k < 2 ^ 8 from this)
    have scaled : ∀ {z : Rat}, Rep f32 z → 0 ≤ z → z ≤ 1 → rnd f32 (2 ^ k * z) = .fin (2 ^ k * z) := by
      intro z hz z0 z1
      refine rnd_exact prec32 ?_ ?_
      · obtain ⟨n, e, rfl, hn, he⟩ := hz
        refine ⟨n, e + k, ?_, hn, by omega⟩
        rw [pow2_add, pow2_nat]; ring
      · rw [show pow2 f32.emax = 2 ^ 128 by decide +kernel, abs_of_nonneg (by positivity)]
        have : (2 : Rat) ^ k ≤ 2 ^ 8 := pow_le_pow_right₀ (by norm_num) (by omega)
        calc (2 : Rat) ^ k * z ≤ 2 ^ 8 * 1 := by gcongr
          _ < 2 ^ 128 := by norm_num
    have hc : Fl.ofNat f32 v.toNat = .fin (2 ^ k) := by
      have := rnd32_nat (n := v.toNat) (by have := v.toNat_lt; omega)
      rw [hk] at this ⊢
      unfold Fl.ofNat
      push_cast at this ⊢
      exact this
    unfold Image.interpolateChannel
    rw [hc, Fl.mul_fin, Fl.mul_fin, scaled rw_ w0 w1, scaled ha h0.le h1.le, Fl.add_fin]
    rw [abs_le] at hs
    have pk : (0 : Rat) < 2 ^ k := by positivity
    have lo : (2 : Rat) ^ k * (1 - 1 / 2 ^ 25) ≤ 2 ^ k * w + 2 ^ k * a := by nlinarith [hs.1]
    have hi : 2 ^ k * w + 2 ^ k * a ≤ (2 : Rat) ^ k * (1 + 1 / 2 ^ 25) := by nlinarith [hs.2]
    have tab : ∀ k < 8, rnd f32 ((2 : Rat) ^ k * (1 - 1 / 2 ^ 25)) = .fin (2 ^ k) ∧
        rnd f32 ((2 : Rat) ^ k * (1 + 1 / 2 ^ 25)) = .fin (2 ^ k) ∧ Fl.toU8 (.fin (2 ^ k)) = 2 ^ k := by decide +kernel
    obtain ⟨t1, t2, t3⟩ := tab k hk7
    have b1 := Fl.rnd_mono (F := f32) prec32 lo
    have b2 := Fl.rnd_mono (F := f32) prec32 hi
    rw [t1] at b1
    rw [t2] at b2
    have : rnd f32 (2 ^ k * w + 2 ^ k * a) = .fin (2 ^ k) := by
      rcases rnd_cases f32 (2 ^ k * w + 2 ^ k * a) with h | h | h
      · rw [h.1] at b2; simp [Fl.le] at b2
      · rw [h.1] at b1; simp [Fl.le] at b1
      · rw [h.1] at b1 b2 ⊢
        rw [Fl.le_fin] at b1 b2
        rw [le_antisymm b2 b1]
    rw [this, t3, ← hk]
    exact UInt8.ofNat_toNat

/-- At this place, a little to the right of a pixel, every other value loses a unit. -/
theorem channel_lost : ∀ v : UInt8, v = 0 ∨ (∃ k, v.toNat = 2 ^ k) ∨
    Image.interpolateChannel v (rnd f32 (1 - 8388609 / 2 ^ 48)) v (rnd f32 (8388609 / 2 ^ 48)) = v - 1 := by
  have tab : ∀ n : Fin 256, UInt8.ofNat n.val = 0 ∨ (∃ k ∈ List.range 8, (UInt8.ofNat n.val).toNat = 2 ^ k) ∨
      Image.interpolateChannel (UInt8.ofNat n.val) (rnd f32 (1 - 8388609 / 2 ^ 48)) (UInt8.ofNat n.val)
        (rnd f32 (8388609 / 2 ^ 48)) = UInt8.ofNat n.val - 1 := by decide +kernel
  intro v
  have := tab ⟨v.toNat, v.toNat_lt⟩
  simp only [UInt8.ofNat_toNat] at this
  rcases this with h | ⟨k, -, h⟩ | h
  · exact .inl h
  · exact .inr (.inl ⟨k, h⟩)
  · exact .inr (.inr h)

theorem channel_half : ∀ v : UInt8, Image.interpolateChannel v (rnd f32 (1 - 1 / 2)) v (rnd f32 (1 / 2)) = v := by
  have tab : ∀ n : Fin 256, Image.interpolateChannel (UInt8.ofNat n.val) (rnd f32 (1 - 1 / 2)) (UInt8.ofNat n.val)
        (rnd f32 (1 / 2)) = UInt8.ofNat n.val := by decide +kernel
  intro v
  have := tab ⟨v.toNat, v.toNat_lt⟩
  simpa only [UInt8.ofNat_toNat] using this

/-- The four channels of a colour. -/
def IsChannel (ch : Color → UInt8) : Prop := ch = Color.r ∨ ch = Color.g ∨ ch = Color.b ∨ ch = Color.a

theorem channel_of {ch : Color → UInt8} (hch : IsChannel ch) (c1 c2 : Color) (w1 w2 : Fl) :
    ch (Image.interpolateColor c1 w1 c2 w2) = Image.interpolateChannel (ch c1) w1 (ch c2) w2 := by
  rcases hch with rfl | rfl | rfl | rfl <;> rfl

/-- The four pixels around a place agree in a channel. -/
def AgreeAt (i : Image) (m n : Nat) (ch : Color → UInt8) (v : UInt8) : Prop :=
  ∀ x y, (x = m ∨ x = m + 1) → (y = n ∨ y = n + 1) → ∃ c, i.pixel x y = some c ∧ ch c = v

/-- C74, where it holds: if the four surrounding pixels agree in a channel, and the value is zero or a power of two, then the sample
has this value, at every position between them. -/
theorem C74_kept {i : Image} (hi : i.WF) (hw : i.width ≤ 2 ^ 24) (hh : i.height ≤ 2 ^ 24) {x y : Rat} (fx : IsFl f32 (.fin x))
    (fy : IsFl f32 (.fin y)) {m n : Nat} (hx0 : (m : Rat) < x) (hx1 : x < m + 1) (hy0 : (n : Rat) < y) (hy1 : y < n + 1)
    (hm : m + 1 < i.width) (hn : n + 1 < i.height) {ch : Color → UInt8} (hch : IsChannel ch) {v : UInt8}
    (hv : v = 0 ∨ ∃ k, v.toNat = 2 ^ k) (ha : AgreeAt i m n ch v) :
    ∃ c, i.interpolatePixelColor (.fin x) (.fin y) = .ok c ∧ ch c = v := by
  obtain ⟨tl, htl, etl⟩ := ha m n (.inl rfl) (.inl rfl)
  obtain ⟨tr, htr, etr⟩ := ha (m + 1) n (.inr rfl) (.inl rfl)
  obtain ⟨bl, hbl, ebl⟩ := ha m (n + 1) (.inl rfl) (.inr rfl)
  obtain ⟨br, hbr, ebr⟩ := ha (m + 1) (n + 1) (.inr rfl) (.inr rfl)
  refine ⟨_, sample_between hi hw hh hx0 hx1 hy0 hy1 hm hn htl htr hbl hbr, ?_⟩
  have kx := channel_kept (a := x - m) (by linarith) (by linarith) (fraction_isFl fx hx0 hx1) hv
  have ky := channel_kept (a := y - n) (by linarith) (by linarith) (fraction_isFl fy hy0 hy1) hv
  rw [channel_of hch, channel_of hch, channel_of hch, etl, etr, ebl, ebr, kx, ky]

/-- C74, where it fails: if the value is any other, then a unit is lost in every picture whose corner has this value in the channel, at
x = 0x1.000002p-25, y = 1/2. -/
theorem C74_lost {i : Image} (hi : i.WF) (hw : i.width ≤ 2 ^ 24) (hh : i.height ≤ 2 ^ 24) (w2 : 2 ≤ i.width) (h2 : 2 ≤ i.height)
    {ch : Color → UInt8} (hch : IsChannel ch) {v : UInt8} (hv : ¬ (v = 0 ∨ ∃ k, v.toNat = 2 ^ k)) (ha : AgreeAt i 0 0 ch v) :
    IsFl f32 (.fin (8388609 / 2 ^ 48)) ∧
    ∃ c, i.interpolatePixelColor (.fin (8388609 / 2 ^ 48)) (.fin (1 / 2)) = .ok c ∧ (ch c).toNat + 1 = v.toNat := by
  obtain ⟨tl, htl, etl⟩ := ha 0 0 (.inl rfl) (.inl rfl)
  obtain ⟨tr, htr, etr⟩ := ha (0 + 1) 0 (.inr rfl) (.inl rfl)
  obtain ⟨bl, hbl, ebl⟩ := ha 0 (0 + 1) (.inl rfl) (.inr rfl)
  obtain ⟨br, hbr, ebr⟩ := ha (0 + 1) (0 + 1) (.inr rfl) (.inr rfl)
  refine ⟨⟨⟨8388609, -48, by norm_num [pow2_eq], by decide, by decide⟩, ?_⟩, _,
    sample_between hi hw hh (by norm_num) (by norm_num) (by norm_num) (by norm_num) (by omega) (by omega) htl htr hbl hbr, ?_⟩
  · rw [show f32.emax = 128 from rfl, pow2_eq, abs_of_pos (by norm_num)]
    norm_num
  · have h1 : v ≠ 0 := fun h => hv (.inl h)
    have hl : Image.interpolateChannel v (rnd f32 (1 - 8388609 / 2 ^ 48)) v (rnd f32 (8388609 / 2 ^ 48)) = v - 1 := by
      rcases channel_lost v with h | h | h
      · exact absurd h h1
      · exact absurd (.inr h) hv
      · exact h
    rw [channel_of hch, channel_of hch, channel_of hch, etl, etr, ebl, ebr, Nat.cast_zero, sub_zero, sub_zero, hl, channel_half]
    have : v.toNat ≠ 0 := fun h => h1 (UInt8.toNat_inj.mp h)
    rw [UInt8.toNat_sub_of_le _ _ (by rw [UInt8.le_iff_toNat_le]; show 1 ≤ _; omega)]
    show v.toNat - 1 + 1 = _
    omega

/-- C74: the two units of `C74_between_partial` are needed.  If neither the value nor the one below is zero or a power of two, then two
units are lost in every picture whose corner has this value in the channel, at x = y = 0x1.000002p-25. -/
theorem C74_two {i : Image} (hi : i.WF) (hw : i.width ≤ 2 ^ 24) (hh : i.height ≤ 2 ^ 24) (w2 : 2 ≤ i.width) (h2 : 2 ≤ i.height)
    {ch : Color → UInt8} (hch : IsChannel ch) {v : UInt8} (hv : ¬ (v = 0 ∨ ∃ k, v.toNat = 2 ^ k))
    (hv1 : ¬ ∃ k, (v - 1).toNat = 2 ^ k) (ha : AgreeAt i 0 0 ch v) :
    ∃ c, i.interpolatePixelColor (.fin (8388609 / 2 ^ 48)) (.fin (8388609 / 2 ^ 48)) = .ok c ∧ (ch c).toNat + 2 = v.toNat := by
  obtain ⟨tl, htl, etl⟩ := ha 0 0 (.inl rfl) (.inl rfl)
  obtain ⟨tr, htr, etr⟩ := ha (0 + 1) 0 (.inr rfl) (.inl rfl)
  obtain ⟨bl, hbl, ebl⟩ := ha 0 (0 + 1) (.inl rfl) (.inr rfl)
  obtain ⟨br, hbr, ebr⟩ := ha (0 + 1) (0 + 1) (.inr rfl) (.inr rfl)
  refine ⟨_, sample_between hi hw hh (by norm_num) (by norm_num) (by norm_num) (by norm_num) (by omega) (by omega) htl htr hbl hbr, ?_⟩
  have h0 : v.toNat ≠ 0 := fun h => hv (.inl (UInt8.toNat_inj.mp h))
  have h1 : v.toNat ≠ 1 := fun h => hv (.inr ⟨0, h⟩)
  have d1 : (v - 1).toNat = v.toNat - 1 := by
    rw [UInt8.toNat_sub_of_le _ _ (by rw [UInt8.le_iff_toNat_le]; show 1 ≤ _; omega)]
    rfl
  have d2 : (v - 1 - 1).toNat = v.toNat - 2 := by
    rw [UInt8.toNat_sub_of_le _ _ (by rw [UInt8.le_iff_toNat_le, d1]; show 1 ≤ _; omega), d1]
    show v.toNat - 1 - 1 = _
    omega
  have lost : ∀ {u : UInt8}, u.toNat ≠ 0 → (¬ ∃ k, u.toNat = 2 ^ k) →
      Image.interpolateChannel u (rnd f32 (1 - 8388609 / 2 ^ 48)) u (rnd f32 (8388609 / 2 ^ 48)) = u - 1 := by
    intro u hu hk
    rcases channel_lost u with h | h | h
    · exact absurd (by rw [h]; rfl) hu
    · exact absurd h hk
    · exact h
  rw [channel_of hch, channel_of hch, channel_of hch, etl, etr, ebl, ebr, Nat.cast_zero, sub_zero,
    lost h0 (fun h => hv (.inr h)), lost (by omega) hv1, d2]
  omega

/-- C74, exactly: sampling between pixels that agree in a channel gives their value everywhere and in every picture if and only if
the value is zero or a power of two. -/
theorem C74_uniform {ch : Color → UInt8} (hch : IsChannel ch) (v : UInt8) :
    (∀ i : Image, i.WF → i.width ≤ 2 ^ 24 → i.height ≤ 2 ^ 24 → ∀ (m n : Nat), m + 1 < i.width → n + 1 < i.height →
      AgreeAt i m n ch v → ∀ x y : Rat, IsFl f32 (.fin x) → IsFl f32 (.fin y) → (m : Rat) < x → x < m + 1 → (n : Rat) < y → y < n + 1 →
      ∃ c, i.interpolatePixelColor (.fin x) (.fin y) = .ok c ∧ ch c = v) ↔ v = 0 ∨ ∃ k, v.toNat = 2 ^ k := by
  constructor
  · intro h
    by_contra hv
    let i : Image := ⟨List.replicate 16 v, 2, 2⟩
    have hi : i.WF := ⟨rfl, show 4 * (2 * 2) < 2 ^ 32 by decide⟩
    have size : (2 : Nat) ≤ 2 ^ 24 := by decide
    have hp : ∀ x y, (x = 0 ∨ x = 0 + 1) → (y = 0 ∨ y = 0 + 1) → i.pixel x y = some ⟨v, v, v, v⟩ := by
      rintro x y (rfl | rfl) (rfl | rfl) <;> rfl
    have ha : AgreeAt i 0 0 ch v := fun x y hx hy => ⟨_, hp x y hx hy, by rcases hch with rfl | rfl | rfl | rfl <;> rfl⟩
    obtain ⟨fx, c, hc, e⟩ := C74_lost hi size size (le_refl _) (le_refl _) hch hv ha
    have fy : IsFl f32 (.fin (1 / 2)) := by
      refine ⟨⟨1, -1, by norm_num [pow2_eq], by decide, by decide⟩, ?_⟩
      rw [show f32.emax = 128 from rfl, pow2_eq, abs_of_pos (by norm_num)]
      norm_num
    obtain ⟨c', hc', e'⟩ := h i hi size size 0 0 Nat.one_lt_two Nat.one_lt_two ha _ _ fx fy (by norm_num) (by norm_num)
      (by norm_num) (by norm_num)
    rw [hc] at hc'
    cases hc'
    rw [e'] at e
    omega
  · intro hv i hi hw hh m n hm hn ha x y fx fy hx0 hx1 hy0 hy1
    exact C74_kept hi hw hh fx fy hx0 hx1 hy0 hy1 hm hn hch hv ha

/-- A picture of 3 x 2 pixels with red 64, green 65, blue 0 and alpha 255. -/
def even6 : Image := ⟨(List.replicate 6 [64, 65, 0, 255]).flatten, 3, 2⟩

theorem even6_agree (ch : Color → UInt8) : AgreeAt even6 0 0 ch (ch ⟨64, 65, 0, 255⟩) := by
  rintro x y (rfl | rfl) (rfl | rfl) <;> exact ⟨_, rfl, rfl⟩

example : even6.WF ∧ AgreeAt even6 0 0 Color.r 64 ∧ AgreeAt even6 0 0 Color.g 65 ∧
    even6.interpolatePixelColor (.fin (8388609 / 2 ^ 48)) (.fin (1 / 2)) = .ok ⟨64, 64, 0, 254⟩ ∧
    even6.interpolatePixelColor (.fin (8388609 / 2 ^ 48)) (.fin (8388609 / 2 ^ 48)) = .ok ⟨64, 64, 0, 253⟩ :=
  ⟨⟨rfl, by decide⟩, even6_agree _, even6_agree _, by decide +kernel, by decide +kernel⟩

example : ∃ c, even6.interpolatePixelColor (.fin (8388609 / 2 ^ 48)) (.fin (8388609 / 2 ^ 48)) = .ok c ∧ c.a.toNat + 2 = 255 := by
  have no : ∀ n, 1 < n → n < 256 → n % 4 ≠ 0 → n ≠ 2 → ¬ ∃ k, n = 2 ^ k := by
    rintro n h1 h2 h4 h3 ⟨k, rfl⟩
    match k with
    | 0 => exact absurd h1 (by decide)
    | 1 => exact h3 rfl
    | k + 2 => exact h4 (by rw [pow_add]; omega)
  refine C74_two (v := 255) ⟨rfl, by decide⟩ (by decide) (by decide) (by decide) (by decide) (ch := Color.a) (.inr (.inr (.inr rfl))) ?_
    (no 254 (by decide) (by decide) (by decide) (by decide)) (even6_agree _)
  rintro (h | h)
  · exact absurd h (by decide)
  · exact no 255 (by decide) (by decide) (by decide) (by decide) h

end Verif.Props
