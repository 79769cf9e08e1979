import Verif.Props.Tiles
import Verif.Props.Colors
import Verif.Props.Interp

/-!
# C118, C121: the pixels of the cloud and precipitation tiles
-/

namespace Verif.Props

open Verif MapTileRenderer MapTileCoord Dwd Colors
open Verif.Spec (Filled cell spacing Accurate mercatorLat cloudLegend rainLegend)
open Verif.Spec.Grib2 (Msg encode)

/-! ## Sampling a field of numbers between its points -/

/-- The value at the fractional column `fx` and row `fy` of a field of `ni` by `nj` numbers: between the points, the
bilinear interpolation of the four around (nothing if one of them is missing or not in the field); on a line through points,
the number at the point to the west and south (C22). -/
def sampled (P : Nat → Nat → Option Rat) (ni nj : Nat) (fx fy : Rat) : Option Rat :=
  let x := ⌊fx⌋.toNat
  let y := ⌊fy⌋.toNat
  let at' := fun x y => if x < ni ∧ y < nj then P x y else none
  if fx = ⌊fx⌋ ∨ fy = ⌊fy⌋ then at' x y
  else match at' x y, at' (x + 1) y, at' x (y + 1), at' (x + 1) (y + 1) with
    | some a, some b, some c, some d =>
      some ((1 - Int.fract fy) * ((1 - Int.fract fx) * a + Int.fract fx * b)
        + Int.fract fy * ((1 - Int.fract fx) * c + Int.fract fx * d))
    | _, _, _, _ => none

/-- A point of a grid that holds given numbers of at least 0. -/
theorem Holds.point {G : LatLonValueGrid Fl} {ni nj : Nat} {P : Nat → Nat → Option Rat} (h : Holds G ni nj P) {B : Rat}
    (hB1 : 1 ≤ B) (hB2 : B ≤ 1000) (hP : ∀ x y q, x < ni → y < nj → P x y = some q → 0 ≤ q ∧ q ≤ B) (x y : Nat) :
    ((if x < ni ∧ y < nj then P x y else none) = none → G.getValueByXY x y = .ok none) ∧
    ∀ q, (if x < ni ∧ y < nj then P x y else none) = some q → 0 ≤ q ∧ q ≤ B ∧
      ∃ v : Rat, G.getValueByXY x y = .ok (some (.fin v)) ∧ |v - q| ≤ B / 2 ^ 21 ∧ |v| ≤ 2 * B := by
  by_cases hxy : x < ni ∧ y < nj
  · rw [if_pos hxy, h.1.get hxy.1 hxy.2]
    obtain ⟨c1, c2⟩ := h.2 x y hxy.1 hxy.2
    refine ⟨fun hn => by rw [c1 hn], fun q hq => ?_⟩
    obtain ⟨q0, q1⟩ := hP x y q hxy.1 hxy.2 hq
    obtain ⟨v, hv, hc⟩ := c2 q hq
    rw [abs_of_nonneg q0] at hv
    have b1 : q / 2 ^ 22 ≤ B / 2 ^ 22 := by gcongr
    have b2 : (1 : Rat) / 2 ^ 110 ≤ B / 2 ^ 22 := by
      have : (1 : Rat) / 2 ^ 110 ≤ 1 / 2 ^ 22 := by norm_num
      have : (1 : Rat) / 2 ^ 22 ≤ B / 2 ^ 22 := by gcongr
      linarith
    have hv1 : |v - q| ≤ B / 2 ^ 21 := by
      refine hv.trans ?_
      have : B / 2 ^ 21 = B / 2 ^ 22 + B / 2 ^ 22 := by ring
      linarith
    have hv' := abs_le.mp hv1
    have b3 : B / 2 ^ 21 ≤ 1 / 2 := by
      have : B / 2 ^ 21 ≤ 1000 / 2 ^ 21 := by gcongr
      have : (1000 : Rat) / 2 ^ 21 ≤ 1 / 2 := by norm_num
      linarith
    rw [if_neg (by intro hc; subst hc; linarith [hv'.1])] at hc
    refine ⟨q0, q1, v, by rw [hc], hv1, ?_⟩
    rw [abs_le]
    constructor <;> linarith [hv'.1, hv'.2]
  · rw [if_neg hxy]
    exact ⟨fun _ => (C19_lookup G ni nj h.1.dims h.1.small h.1.length _ _).2 hxy, fun q hq => by cases hq⟩

/-- A grid holds numbers from 0 to `B`, up to rounding errors. -/
def HoldsUpTo (B : Rat) (G : LatLonValueGrid Fl) (ni nj : Nat) (P : Nat → Nat → Option Rat) : Prop :=
  Filled G ni nj ∧ ∀ x y : Nat, ((if x < ni ∧ y < nj then P x y else none) = none → G.getValueByXY x y = .ok none) ∧
    ∀ q, (if x < ni ∧ y < nj then P x y else none) = some q → 0 ≤ q ∧ q ≤ B ∧
      ∃ v : Rat, G.getValueByXY x y = .ok (some (.fin v)) ∧ |v - q| ≤ B / 2 ^ 19 ∧ |v| ≤ 2 * B

theorem Holds.upTo {G : LatLonValueGrid Fl} {ni nj : Nat} {P : Nat → Nat → Option Rat} (h : Holds G ni nj P) {B : Rat}
    (hB1 : 1 ≤ B) (hB2 : B ≤ 1000) (hP : ∀ x y q, x < ni → y < nj → P x y = some q → 0 ≤ q ∧ q ≤ B) :
    HoldsUpTo B G ni nj P := by
  refine ⟨h.1, fun x y => ?_⟩
  obtain ⟨a, b⟩ := h.point hB1 hB2 hP x y
  refine ⟨a, fun q hq => ?_⟩
  obtain ⟨q0, q1, v, hv, e, e'⟩ := b q hq
  refine ⟨q0, q1, v, hv, e.trans ?_, e'⟩
  gcongr
  · norm_num
  · norm_num

/-- Interpolating in such a grid. -/
theorem HoldsUpTo.sampled {G : LatLonValueGrid Fl} {ni nj : Nat} {P : Nat → Nat → Option Rat} {B : Rat}
    (h : HoldsUpTo B G ni nj P) (hB1 : 1 ≤ B) (hB2 : B ≤ 1000)
    (hni : ni ≤ 2 ^ 24) (hnj : nj ≤ 2 ^ 24) {p : LatLon} {fx fy : Rat}
    (hp : G.grid.getXYByLatLon p = some (.fin fx, .fin fy)) (hx0 : 0 ≤ fx) (hy0 : 0 ≤ fy) (hx1 : fx < 2 ^ 63)
    (hy1 : fy < 2 ^ 63) :
    (sampled P ni nj fx fy = none → G.interpolate p = .ok none) ∧
    ∀ q, sampled P ni nj fx fy = some q → ∃ v : Rat, G.interpolate p = .ok (some (.fin v)) ∧ |v - q| ≤ B / 2 ^ 16 ∧ |v| ≤ 2 * B := by
  have pt := h.2
  have hB0 : 0 < B := by linarith
  unfold Props.sampled
  simp only
  by_cases hl : fx = ⌊fx⌋ ∨ fy = ⌊fy⌋
  · rw [if_pos hl, interpolate_eq G ni nj h.1.dims h.1.small h.1.length hni hnj p fx fy hp hx0 hy0 hx1 hy1, if_pos hl]
    obtain ⟨a, b⟩ := pt ⌊fx⌋.toNat ⌊fy⌋.toNat
    refine ⟨a, fun q hq => ?_⟩
    obtain ⟨_, _, v, hv, e, e'⟩ := b q hq
    refine ⟨v, hv, e.trans ?_, e'⟩
    gcongr
    · norm_num
    · norm_num
  · rw [if_neg hl]
    push Not at hl
    obtain ⟨m1, -⟩ := C21_missing G ni nj h.1.dims h.1.small h.1.length hni hnj p fx fy hp hx0 hy0 hx1 hy1 hl.1 hl.2
    generalize hx : ⌊fx⌋.toNat = x at *
    generalize hy : ⌊fy⌋.toNat = y at *
    obtain ⟨a1, b1⟩ := pt x y
    obtain ⟨a2, b2⟩ := pt (x + 1) y
    obtain ⟨a3, b3⟩ := pt x (y + 1)
    obtain ⟨a4, b4⟩ := pt (x + 1) (y + 1)
    generalize (if x < ni ∧ y < nj then P x y else none) = o1 at *
    generalize (if x + 1 < ni ∧ y < nj then P (x + 1) y else none) = o2 at *
    generalize (if x < ni ∧ y + 1 < nj then P x (y + 1) else none) = o3 at *
    generalize (if x + 1 < ni ∧ y + 1 < nj then P (x + 1) (y + 1) else none) = o4 at *
    constructor
    · intro hn
      rw [m1]
      cases o1 with
      | none => exact ⟨0, 0, by omega, by omega, a1 rfl⟩
      | some =>
        cases o2 with
        | none => exact ⟨1, 0, by omega, by omega, a2 rfl⟩
        | some =>
          cases o3 with
          | none => exact ⟨0, 1, by omega, by omega, a3 rfl⟩
          | some =>
            cases o4 with
            | none => exact ⟨1, 1, by omega, by omega, a4 rfl⟩
            | some => simp at hn
    · intro q hq
      cases o1 with
      | none => simp at hq
      | some q1 =>
      cases o2 with
      | none => simp at hq
      | some q2 =>
      cases o3 with
      | none => simp at hq
      | some q3 =>
      cases o4 with
      | none => simp at hq
      | some q4 =>
      simp only [Option.some.injEq] at hq
      obtain ⟨l1, u1, v1, g1, e1, w1⟩ := b1 q1 rfl
      obtain ⟨l2, u2, v2, g2, e2, w2⟩ := b2 q2 rfl
      obtain ⟨l3, u3, v3, g3, e3, w3⟩ := b3 q3 rfl
      obtain ⟨l4, u4, v4, g4, e4, w4⟩ := b4 q4 rfl
      obtain ⟨v, hv, ev⟩ := C22_bilinear G ni nj h.1.dims h.1.small h.1.length hni hnj p fx fy hp hx0 hy0 hx1 hy1 hl.1 hl.2
        v1 v2 v3 v4 (2 * B) w1 w2 w3 w4 (by have : (2000 : Rat) ≤ 2 ^ 110 := by norm_num
                                            linarith) (by rw [hx, hy]; exact g1) (by rw [hx, hy]; exact g2)
        (by rw [hx, hy]; exact g3) (by rw [hx, hy]; exact g4)
      have s0 := Int.fract_nonneg fx
      have s1 := (Int.fract_lt_one fx).le
      have t0 := Int.fract_nonneg fy
      have t1 := (Int.fract_lt_one fy).le
      generalize Int.fract fx = s at *
      generalize Int.fract fy = t at *
      -- convex combinations
      have conv : ∀ {r a b : Rat} {E : Rat}, 0 ≤ r → r ≤ 1 → |a| ≤ E → |b| ≤ E → |(1 - r) * a + r * b| ≤ E := by
        intro r a b E r0 r1 ha hb
        rw [abs_le] at ha hb ⊢
        constructor <;> nlinarith [ha.1, ha.2, hb.1, hb.2]
      have c1 := conv s0 s1 e1 e2
      have c2 := conv s0 s1 e3 e4
      have c3 := conv t0 t1 c1 c2
      have eq : (1 - t) * ((1 - s) * (v1 - q1) + s * (v2 - q2)) + t * ((1 - s) * (v3 - q3) + s * (v4 - q4)) =
        ((1 - t) * ((1 - s) * v1 + s * v2) + t * ((1 - s) * v3 + s * v4)) - q := by rw [← hq]; ring
      rw [eq] at c3
      have b5 : 2 * B / 2 ^ 18 + 1 / 2 ^ 140 + B / 2 ^ 19 ≤ B / 2 ^ 16 := by
        have : (1 : Rat) / 2 ^ 140 ≤ 1 / 2 ^ 21 := by norm_num
        norm_num at *
        linarith
      have dv : |v - q| ≤ B / 2 ^ 16 := by
        rw [abs_le] at ev c3 ⊢
        constructor <;> linarith [ev.1, ev.2, c3.1, c3.2]
      refine ⟨v, hv, dv, ?_⟩
      have q0 : 0 ≤ q ∧ q ≤ B := by
        have : |q - B / 2| ≤ B / 2 := by
          have k : ∀ r : Rat, 0 ≤ r → r ≤ B → |r - B / 2| ≤ B / 2 := fun r h0 h1 => by
            rw [abs_le]; constructor <;> linarith
          have := conv t0 t1 (conv s0 s1 (k q1 l1 u1) (k q2 l2 u2)) (conv s0 s1 (k q3 l3 u3) (k q4 l4 u4))
          refine le_of_eq_of_le (congrArg abs ?_) this
          rw [← hq]; ring
        rw [abs_le] at this
        constructor <;> linarith [this.1, this.2]
      have b6 : B / 2 ^ 16 ≤ B := div_le_self hB0.le (by norm_num)
      rw [abs_le] at dv ⊢
      constructor <;> linarith [dv.1, dv.2, q0.1, q0.2]

/-! ## Drawing -/

/-- `px` is the colour `r` drawn over the colour `c`, up to two units of colour and one of opacity. -/
def Over (r c px : Color) : Prop :=
  let over := fun (rc cc : UInt8) =>
    (rc.toNat : Rat) * r.a.toNat / 255 + cc.toNat * c.a.toNat * (255 - r.a.toNat) / 255 / 255
  (0 ≤ over r.r c.r - px.r.toNat ∧ over r.r c.r - px.r.toNat < 2) ∧
  (0 ≤ over r.g c.g - px.g.toNat ∧ over r.g c.g - px.g.toNat < 2) ∧
  (0 ≤ over r.b c.b - px.b.toNat ∧ over r.b c.b - px.b.toNat < 2) ∧
  (0 ≤ (r.a.toNat : Rat) + c.a.toNat * (255 - r.a.toNat) / 255 - px.a.toNat ∧
    (r.a.toNat : Rat) + c.a.toNat * (255 - r.a.toNat) / 255 - px.a.toNat < 1)

/-- `px` shows this cloud cover and this rain: the colours of their classes, one over the other. -/
def Drawn (cloud rain : Rat) (px : Color) : Prop :=
  ∃ (i k : Nat) (c r : Color), cloudLegend.InClass (.fin cloud) i ∧ cloudLegend.colors[i]? = some c ∧
    rainLegend.InClass (.fin rain) k ∧ rainLegend.colors[k]? = some r ∧ Over r c px

/-- The colour of a clear sky without rain: black, half transparent. -/
def clearSky : Color := ⟨0, 0, 0, 127⟩

theorem drawn_color {cloud rain : Rat} {px : Color} (h : cloudPrecipColor (.fin cloud, .fin rain) = .ok px) :
    Drawn cloud rain px := by
  obtain ⟨i, hi, -, ci⟩ := C46_cloud.1 (.fin cloud) (by simp)
  obtain ⟨k, hk, -, ck⟩ := C46_rain.1 (.fin rain) (by simp)
  obtain ⟨col, hcol, hov⟩ := C46_composite (.fin cloud) (.fin rain)
  rw [h] at hcol
  cases hcol
  exact ⟨i, k, _, _, hi, ci, hk, ck, hov _ _ rfl rfl⟩

/-- How cloud cover `c` (a fraction) and the precipitation between the totals `t0` and `t1` (in mm) are drawn, where
missing ones count as zero: as a cover right to within 0.0001 and a precipitation right to within 0.04 mm.  If all are
missing, as a clear sky without rain. -/
def CloudRainShown (c t0 t1 : Option Rat) (px : Color) : Prop :=
  (∃ cloud rain : Rat, |cloud - c.getD 0| ≤ 1 / 10000 ∧ |rain - (t1.getD 0 - t0.getD 0)| ≤ 4 / 100 ∧
    Drawn cloud rain px) ∧
  (c = none → t0 = none → t1 = none → px = clearSky)

/-- The fractional column (row) of a position: the number of the point there plus the fraction of the way from the first
to the last point (C117), up to rounding. -/
def At (first last : Rat) (n : Nat) (p f : Rat) : Prop :=
  0 ≤ f ∧ |f - ((p - first) / spacing first last n + (p - first) / (last - first))| ≤ 1 / 2 ^ 5 + 1 / 2 ^ 100

theorem PointAxis.fraction {first last : Rat} {n : Nat} (h : PointAxis first last n) {p : Rat} (h1 : first ≤ p)
    (h2 : p < last) : ∃ t : Rat,
      Fl.div f32 (Fl.sub f32 (.fin p) (.fin first)) (Fl.div f32 (Fl.sub f32 (.fin last) (.fin first)) (Fl.ofNat f32 n))
        = .fin t ∧ At first last n p t ∧ t < 2 ^ 63 := by
  obtain ⟨t, ht, t0, te⟩ := h.axis.coordinate h1 h2
  have hn : (n : Rat) < 2 ^ 16 := by exact_mod_cast h.small
  have h2' : (2 : Rat) ≤ n := by exact_mod_cast h.two
  have hD : 0 < last - first := by linarith
  have e : (p - first) * n / (last - first) = (p - first) / spacing first last n + (p - first) / (last - first) := by
    have h1 : spacing first last n ≠ 0 := h.pos.ne'
    have : (n : Rat) - 1 ≠ 0 := by linarith
    unfold spacing
    field_simp
    ring
  have hT : (p - first) * n / (last - first) ≤ 2 ^ 16 := by
    rw [div_le_iff₀ hD]
    have : (p - first) * n ≤ (last - first) * n := mul_le_mul_of_nonneg_right (by linarith) (by linarith)
    have : (last - first) * n ≤ (last - first) * 2 ^ 16 := mul_le_mul_of_nonneg_left hn.le hD.le
    linarith
  rw [e] at hT te
  refine ⟨t, ht, ⟨t0, te.trans ?_⟩, ?_⟩
  · have : (2 : Rat) ^ 16 / 2 ^ 21 = 1 / 2 ^ 5 := by norm_num
    linarith
  · rw [abs_le] at te
    have : (2 : Rat) ^ 16 + 2 ^ 16 / 2 ^ 21 + 1 / 2 ^ 100 < 2 ^ 63 := by norm_num
    linarith [te.2]

/-- All grids of the same points have the same fractional coordinates. -/
theorem fractions {s w n e : Rat} {ni nj : Nat} (hlat : PointAxis s n nj) (hlon : PointAxis w e ni) {lat lon : Rat}
    (hb : Between s w n e lat lon) : ∃ fx fy : Rat, At w e ni lon fx ∧ At s n nj lat fy ∧ fx < 2 ^ 63 ∧ fy < 2 ^ 63 ∧
      ∀ G : LatLonValueGrid Fl, G.grid = LatLonGrid.new (ni, nj) (finExtent s w n e) →
        G.grid.getXYByLatLon ⟨.fin lat, .fin lon⟩ = some (.fin fx, .fin fy) := by
  obtain ⟨h1, h2, h3, h4⟩ := hb
  obtain ⟨t, ht, ta, tb⟩ := hlon.fraction h3 h4
  obtain ⟨u, hu, ua, ub⟩ := hlat.fraction h1 h2
  refine ⟨t, u, ta, ua, tb, ub, fun G eg => ?_⟩
  rw [eg]
  unfold LatLonGrid.getXYByLatLon
  have hin : (LatLonGrid.new (ni, nj) (finExtent s w n e)).extent.isInside ⟨.fin lat, .fin lon⟩ = true := by
    change (Fl.ge (.fin lat) (.fin s) && Fl.lt (.fin lat) (.fin n) && Fl.ge (.fin lon) (.fin w)
      && Fl.lt (.fin lon) (.fin e)) = true
    simp only [Fl.ge, Fl.le, Fl.lt, Bool.and_eq_true, decide_eq_true_eq]
    exact ⟨⟨⟨h1, h2⟩, h3⟩, h4⟩
  rw [hin]
  simp only [Bool.not_true, Bool.false_eq_true, if_false]
  rw [← ht, ← hu]
  rfl

/-- The colour for a position as a function of the three interpolated values. -/
theorem cloud_color {l : CloudPrecipLayer} {p : LatLon} {a b c : Option Fl} (ha : l.cloud.interpolate p = .ok a)
    (hb : l.precip0.interpolate p = .ok b) (hc : l.precip1.interpolate p = .ok c) :
    ∃ px, (cloudPrecipChart l).color p = .ok (some px) ∧
      cloudPrecipColor (unwrapOr a (.fin 0), Fl.sub f32 (unwrapOr c (.fin 0)) (unwrapOr b (.fin 0))) = .ok px := by
  obtain ⟨col, hcol, _⟩ := C46_composite (unwrapOr a (.fin 0)) (Fl.sub f32 (unwrapOr c (.fin 0)) (unwrapOr b (.fin 0)))
  refine ⟨col, ?_, hcol⟩
  unfold cloudPrecipChart CloudPrecipLayer.getCloudAndPrecipByLatLon
  simp only
  rw [ha, hb, hc]
  show Res.bind (Colors.cloudPrecipColor _) _ = _
  rw [hcol]
  rfl

theorem clear_color : cloudPrecipColor (unwrapOr none (.fin 0), Fl.sub f32 (unwrapOr none (.fin 0)) (unwrapOr none (.fin 0)))
    = .ok clearSky := by decide +kernel

/-- What is drawn at a position of the area. -/
theorem cloud_pixel {s w n e : Rat} {ni nj : Nat} (hlat : PointAxis s n nj) (hlon : PointAxis w e ni)
    {l : CloudPrecipLayer} (ec : l.cloud.grid = LatLonGrid.new (ni, nj) (finExtent s w n e))
    (e0 : l.precip0.grid = LatLonGrid.new (ni, nj) (finExtent s w n e))
    (e1 : l.precip1.grid = LatLonGrid.new (ni, nj) (finExtent s w n e)) {C P0 P1 : Nat → Nat → Option Rat}
    (hC : HoldsUpTo 1 l.cloud ni nj C) (h0 : HoldsUpTo 1000 l.precip0 ni nj P0) (h1 : HoldsUpTo 1000 l.precip1 ni nj P1)
    {lat lon : Rat} {o : Option Color}
    (ho : (cloudPrecipChart l).color ⟨.fin lat, .fin lon⟩ = .ok o) :
    (¬ Between s w n e lat lon → o.getD Color.transparent = clearSky) ∧
    (Between s w n e lat lon → ∃ fx fy, At w e ni lon fx ∧ At s n nj lat fy ∧
      CloudRainShown (sampled C ni nj fx fy) (sampled P0 ni nj fx fy) (sampled P1 ni nj fx fy)
        (o.getD Color.transparent)) := by
  constructor
  · intro hb
    have out := outside_between hb
    obtain ⟨px, hpx, hcol⟩ := cloud_color (l := l) (p := ⟨.fin lat, .fin lon⟩)
      (C21_outside _ _ (by rw [ec]; exact out)) (C21_outside _ _ (by rw [e0]; exact out))
      (C21_outside _ _ (by rw [e1]; exact out))
    rw [hpx] at ho
    cases ho
    rw [clear_color] at hcol
    cases hcol
    rfl
  · intro hb
    obtain ⟨fx, fy, hx, hy, x63, y63, hG⟩ := fractions hlat hlon hb
    have sm : ∀ {k : Nat}, k < 2 ^ 16 → k ≤ 2 ^ 24 := fun h => h.le.trans (by norm_num)
    refine ⟨fx, fy, hx, hy, ?_⟩
    obtain ⟨c1, c2⟩ := hC.sampled (le_refl 1) (by norm_num) (sm hlon.small) (sm hlat.small) (hG _ ec) hx.1 hy.1 x63 y63
    obtain ⟨p1, p2⟩ := h0.sampled (by norm_num) (le_refl 1000) (sm hlon.small) (sm hlat.small) (hG _ e0) hx.1 hy.1 x63 y63
    obtain ⟨q1, q2⟩ := h1.sampled (by norm_num) (le_refl 1000) (sm hlon.small) (sm hlat.small) (hG _ e1) hx.1 hy.1 x63 y63
    -- each value, or zero for a missing one
    have val : ∀ {G : LatLonValueGrid Fl} {p : LatLon} {t : Option Rat} {B : Rat}, 0 ≤ B →
        (t = none → G.interpolate p = .ok none) →
        (∀ q, t = some q → ∃ v : Rat, G.interpolate p = .ok (some (.fin v)) ∧ |v - q| ≤ B / 2 ^ 16 ∧ |v| ≤ 2 * B) →
        ∃ (a : Option Fl) (v : Rat), G.interpolate p = .ok a ∧ unwrapOr a (.fin 0) = .fin v ∧ |v - t.getD 0| ≤ B / 2 ^ 16 ∧
          |v| ≤ 2 * B ∧ (t = none → a = none) := by
      intro G p t B hB n1 n2
      cases t with
      | none =>
        refine ⟨none, 0, n1 rfl, rfl, ?_, ?_, fun _ => rfl⟩
        · simp only [Option.getD_none, sub_zero, abs_zero]; positivity
        · rw [abs_zero]; positivity
      | some q =>
        obtain ⟨v, hv, ev, av⟩ := n2 q rfl
        exact ⟨_, v, hv, rfl, ev, av, fun h => by cases h⟩
    obtain ⟨ca, cv, i1, u1, r1, -, z1⟩ := val (by norm_num) c1 c2
    obtain ⟨pa, pv, i2, u2, r2, m2, z2⟩ := val (by norm_num) p1 p2
    obtain ⟨qa, qv, i3, u3, r3, m3, z3⟩ := val (by norm_num) q1 q2
    obtain ⟨px, hpx, hcol⟩ := cloud_color i1 i2 i3
    rw [hpx] at ho
    cases ho
    refine ⟨?_, fun k1 k2 k3 => ?_⟩
    · rw [u1, u2, u3] at hcol
      rw [abs_le] at r1 r2 r3 m2 m3
      obtain ⟨d, hd, -, ed⟩ := rnd32_err_le (q := qv - pv) (B := 4000)
        (by rw [abs_le]; constructor <;> linarith [m2.1, m2.2, m3.1, m3.2]) (by norm_num)
      have hs : Fl.sub f32 (.fin qv) (.fin pv) = .fin d := by rw [Fl.sub_fin]; exact hd
      rw [hs] at hcol
      rw [abs_le] at ed
      refine ⟨cv, d, ?_, ?_, drawn_color hcol⟩
      · rw [abs_le]
        have : (1 : Rat) / 2 ^ 16 ≤ 1 / 10000 := by norm_num
        constructor <;> linarith [r1.1, r1.2]
      · rw [abs_le]
        have : (4000 : Rat) / 2 ^ 24 + 1 / 2 ^ 150 + 1000 / 2 ^ 16 + 1000 / 2 ^ 16 ≤ 4 / 100 := by norm_num
        constructor <;> linarith [r2.1, r2.2, r3.1, r3.2, ed.1, ed.2]
    · rw [z1 k1, z2 k2, z3 k3, clear_color] at hcol
      cases hcol
      rfl

/-- C121: if a DWD run is rendered successfully with clouds and precipitation and the step selected, and the server
published fields of the cloud cover (as a fraction) and of the precipitation totals of the hour and the hour before, then
every tile that is needed for the extent of the fields is written, 256 by 256 pixels.  Each pixel of the area shows the
cover and the precipitation of the hour, interpolated between the points around the place that C117 gives for the pixel, as
the colour of the precipitation drawn over that of the clouds.  Missing from the full claim: positions without data, which
are drawn as a clear sky without rain, as are those outside the area and in the last row and column of the grid (see
the counterexample). -/
theorem C121_cloud_precip_tiles_partial (m : Libm) (hacc : Accurate m) (w : World) (dirs : Text → Bool) (vars : List Text)
    (filter : List Nat) (run : Run) (hm : IsDwd run.model) (hn : '/' ∉ run.name) (tr : List Write)
    (h : Dwd.renderRun m w dirs vars filter run tr .done) (hv : ChosenVar vars .cloudPrecip) (s : RunStep)
    (hs : s ∈ run.model.forecastSteps) (hc : Chosen filter s) (clct total0 total1 : Msg) (ni nj : Nat)
    (hpc : Publishes w run (.single .clctMod s.nr) clct) (hfc : Field clct ni nj)
    (hp0 : Publishes w run (.single .totPrec (s.nr - 1)) total0) (hf0 : Field total0 ni nj)
    (hp1 : Publishes w run (.single .totPrec s.nr) total1) (hf1 : Field total1 ni nj) (south west north east : Rat)
    (hgc : PointGrid clct.doc south west north east ni nj) (hg0 : PointGrid total0.doc south west north east ni nj)
    (hg1 : PointGrid total1.doc south west north east ni nj)
    (bc : ∀ x y q, x < ni → y < nj → physical clct (y * ni + x) = some q → 0 ≤ q ∧ q ≤ 1)
    (b0 : ∀ x y q, x < ni → y < nj → physical total0 (y * ni + x) = some q → 0 ≤ q ∧ q ≤ 1000)
    (b1 : ∀ x y q, x < ni → y < nj → physical total1 (y * ni + x) = some q → 0 ≤ q ∧ q ≤ 1000)
    (before : Tree) (t : MapTileCoord)
    (ht : Needed m (finExtent south west north east) run.model.zoomRange t) (hx : t.x < 2 ^ t.zoom)
    (hy : t.y < 2 ^ t.zoom) :
    ∃ d, before.write tr (tilePath (outputPath run s.nr .cloudPrecip) t) = some (.picture d) ∧ d.width = 256 ∧
      d.height = 256 ∧
      ∀ i : Nat, i < 256 → ∃ lat : Rat, |(lat : ℝ) - mercatorLat (t.y + i / 256) t.zoom| ≤ 1 / 200 + 300 / 4 ^ t.zoom ∧
        ∀ j : Nat, j < 256 → ∃ px, d.pixel j i = some px ∧
          (¬ Between south west north east lat (pixelLon t.x t.zoom j) → px = clearSky) ∧
          (Between south west north east lat (pixelLon t.x t.zoom j) → ∃ fx fy : Rat,
            At west east ni (pixelLon t.x t.zoom j) fx ∧ At south north nj lat fy ∧
            CloudRainShown (sampled (fun x y => physical clct (y * ni + x)) ni nj fx fy)
              (sampled (fun x y => physical total0 (y * ni + x)) ni nj fx fy)
              (sampled (fun x y => physical total1 (y * ni + x)) ni nj fx fy) px) := by
  obtain ⟨l, hl, hd, hfile⟩ := bin_of_run (v := .cloudPrecip) hn h hv (by simp) hs hc
  simp only [dwdLayers, Res.bind_eq_ok, Res.ok.injEq] at hl
  obtain ⟨C, hC, P0, hP0, P1, hP1, L, hL, _, _, _, _, _, _, W, _, rfl⟩ := hl
  obtain rfl := cloudPrecip_new hL
  have ec := hgc.grid (source_of_field hm hpc hC)
  have e0 := hg0.grid (source_of_field hm hp0 hP0)
  have e1 := hg1.grid (source_of_field hm hp1 hP1)
  have ht' : Needed m C.grid.extent run.model.zoomRange t := by rw [ec]; exact ht
  have hHc := cell_of_field hm hpc hfc hC
  have hH0 := cell_of_field hm hp0 hf0 hP0
  have hH1 := cell_of_field hm hp1 hf1 hP1
  obtain ⟨d, hd⟩ := hd.1 t ht'
  have htot : ∀ p, ∃ v, (cloudPrecipChart ⟨C, P0, P1⟩).color p = .ok v := by
    intro p
    obtain ⟨a, ha⟩ := filled_interpolate hHc.1 p
    obtain ⟨b, hb⟩ := filled_interpolate hH0.1 p
    obtain ⟨c, hc⟩ := filled_interpolate hH1.1 p
    obtain ⟨px, hpx, -⟩ := cloud_color (l := ⟨C, P0, P1⟩) ha hb hc
    exact ⟨_, hpx⟩
  obtain ⟨w1, w2, w3⟩ := tile_pixels hacc (ht.2.1.trans (zoom_small _)) hx hy htot hd
  refine ⟨d, hfile before (.cloudPrecipTile t) _ (.cloudPrecipTile ht' hd), w1, w2, fun i hi => ?_⟩
  obtain ⟨lat, hlat, hpx⟩ := w3 i hi
  refine ⟨lat, hlat, fun j hj => ?_⟩
  obtain ⟨o, ho, hpix⟩ := hpx j hj
  exact ⟨_, hpix, cloud_pixel (l := ⟨C, P0, P1⟩) hgc.lats hgc.lons ec e0 e1
    (hHc.upTo (le_refl 1) (by norm_num) bc) (hH0.upTo (by norm_num) (le_refl 1000) b0)
    (hH1.upTo (by norm_num) (le_refl 1000) b1) ho⟩

/-! ## C118 -/

/-- The colour of clouds and rain is never transparent. -/
theorem opaque_color {v : Fl × Fl} {px : Color} (h : cloudPrecipColor v = .ok px) : 127 ≤ px.a.toNat := by
  obtain ⟨col, hcol, hov⟩ := C46_composite v.1 v.2
  rw [h] at hcol
  cases hcol
  obtain ⟨-, -, -, -, hov⟩ := hov _ _ rfl rfl
  have ha : ∀ c ∈ cloudLegend.colors, 127 ≤ c.a.toNat := by decide +kernel
  have hc : 127 ≤ (cloudColor v.1).a.toNat := by
    by_cases hn : v.1 = .nan
    · rw [hn]
      exact ha _ (List.mem_of_getElem? C46_cloud.2)
    · obtain ⟨i, -, -, ci⟩ := C46_cloud.1 v.1 hn
      exact ha _ (List.mem_of_getElem? ci)
  have hr : (rainColor v.2).a.toNat ≤ 255 := by have := (rainColor v.2).a.toNat_lt; omega
  have hc' : (127 : Rat) ≤ (cloudColor v.1).a.toNat := by exact_mod_cast hc
  have hr' : ((rainColor v.2).a.toNat : Rat) ≤ 255 := by exact_mod_cast hr
  have hr0 : (0 : Rat) ≤ (rainColor v.2).a.toNat := by positivity
  generalize ((cloudColor v.1).a.toNat : Rat) = c at *
  generalize ((rainColor v.2).a.toNat : Rat) = r at *
  have : c * (255 - r) / 255 ≥ 127 * (255 - r) / 255 := by
    gcongr
  have hlt : (126 : Rat) < px.a.toNat := by linarith
  have : 126 < px.a.toNat := by exact_mod_cast hlt
  omega

/-- C118 fails for every tile of clouds and precipitation: none of its pixels is transparent, not even outside the area or
where data is missing. -/
theorem C118_never_transparent (m : Libm) (l : CloudPrecipLayer) (ni nj : Nat) (hc : Filled l.cloud ni nj)
    (h0 : Filled l.precip0 ni nj) (h1 : Filled l.precip1 ni nj) (t : MapTileCoord) (hz : t.zoom ≤ 31) (d : Drawable)
    (hd : createSingleTile m (cloudPrecipChart l).color t id = .ok d) :
    ∀ i j : Nat, i < 256 → j < 256 → ∃ px, d.pixel j i = some px ∧ 127 ≤ px.a.toNat := by
  intro i j hi hj
  have htot : ∀ p, ∃ v, (cloudPrecipChart l).color p = .ok v ∧ ∃ px, v = some px ∧ 127 ≤ px.a.toNat := by
    intro p
    obtain ⟨a, ha⟩ := filled_interpolate hc p
    obtain ⟨b, hb⟩ := filled_interpolate h0 p
    obtain ⟨c, hc⟩ := filled_interpolate h1 p
    obtain ⟨px, hpx, hcol⟩ := cloud_color (l := l) ha hb hc
    exact ⟨_, hpx, px, rfl, opaque_color hcol⟩
  choose v hv px hpx ha using htot
  obtain ⟨hx', hy'⟩ := tile_small hd
  obtain ⟨start, stop, d', e1, e2, e3, -, w1, w2, w3⟩ := C33_tile m t hz hx' hy' (cloudPrecipChart l).color v hv id
  rw [hd] at e3
  cases e3
  have := w3 i j hi hj
  rw [hpx] at this
  exact ⟨_, this, ha _⟩

/-- All colours of a legend are visible, so those of all values are. -/
theorem shows_visible {f : Fl → Color} {l : Spec.Legend} (h : Shows f l) (hl : ∀ c ∈ l.colors, c ≠ Color.transparent) (v : Fl) :
    f v ≠ Color.transparent := by
  by_cases hn : v = .nan
  · rw [hn]
    exact hl _ (List.mem_of_getElem? h.2)
  · obtain ⟨i, -, -, hi⟩ := h.1 v hn
    exact hl _ (List.mem_of_getElem? hi)

/-- C118, the part that holds: in the tiles of temperature and of wind exactly those pixels are transparent that have no
value: those outside the area and those at points without one.  Missing from the full claim: the tiles of clouds and
precipitation. -/
theorem C118_transparent_partial (m : Libm) (hacc : Accurate m) (t : MapTileCoord) (hz : t.zoom ≤ 10)
    (hx : t.x < 2 ^ t.zoom) (hy : t.y < 2 ^ t.zoom) (s w n e : Rat) (ni nj : Nat) :
    (∀ (l : TempLayer) (d : Drawable), Filled l.temp ni nj →
      l.temp.grid = LatLonGrid.new (ni, nj) (finExtent s w n e) →
      createSingleTile m (tempChart l).color t id = .ok d → ∀ i : Nat, i < 256 → ∃ lat : Rat,
        |(lat : ℝ) - mercatorLat (t.y + i / 256) t.zoom| ≤ 1 / 200 + 300 / 4 ^ t.zoom ∧
        ∀ j : Nat, j < 256 → (d.pixel j i = some Color.transparent ↔ ¬ Between s w n e lat (pixelLon t.x t.zoom j) ∨
          l.temp.getValueByLatLon ⟨.fin lat, .fin (pixelLon t.x t.zoom j)⟩ = .ok none)) ∧
    (∀ (l : WindLayer) (d : Drawable), Filled l.zonal ni nj → Filled l.meridional ni nj →
      l.zonal.grid = LatLonGrid.new (ni, nj) (finExtent s w n e) →
      createSingleTile m (windChart l).color t id = .ok d → ∀ i : Nat, i < 256 → ∃ lat : Rat,
        |(lat : ℝ) - mercatorLat (t.y + i / 256) t.zoom| ≤ 1 / 200 + 300 / 4 ^ t.zoom ∧
        ∀ j : Nat, j < 256 → (d.pixel j i = some Color.transparent ↔ ¬ Between s w n e lat (pixelLon t.x t.zoom j) ∨
          l.zonal.getValueByLatLon ⟨.fin lat, .fin (pixelLon t.x t.zoom j)⟩ = .ok none ∨
          l.meridional.getValueByLatLon ⟨.fin lat, .fin (pixelLon t.x t.zoom j)⟩ = .ok none)) := by
  constructor
  · intro l d hl eg hd i hi
    have htot : ∀ p, ∃ v, (tempChart l).color p = .ok v ∧ (v = none ↔ l.temp.getValueByLatLon p = .ok none) ∧
        (v.getD Color.transparent = Color.transparent ↔ v = none) := by
      intro p
      obtain ⟨v, hv⟩ := filled_position hl p
      unfold tempChart TempLayer.getTempByLatLon
      simp only
      rw [hv]
      cases v with
      | none => exact ⟨none, rfl, by simp, by simp⟩
      | some k =>
        refine ⟨some (tempColor k), rfl, by simp, ?_⟩
        have : tempColor k ≠ Color.transparent := by
          rw [tempColor_eq]
          exact shows_visible temp_shows (by decide +kernel) (Physics.kelvinToCelsius k)
        simp [this]
    obtain ⟨-, -, w3⟩ := tile_pixels hacc hz hx hy (fun p => (htot p).imp fun _ h => h.1) hd
    obtain ⟨lat, hlat, hpx⟩ := w3 i hi
    refine ⟨lat, hlat, fun j hj => ?_⟩
    obtain ⟨o, ho, hpix⟩ := hpx j hj
    obtain ⟨v, hv, v1, v2⟩ := htot ⟨.fin lat, .fin (pixelLon t.x t.zoom j)⟩
    rw [ho] at hv
    cases hv
    rw [hpix, Option.some.injEq, v2, v1]
    exact ⟨Or.inr, fun h => h.elim (fun hb => C20_outside _ _ (by rw [eg]; exact outside_between hb)) id⟩
  · intro l d hu hv eg hd i hi
    have htot : ∀ p, ∃ v, (windChart l).color p = .ok v ∧
        (v = none ↔ l.zonal.getValueByLatLon p = .ok none ∨ l.meridional.getValueByLatLon p = .ok none) ∧
        (v.getD Color.transparent = Color.transparent ↔ v = none) := by
      intro p
      obtain ⟨a, ha⟩ := filled_position hu p
      obtain ⟨b, hb⟩ := filled_position hv p
      unfold windChart WindLayer.getSpeedByLatLon WindLayer.getWindByLatLon
      simp only
      rw [ha, hb]
      cases a with
      | none => exact ⟨none, rfl, by simp, by simp⟩
      | some u =>
        cases b with
        | none => exact ⟨none, rfl, by simp, by simp⟩
        | some v =>
          refine ⟨some _, rfl, by simp, ?_⟩
          have := fun k => shows_visible C46_wind.1 (by decide +kernel) k
          simp [this]
    obtain ⟨-, -, w3⟩ := tile_pixels hacc hz hx hy (fun p => (htot p).imp fun _ h => h.1) hd
    obtain ⟨lat, hlat, hpx⟩ := w3 i hi
    refine ⟨lat, hlat, fun j hj => ?_⟩
    obtain ⟨o, ho, hpix⟩ := hpx j hj
    obtain ⟨v, hv, v1, v2⟩ := htot ⟨.fin lat, .fin (pixelLon t.x t.zoom j)⟩
    rw [ho] at hv
    cases hv
    rw [hpix, Option.some.injEq, v2, v1]
    exact ⟨Or.inr, fun h => h.elim (fun hb => .inl (C20_outside _ _ (by rw [eg]; exact outside_between hb))) id⟩

end Verif.Props
