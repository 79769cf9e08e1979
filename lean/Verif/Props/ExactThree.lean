import Verif.Props.Weights
import Verif.Props.Imaging

/-!
# Complements to C63 and C70

What happens in general where these properties fail.
-/

namespace Verif.Props

open Verif

/-! ## C63: averaging bytes -/

theorem half_of_byte (v : UInt8) : (scaleU8 v (.fin (1 / 2))).toNat = (v.toNat + 1) / 2 := by
  have key : ∀ n < 256, (scaleU8 (UInt8.ofNat n) (.fin (1 / 2))).toNat = (n + 1) / 2 := by decide +kernel
  have := key v.toNat v.toNat_lt
  rwa [UInt8.ofNat_toNat] at this

/-- C63: a cell that keeps two coordinates at the same distance has as its value the sum of the two halves, each rounded up. This
panics exactly if both values are 255. -/
theorem C63_two_equally_near (g : UnstructuredValueGrid1 UInt8) (x y : Nat) (t : CoordDistTriple) (c d : CoordDist)
    (ht : g.grid.getCoordDistTriple x y = .ok (some t)) (hc : t.getCoordDists = [c, d]) (s : Rat)
    (hs : Fl.sqrt f32 c.coordDistSquared = .fin s) (hs' : Fl.sqrt f32 d.coordDistSquared = .fin s) (h0 : 0 < s) (h1 : s ≤ 2 ^ 64)
    (hrep : Rep f32 s) (a b : UInt8) (ha : g.values[c.coordIndex]? = some a) (hb : g.values[d.coordIndex]? = some b)
    (hma : a ≠ g.missingValue) (hmb : b ≠ g.missingValue) :
    (g.getValueByXY x y = .panic ↔ a = 255 ∧ b = 255) ∧
    ∀ v, g.getValueByXY x y = .ok (some v) → v.toNat = (a.toNat + 1) / 2 + (b.toNat + 1) / 2 := by
  have isFl : ∀ {q : Rat}, Rep f32 q → 0 ≤ q → q ≤ 2 ^ 65 → IsFl f32 (.fin q) := by
    intro q h1 h2 h3
    refine ⟨h1, ?_⟩
    rw [abs_of_nonneg h2]
    refine lt_of_le_of_lt h3 ?_
    rw [show pow2 f32.emax = 2 ^ 128 by decide +kernel]; norm_num
  have b65 : (2 : Rat) ^ 65 = 2 * 2 ^ 64 := by norm_num
  have hrep2 : Rep f32 (s + s) := by
    obtain ⟨m, e, h1, h2, h3⟩ := hrep
    refine ⟨m, e + 1, ?_, h2, by omega⟩
    rw [h1, pow2_add, pow2_one]; ring
  have e1 : rnd f32 (0 + s) = .fin s := by rw [zero_add]; exact isFl_exact prec32 (isFl hrep h0.le (by linarith))
  have e2 : rnd f32 (s + s) = .fin (s + s) := isFl_exact prec32 (isFl hrep2 (by linarith) (by linarith))
  have hsum : UnstructuredValueGrid1.distSum [c, d] = .fin (s + s) := by
    unfold UnstructuredValueGrid1.distSum
    simp only [List.map_cons, List.map_nil, List.foldl_cons, List.foldl_nil, hs, hs', Fl.add_fin, e1, e2]
  have half : IsFl f32 (.fin (1 / 2)) := ⟨⟨1, -1, by decide +kernel, by decide, by decide⟩, by decide +kernel⟩
  have hdiv : Fl.div f32 (.fin s) (.fin (s + s)) = .fin (1 / 2) := by
    rw [Fl.div_fin _ _ (by linarith), show s / (s + s) = 1 / 2 by field_simp; ring]
    exact isFl_exact prec32 half
  have hw : ∀ (v : UInt8) (cd : CoordDist), Fl.sqrt f32 cd.coordDistSquared = .fin s → g.values[cd.coordIndex]? = some v →
      v ≠ g.missingValue →
      UnstructuredValueGrid1.weighted g.values g.missingValue (.fin (s + s)) cd = some (scaleU8 v (.fin (1 / 2))) := by
    intro v cd h1 h2 h3
    unfold UnstructuredValueGrid1.weighted
    rw [h2, h1, hdiv]
    simp only
    have : GridValue.eq v g.missingValue = false := by
      show decide (v = g.missingValue) = false
      simpa using h3
    rw [this]
    rfl
  have key : g.getValueByXY x y =
      if (scaleU8 a (.fin (1 / 2))).toNat + (scaleU8 b (.fin (1 / 2))).toNat > 255 then .panic
      else .ok (some (scaleU8 a (.fin (1 / 2)) + scaleU8 b (.fin (1 / 2)))) := by
    unfold UnstructuredValueGrid1.getValueByXY
    rw [ht]
    simp only [Res.bind_ok, hc, hsum]
    rw [List.filterMap_cons, hw a c hs ha hma, List.filterMap_cons, hw b d hs' hb hmb]
    simp only [List.filterMap_nil, List.isEmpty_cons, Bool.false_eq_true, if_false]
    have hz : (0 : UInt8).toNat = 0 := rfl
    have hle : (scaleU8 a (.fin (1 / 2))).toNat ≤ 255 := by have := (scaleU8 a (.fin (1 / 2))).toNat_lt; omega
    show Res.bind (Res.foldl (fun a b : UInt8 => if a.toNat + b.toNat > 255 then Res.panic else .ok (a + b)) 0
      [scaleU8 a (.fin (1 / 2)), scaleU8 b (.fin (1 / 2))]) _ = _
    simp only [Res.foldl, hz, Nat.zero_add, UInt8.zero_add]
    rw [if_neg (by omega)]
    change Res.bind (Res.bind (if _ then Res.panic else Res.ok _) Res.ok) _ = _
    split <;> rfl
  rw [key, half_of_byte, half_of_byte]
  have la := a.toNat_lt
  have lb := b.toNat_lt
  have eq255 : ∀ v : UInt8, v = 255 ↔ v.toNat = 255 := fun v => ⟨fun h => by rw [h]; rfl, fun h => UInt8.toNat_inj.mp h⟩
  constructor
  · rw [eq255, eq255]
    split
    · simp; omega
    · simp; omega
  · intro v hv
    split at hv
    · cases hv
    · cases hv
      rw [UInt8.toNat_add, half_of_byte, half_of_byte, Nat.mod_eq_of_lt (by omega)]

/-- Two coordinates at distance 1 with value 255. -/
example : UnstructuredValueGrid1.getValueByXY (T := UInt8)
    ⟨⟨LatLonGrid.new (1, 1) (finExtent 0 0 8 8), [⟨.fin 3, .fin 4⟩, ⟨.fin 5, .fin 4⟩], [[some ⟨0, .fin 1⟩, some ⟨1, .fin 1⟩, none]]⟩,
      [255, 255], 0⟩ 0 0 = .panic :=
  (C63_two_equally_near _ 0 0 [some ⟨0, .fin 1⟩, some ⟨1, .fin 1⟩, none] ⟨0, .fin 1⟩ ⟨1, .fin 1⟩ (by decide +kernel) rfl 1
    (by decide +kernel) (by decide +kernel) (by norm_num) (by norm_num) ⟨1, 0, by decide +kernel, by decide, by decide⟩ 255 255 rfl rfl
    (by decide) (by decide)).1.mpr ⟨rfl, rfl⟩

/-! ## C70: lines -/

theorem drawPoint_keeps {d d' : Drawable} (hd : d.WF) {x y : Nat} {c : Color} (h : d.drawPoint x y c = .ok d') {a b : Nat}
    (hp : d.pixel a b = some c) : d'.WF ∧ d'.pixel a b = some c := by
  by_cases ho : d.width ≤ x ∨ d.height ≤ y
  · rw [C34_outside ho] at h; cases h
  · obtain ⟨d'', h1, h2, h3, h4, h5⟩ := Drawable.drawPoint_spec hd (x := x) (y := y) (by omega) (by omega) c
    rw [h] at h1
    cases h1
    refine ⟨h2, ?_⟩
    rw [h5]
    split
    · rfl
    · exact hp

theorem lineLoop_keeps {dx dy sx sy x1 y1 : Int} {c : Color} {a b : Nat} (n : Nat) {d d' : Drawable} {s : Drawable.LineState} (hd : d.WF)
    (hp : d.pixel a b = some c) (h : Drawable.lineLoop dx dy sx sy x1 y1 c n d s = some (.ok d')) : d'.pixel a b = some c := by
  induction n generalizing d s with
  | zero => cases h
  | succ n ih =>
    unfold Drawable.lineLoop at h
    cases e : d.drawPoint (asU32 s.x) (asU32 s.y) c with
    | err => rw [e] at h; cases h
    | panic => rw [e] at h; cases h
    | ok d1 =>
      rw [e] at h
      simp only at h
      obtain ⟨h1, h2⟩ := drawPoint_keeps hd e hp
      split at h
      · cases h; exact h2
      · split at h
        · exact ih h1 h2 h
        · cases h
        · cases h

/-- C70: every line that extends less than twice as far in the one direction as in the other, but farther, here in x, paints the
neighbour of its first pixel in this direction, which is more than half a pixel off the ideal line. -/
theorem C70_second_pixel {d : Drawable} (hd : d.WF) {x0 y0 x1 y1 : Int}
    (bx0 : 0 ≤ x0 ∧ x0 < d.width) (by0 : 0 ≤ y0 ∧ y0 < d.height)
    (bx1 : 0 ≤ x1 ∧ x1 < d.width) (by1 : 0 ≤ y1 ∧ y1 < d.height) (c : Color)
    (h1 : |y1 - y0| < |x1 - x0|) (h2 : |x1 - x0| < 2 * |y1 - y0|) :
    ∃ d' n, (∀ rounds, n ≤ rounds → d.drawLine rounds x0 y0 x1 y1 c = some (.ok d')) ∧
      d'.pixel (x0 + (x1 - x0).sign).toNat y0.toNat = some c ∧
      (1 : Rat) / 2 < |((y1 - y0 : Int) : Rat) / (x1 - x0 : Int) * ((x0 + (x1 - x0).sign - x0 : Int) : Rat) - ((y0 - y0 : Int) : Rat)| := by
  have hw : 0 < d.width := by omega
  have hh : 0 < d.height := by omega
  have hww : d.width < 2 ^ 32 := by
    have := hd.2
    have h1 : d.width * 1 ≤ d.width * d.height := Nat.mul_le_mul_left _ hh
    omega
  have hhh : d.height < 2 ^ 32 := by
    have := hd.2
    have h1 : 1 * d.height ≤ d.width * d.height := Nat.mul_le_mul_right _ hw
    omega
  obtain ⟨dx, dy, sx, sy, g1, g2, g3, g4, g5, g6, g7, g8, g9⟩ :=
    Drawable.drawLine_start (x0 := x0) (y0 := y0) (x1 := x1) (y1 := y1) (by omega) (by omega) (by omega)
      (by omega) c
  obtain ⟨L, l1, l2, l3, l4, l5, l6, d', k1, k2, k3, k4, k5⟩ := line_main hd bx0 by0 bx1 by1 c
  rw [← g3, ← g4] at h1 h2
  have hs : (x1 - x0).sign = sx := by
    rcases g5 with rfl | rfl
    · exact Int.sign_eq_one_of_pos (by omega)
    · exact Int.sign_eq_neg_one_of_neg (by omega)
  have hx : 0 ≤ x0 + sx ∧ x0 + sx < d.width := by rcases g5 with rfl | rfl <;> constructor <;> omega
  refine ⟨d', _, k1, ?_, ?_⟩
  · rw [hs]
    have hr := k1 (Drawable.lineRounds |x1 - x0| |y1 - y0| + 1 + 2) (by omega)
    rw [g9] at hr
    generalize Drawable.lineRounds |x1 - x0| |y1 - y0| + 1 = n at hr
    rw [show n + 2 = (n + 1) + 1 from rfl] at hr
    unfold Drawable.lineLoop at hr
    obtain ⟨d1, p1, p2, p3, p4, -⟩ := Drawable.drawPoint_spec hd (x := x0.toNat) (y := y0.toNat) (by omega) (by omega) c
    simp only [mul_zero, add_zero] at hr
    rw [Drawable.asU32_of bx0.1 (by omega), Drawable.asU32_of by0.1 (by omega), p1] at hr
    simp only at hr
    have hne : ¬ (x0 = x1 ∧ y0 = y1) := by
      rintro ⟨e, -⟩
      rw [g3, e] at h1
      simp at h1
      omega
    rw [if_neg hne, if_pos h1] at hr
    have ht : Int.tdiv dx 2 = dx / 2 := Int.tdiv_eq_ediv_of_nonneg g1
    have bdx : dx < 2 ^ 32 := by rw [g3, abs_lt]; constructor <;> omega
    have ck : ∀ i : Int, -(2 ^ 63) ≤ i → i < 2 ^ 63 → ckI64 i = .ok i := fun i a b => if_pos ⟨a, b⟩
    rw [ht, ck (2 * (dx / 2)) (by omega) (by omega)] at hr
    simp only [Res.bind_ok] at hr
    unfold Drawable.stepX Drawable.stepY at hr
    rw [if_pos (by omega)] at hr
    simp only at hr
    rw [ck (dx / 2 - dy) (by omega) (by omega), ck (x0 + sx) (by omega) (by omega)] at hr
    simp only [Res.bind_ok] at hr
    rw [if_neg (by omega)] at hr
    simp only at hr
    unfold Drawable.lineLoop at hr
    obtain ⟨d2, q1, q2, q3, q4, q5⟩ := Drawable.drawPoint_spec p2 (x := (x0 + sx).toNat) (y := y0.toNat) (by omega) (by omega) c
    rw [Drawable.asU32_of hx.1 (by omega), Drawable.asU32_of by0.1 (by omega), q1] at hr
    simp only at hr
    have hp : d2.pixel (x0 + sx).toNat y0.toNat = some c := by rw [q5, if_pos ⟨rfl, rfl⟩]
    split at hr
    · cases hr; exact hp
    · split at hr
      · exact lineLoop_keeps n q2 hp hr
      · cases hr
      · cases hr
  · rw [hs, show x0 + sx - x0 = sx by ring, sub_self, Int.cast_zero, sub_zero, abs_mul, abs_div, ← Int.cast_abs, ← Int.cast_abs,
      ← Int.cast_abs, ← g3, ← g4]
    have e : |sx| = 1 := by rcases g5 with rfl | rfl <;> rfl
    have hp : (0 : Rat) < dx := by exact_mod_cast (by omega : 0 < dx)
    have h2' : (dx : Rat) < 2 * dy := by exact_mod_cast h2
    rw [e, Int.cast_one, mul_one, lt_div_iff₀ hp]
    linarith

/-- A line to the left. -/
example : ∃ d' n, (∀ rounds, n ≤ rounds → blank5.drawLine rounds 4 0 1 2 black = some (.ok d')) ∧ d'.pixel 3 0 = some black := by
  obtain ⟨d', n, h1, h2, -⟩ := C70_second_pixel (d := blank5) ⟨rfl, by decide⟩ (x0 := 4) (y0 := 0) (x1 := 1) (y1 := 2)
    (by decide) (by decide) (by decide) (by decide) black (by decide) (by decide)
  exact ⟨d', n, h1, h2⟩

end Verif.Props
