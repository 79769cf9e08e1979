import Verif.Lemmas.Line
import Verif.Lemmas.FloatErr

/-!
# Properties C34, C35, C36, C45, C69, C70, C71: drawing
-/

namespace Verif.Props

open Verif

/-! ## C34: points -/

/-- C34: drawing a point inside the picture sets this pixel and leaves all others unchanged. -/
theorem C34_draw_point {d : Drawable} (hd : d.WF) {x y : Nat} (hx : x < d.width) (hy : y < d.height)
    (c : Color) : ∃ d', d.drawPoint x y c = .ok d' ∧ d'.WF ∧ d'.width = d.width ∧ d'.height = d.height ∧
      d'.pixel x y = some c ∧ ∀ x' y', (x', y') ≠ (x, y) → d'.pixel x' y' = d.pixel x' y' := by
  obtain ⟨d', h1, h2, h3, h4, h5⟩ := Drawable.drawPoint_spec hd hx hy c
  refine ⟨d', h1, h2, h3, h4, by rw [h5, if_pos ⟨rfl, rfl⟩], ?_⟩
  intro x' y' hne
  rw [h5, if_neg]
  rintro ⟨rfl, rfl⟩
  exact hne rfl

/-- C34: drawing a point outside the picture panics, in particular when the byte position of the point
would lie inside the buffer. -/
theorem C34_outside {d : Drawable} {x y : Nat} (h : d.width ≤ x ∨ d.height ≤ y) (c : Color) :
    d.drawPoint x y c = .panic := Drawable.drawPoint_outside h c

/-- C34: a new picture is transparent everywhere; sizes without pixels are refused; sizes whose buffer
32-bit numbers cannot address panic. -/
theorem C34_create (w h : Nat) :
    (w = 0 ∨ h = 0 → Drawable.createEmpty w h = .err) ∧
    (0 < w → 0 < h → 2 ^ 32 ≤ 4 * (w * h) → Drawable.createEmpty w h = .panic) ∧
    (0 < w → 0 < h → 4 * (w * h) < 2 ^ 32 → ∃ d, Drawable.createEmpty w h = .ok d ∧ d.WF ∧ d.width = w ∧
      d.height = h ∧ ∀ x y, x < w → y < h → d.pixel x y = some Color.transparent) := by
  refine ⟨?_, ?_, ?_⟩
  · intro h0
    unfold Drawable.createEmpty
    exact if_pos h0
  · intro hw hh hb
    unfold Drawable.createEmpty
    rw [if_neg (by omega)]
    unfold ckU32
    by_cases h1 : w * h < 2 ^ 32
    · rw [if_pos h1]
      simp only [Res.bind_ok]
      rw [if_neg (by omega)]
      rfl
    · rw [if_neg h1]
      rfl
  · intro hw hh hb
    exact Drawable.createEmpty_spec hw hh hb

/-- A 2x2 picture in which the last pixel is red. -/
def small : Drawable := ⟨[1, 2, 3, 4, 5, 6, 7, 8, 9, 10, 11, 12, 255, 0, 0, 255], 2, 2⟩

example : small.WF ∧ small.pixel 1 1 = some ⟨255, 0, 0, 255⟩ ∧
    ∃ d', small.drawPoint 1 0 ⟨9, 9, 9, 9⟩ = .ok d' ∧ d'.pixel 1 0 = some ⟨9, 9, 9, 9⟩ ∧
      d'.pixel 0 1 = some ⟨9, 10, 11, 12⟩ := by
  refine ⟨⟨rfl, by decide⟩, rfl, _, rfl, rfl, rfl⟩

/-- The byte position of (2,0) is inside the buffer, still the point is refused. -/
example : small.drawPoint 2 0 ⟨9, 9, 9, 9⟩ = .panic := C34_outside (.inl (by decide)) _

/-! ## C35, C36, C70, C71: lines -/

/-- Everything about a line inside a picture. -/
theorem line_main {d : Drawable} (hd : d.WF) {x0 y0 x1 y1 : Int}
    (bx0 : 0 ≤ x0 ∧ x0 < d.width) (by0 : 0 ≤ y0 ∧ y0 < d.height)
    (bx1 : 0 ≤ x1 ∧ x1 < d.width) (by1 : 0 ≤ y1 ∧ y1 < d.height) (c : Color) :
    ∃ L : List (Int × Int), L.length = Drawable.lineRounds |x1 - x0| |y1 - y0| + 1 ∧ L.Nodup ∧
      L.head? = some (x0, y0) ∧ L.getLast? = some (x1, y1) ∧ L.IsChain Neighbours ∧
      (∀ p ∈ L, min x0 x1 ≤ p.1 ∧ p.1 ≤ max x0 x1 ∧ min y0 y1 ≤ p.2 ∧ p.2 ≤ max y0 y1 ∧
        Near x0 y0 x1 y1 p) ∧
      ∃ d', (∀ rounds, Drawable.lineRounds |x1 - x0| |y1 - y0| + 1 ≤ rounds →
          d.drawLine rounds x0 y0 x1 y1 c = some (.ok d')) ∧
        d'.WF ∧ d'.width = d.width ∧ d'.height = d.height ∧
        ∀ a b : Nat, d'.pixel a b = if ((a : Int), (b : Int)) ∈ L then some c else d.pixel a b := by
  have hw : 0 < d.width := by omega
  have hh : 0 < d.height := by omega
  have hww : d.width < 2 ^ 32 := by
    have := hd.2
    have h1 : d.width * 1 ≤ d.width * d.height := Nat.mul_le_mul_left _ hh
    omega
  have hhh : d.height < 2 ^ 32 := by
    have := hd.2
    have h1 : 1 * d.height ≤ d.width * d.height := Nat.mul_le_mul_right _ hw
    omega
  have p1 : (2 : Int) ^ 32 = 4294967296 := by norm_num
  obtain ⟨dx, dy, sx, sy, h1, h2, h3, h4, h5, h6, h7, h8, h9⟩ :=
    Drawable.drawLine_start (x0 := x0) (y0 := y0) (x1 := x1) (y1 := y1) (by omega) (by omega) (by omega)
      (by omega) c
  rw [← h3, ← h4]
  obtain ⟨Inv, hI, hs⟩ := Drawable.exists_walk h1 h2
  obtain ⟨L, l1, l2, l3, l4, l5, -, l6, l7⟩ := Drawable.lineLoop_walk hI h5 h6 h7 h8 c d.width d.height bx0 bx1
    by0 by1 hww hhh _ 0 0 _ hs
  obtain ⟨d', k1, k2, k3, k4, k5⟩ := l7 d hd rfl rfl
  refine ⟨L, l1, l6, by simpa using l2, l3, l4, l5, d', ?_, k2, k3, k4, k5⟩
  intro rounds hr
  rw [h9]
  exact k1 rounds hr

/-- C35: a line between two points of the picture ends (after any sufficient number of rounds the result
is the same), without panic; the pixels it changes form a path of neighbouring pixels from one end to the
other inside the bounding rectangle of the end points; all other pixels are unchanged. -/
theorem C35_line {d : Drawable} (hd : d.WF) {x0 y0 x1 y1 : Int}
    (bx0 : 0 ≤ x0 ∧ x0 < d.width) (by0 : 0 ≤ y0 ∧ y0 < d.height)
    (bx1 : 0 ≤ x1 ∧ x1 < d.width) (by1 : 0 ≤ y1 ∧ y1 < d.height) (c : Color) :
    ∃ L : List (Int × Int), L.head? = some (x0, y0) ∧ L.getLast? = some (x1, y1) ∧ L.IsChain Neighbours ∧
      (∀ p ∈ L, min x0 x1 ≤ p.1 ∧ p.1 ≤ max x0 x1 ∧ min y0 y1 ≤ p.2 ∧ p.2 ≤ max y0 y1) ∧
      ∃ d' n, (∀ rounds, n ≤ rounds → d.drawLine rounds x0 y0 x1 y1 c = some (.ok d')) ∧
        d'.WF ∧ d'.width = d.width ∧ d'.height = d.height ∧
        ∀ a b : Nat, d'.pixel a b = if ((a : Int), (b : Int)) ∈ L then some c else d.pixel a b := by
  obtain ⟨L, l1, l2, l3, l4, l5, l6, d', k1, k2⟩ := line_main hd bx0 by0 bx1 by1 c
  exact ⟨L, l3, l4, l5, fun p hp => ⟨(l6 p hp).1, (l6 p hp).2.1, (l6 p hp).2.2.1, (l6 p hp).2.2.2.1⟩, d', _, k1, k2⟩

/-- C35: both ends of the line have its colour. -/
theorem C35_ends {d : Drawable} (hd : d.WF) {x0 y0 x1 y1 : Nat} (bx0 : x0 < d.width) (by0 : y0 < d.height)
    (bx1 : x1 < d.width) (by1 : y1 < d.height) (c : Color) :
    ∃ d' n, (∀ rounds, n ≤ rounds → d.drawLine rounds x0 y0 x1 y1 c = some (.ok d')) ∧
      d'.pixel x0 y0 = some c ∧ d'.pixel x1 y1 = some c := by
  obtain ⟨L, l1, l2, l3, l4, l5, l6, d', k1, k2, k3, k4, k5⟩ := line_main hd (x0 := x0) (y0 := y0) (x1 := x1)
    (y1 := y1) (by omega) (by omega) (by omega) (by omega) c
  refine ⟨d', _, k1, ?_, ?_⟩
  · rw [k5, if_pos (List.mem_of_mem_head? l3)]
  · rw [k5, if_pos (List.mem_of_mem_getLast? l4)]

/-- C36: a line that is not a diagonal of even extent changes exactly max(dx,dy)+1 different pixels.
Missing for the full statement: even diagonals, for which it is false (`C36_counterexample`). -/
theorem C36_count_partial {d : Drawable} (hd : d.WF) {x0 y0 x1 y1 : Int}
    (bx0 : 0 ≤ x0 ∧ x0 < d.width) (by0 : 0 ≤ y0 ∧ y0 < d.height)
    (bx1 : 0 ≤ x1 ∧ x1 < d.width) (by1 : 0 ≤ y1 ∧ y1 < d.height) (c : Color)
    (hne : |x1 - x0| ≠ |y1 - y0| ∨ |x1 - x0| % 2 = 1) :
    ∃ L : List (Int × Int), L.Nodup ∧ (L.length : Int) = max |x1 - x0| |y1 - y0| + 1 ∧
      ∃ d' n, (∀ rounds, n ≤ rounds → d.drawLine rounds x0 y0 x1 y1 c = some (.ok d')) ∧
        ∀ a b : Nat, d'.pixel a b = if ((a : Int), (b : Int)) ∈ L then some c else d.pixel a b := by
  obtain ⟨L, l1, l2, l3, l4, l5, l6, d', k1, k2, k3, k4, k5⟩ := line_main hd bx0 by0 bx1 by1 c
  refine ⟨L, l2, ?_, d', _, k1, k5⟩
  rw [l1, Drawable.lineRounds, if_neg (by omega)]
  have : 0 ≤ |x1 - x0| := abs_nonneg _
  push_cast
  omega

/-- C36 is false: a diagonal of even extent k > 0 changes 2k+1 different pixels instead of k+1 (a staircase). -/
theorem C36_counterexample {d : Drawable} (hd : d.WF) {x0 y0 x1 y1 : Int}
    (bx0 : 0 ≤ x0 ∧ x0 < d.width) (by0 : 0 ≤ y0 ∧ y0 < d.height)
    (bx1 : 0 ≤ x1 ∧ x1 < d.width) (by1 : 0 ≤ y1 ∧ y1 < d.height) (c : Color)
    (he : |x1 - x0| = |y1 - y0|) (h2 : |x1 - x0| % 2 = 0) :
    ∃ L : List (Int × Int), L.Nodup ∧ (L.length : Int) = 2 * |x1 - x0| + 1 ∧
      ∃ d' n, (∀ rounds, n ≤ rounds → d.drawLine rounds x0 y0 x1 y1 c = some (.ok d')) ∧
        ∀ a b : Nat, d'.pixel a b = if ((a : Int), (b : Int)) ∈ L then some c else d.pixel a b := by
  obtain ⟨L, l1, l2, l3, l4, l5, l6, d', k1, k2, k3, k4, k5⟩ := line_main hd bx0 by0 bx1 by1 c
  refine ⟨L, l2, ?_, d', _, k1, k5⟩
  rw [l1, Drawable.lineRounds, if_pos ⟨he, h2⟩]
  have : 0 ≤ |x1 - x0| := abs_nonneg _
  push_cast
  omega

/-- An empty picture of five by five pixels. -/
def blank5 : Drawable := ⟨List.replicate 100 0, 5, 5⟩

def black : Color := ⟨0, 0, 0, 255⟩

/-- The diagonal of a 3x3 square paints five pixels. -/
example : ∃ d', blank5.drawLine 100 0 0 2 2 black = some (.ok d') ∧ d'.pixel 0 0 = some black ∧
    d'.pixel 0 1 = some black ∧ d'.pixel 1 1 = some black ∧ d'.pixel 1 2 = some black ∧
    d'.pixel 2 2 = some black := by
  refine ⟨_, rfl, rfl, rfl, rfl, rfl, rfl⟩

example : blank5.WF ∧ (0 : Int) ≤ 4 ∧ (4 : Int) < blank5.width ∧ (3 : Int) < blank5.height ∧
    |(4 : Int) - 0| ≠ |(3 : Int) - 0| := by
  refine ⟨⟨rfl, by decide⟩, by decide, by decide, by decide, by decide⟩

/-- C70 (every pixel of a line is at most half a pixel off the ideal line) is false: the line from (0,0)
to (4,3) paints (1,0) although at x = 1 the ideal line is at y = 3/4. -/
theorem C70_counterexample : ∃ (d d' : Drawable), d.WF ∧
    d.drawLine 100 0 0 4 3 black = some (.ok d') ∧ d.pixel 1 0 ≠ some black ∧ d'.pixel 1 0 = some black ∧
    (1 : Rat) / 2 < |(3 / 4 : Rat) * 1 - 0| := by
  refine ⟨blank5, _, ⟨rfl, by decide⟩, rfl, by decide, rfl, by norm_num⟩

/-- C70: every pixel of a line is at most one pixel off the ideal line, measured along the axis in which
the line extends less.  Missing for the full statement: half a pixel, which is false
(`C70_counterexample`). -/
theorem C70_distance_partial {d : Drawable} (hd : d.WF) {x0 y0 x1 y1 : Int}
    (bx0 : 0 ≤ x0 ∧ x0 < d.width) (by0 : 0 ≤ y0 ∧ y0 < d.height)
    (bx1 : 0 ≤ x1 ∧ x1 < d.width) (by1 : 0 ≤ y1 ∧ y1 < d.height) (c : Color) :
    ∃ d' n, (∀ rounds, n ≤ rounds → d.drawLine rounds x0 y0 x1 y1 c = some (.ok d')) ∧
      ∀ a b : Nat, d'.pixel a b ≠ d.pixel a b → Near x0 y0 x1 y1 ((a : Int), (b : Int)) := by
  obtain ⟨L, l1, l2, l3, l4, l5, l6, d', k1, k2, k3, k4, k5⟩ := line_main hd bx0 by0 bx1 by1 c
  refine ⟨d', _, k1, ?_⟩
  intro a b hab
  rw [k5] at hab
  by_cases h : ((a : Int), (b : Int)) ∈ L
  · exact (l6 _ h).2.2.2.2
  · rw [if_neg h] at hab
    exact absurd rfl hab

/-- C71: a line with an end outside the picture panics, for coordinates and sizes below 2^31.
Missing for the full statement: larger coordinates, for which it is false (`C71_counterexample`). -/
theorem C71_outside_partial {d : Drawable} {x0 y0 x1 y1 : Int}
    (bx0 : -2 ^ 31 ≤ x0 ∧ x0 < 2 ^ 31) (bx1 : -2 ^ 31 ≤ x1 ∧ x1 < 2 ^ 31)
    (by0 : -2 ^ 31 ≤ y0 ∧ y0 < 2 ^ 31) (by1 : -2 ^ 31 ≤ y1 ∧ y1 < 2 ^ 31)
    (hw : d.width ≤ 2 ^ 31) (hh : d.height ≤ 2 ^ 31) (c : Color)
    (hout : x0 < 0 ∨ (d.width : Int) ≤ x0 ∨ y0 < 0 ∨ (d.height : Int) ≤ y0 ∨
      x1 < 0 ∨ (d.width : Int) ≤ x1 ∨ y1 < 0 ∨ (d.height : Int) ≤ y1) :
    ∃ n, ∀ rounds, n ≤ rounds → d.drawLine rounds x0 y0 x1 y1 c = some .panic := by
  have p0 : (2 : Int) ^ 31 = 2147483648 := by norm_num
  have p1 : (2 : Int) ^ 32 = 4294967296 := by norm_num
  have q0 : (2 : Nat) ^ 31 = 2147483648 := by norm_num
  have key : ∀ (z : Int) (m : Nat), -2 ^ 31 ≤ z → z < 2 ^ 31 → m ≤ 2 ^ 31 → z < 0 ∨ (m : Int) ≤ z →
      m ≤ asU32 z := by
    intro z m h1 h2 h3 h4
    unfold asU32
    omega
  obtain ⟨dx, dy, sx, sy, h1, h2, h3, h4, h5, h6, h7, h8, h9⟩ :=
    Drawable.drawLine_start (x0 := x0) (y0 := y0) (x1 := x1) (y1 := y1) (by omega) (by omega) (by omega)
      (by omega) c
  by_cases hs : (x0 < 0 ∨ (d.width : Int) ≤ x0) ∨ (y0 < 0 ∨ (d.height : Int) ≤ y0)
  · refine ⟨1, ?_⟩
    intro rounds hr
    obtain ⟨m, rfl⟩ : ∃ m, rounds = m + 1 := ⟨rounds - 1, by omega⟩
    rw [h9]
    unfold Drawable.lineLoop
    simp only [mul_zero, add_zero]
    rw [Drawable.drawPoint_outside]
    rcases hs with hs | hs
    · exact .inl (key _ _ bx0.1 bx0.2 hw hs)
    · exact .inr (key _ _ by0.1 by0.2 hh hs)
  · obtain ⟨Inv, hI, hst⟩ := Drawable.exists_walk h1 h2
    refine ⟨Drawable.lineRounds dx dy + 1, fun rounds hr => ?_⟩
    rw [h9]
    refine Drawable.lineLoop_outside hI h5 h6 h7 h8 c d.width d.height bx0 bx1 by0 by1 ?_ _ 0 0 _ hst d rfl rfl
      rounds hr
    have : (x1 < 0 ∨ (d.width : Int) ≤ x1) ∨ (y1 < 0 ∨ (d.height : Int) ≤ y1) := by omega
    rcases this with h | h
    · exact .inl (key _ _ bx1.1 bx1.2 hw h)
    · exact .inr (key _ _ by1.1 by1.2 hh h)

/-- C71 is false for large coordinates: they are reduced modulo 2^32, so a line far outside the picture
is drawn inside it. -/
theorem C71_counterexample : ∃ (d d' : Drawable), d.WF ∧ (d.width : Int) ≤ 2 ^ 32 ∧
    d.drawLine 10 (2 ^ 32) 0 (2 ^ 32 + 1) 0 black = some (.ok d') ∧ d.pixel 0 0 ≠ some black ∧
    d'.pixel 0 0 = some black ∧ d'.pixel 1 0 = some black := by
  refine ⟨blank5, _, ⟨rfl, by decide⟩, by decide, rfl, by decide, rfl, rfl⟩

example : ∃ d : Drawable, d.width ≤ 2 ^ 31 ∧ d.height ≤ 2 ^ 31 ∧ (d.width : Int) ≤ 7 ∧
    blank5.drawLine 100 1 1 7 2 black = some .panic := ⟨blank5, by decide, by decide, by decide, rfl⟩

/-! ## C45: charts -/

/-- C45: the chart shows grid cell (x,y) at pixel (x, height-1-y), transparent where there is no value. -/
theorem C45_chart {T : Type} {w h : Nat} (hw : 0 < w) (hh : 0 < h) (hb : 4 * (w * h) < 2 ^ 32)
    (valueFn : Nat → Nat → Res (Option T)) (v : Nat → Nat → Option T)
    (hv : ∀ x y, x < w → y < h → valueFn x y = .ok (v x y)) (colorFn : T → Color) :
    ∃ d, renderChart w h valueFn colorFn = .ok d ∧ d.WF ∧ d.width = w ∧ d.height = h ∧
      ∀ x y, x < w → y < h → d.pixel x (h - 1 - y) = some (match v x y with
        | some t => colorFn t
        | none => Color.transparent) := by
  obtain ⟨d0, e0, w0, hw0, hh0, t0⟩ := Drawable.createEmpty_spec hw hh hb
  unfold renderChart
  simp only [e0, Res.bind_ok]
  have en : (fun (d : Drawable) (i : Nat) => Res.foldl (renderCell h valueFn colorFn i) d (List.range w))
      = fun d i => Res.foldl (fun d j => renderCell h valueFn colorFn i d j) d (List.range w) := rfl
  rw [en, Res.foldl_nested (fun d i j => renderCell h valueFn colorFn i d j) (fun _ => List.range w)]
  obtain ⟨d1, k1, k2, k3, k4, k5, k6⟩ := Drawable.foldl_draw
    (fun d (p : Nat × Nat) => renderCell h valueFn colorFn p.1 d p.2)
    (fun p => (p.2, h - 1 - p.1)) (fun p => (v p.2 p.1).map colorFn) (pairs w h) d0 w0 (by
      intro p hp
      obtain ⟨h1, h2⟩ := mem_pairs.mp hp
      rw [hw0, hh0]
      exact ⟨h2, by simp only; omega⟩) (by
      intro d' p hp _ _ _
      obtain ⟨h1, h2⟩ := mem_pairs.mp hp
      simp only
      unfold renderCell
      rw [hv _ _ h2 h1]
      simp only [Res.bind_ok]
      cases v p.2 p.1 with
      | none => rfl
      | some t =>
        simp only [Option.map_some]
        have e1 : subU32 h p.1 = .ok (h - p.1) := by unfold subU32; exact if_pos (by omega)
        have e2 : subU32 (h - p.1) 1 = .ok (h - 1 - p.1) := by
          unfold subU32; rw [if_pos (by omega)]; congr 1; omega
        rw [e1]
        simp only [Res.bind_ok]
        rw [e2]
        rfl) (by
      refine List.Nodup.map_on ?_ (nodup_pairs w h)
      intro p hp q hq e
      obtain ⟨h1, h2⟩ := mem_pairs.mp hp
      obtain ⟨h3, h4⟩ := mem_pairs.mp hq
      simp only [Prod.mk.injEq] at e
      exact Prod.ext (by omega) e.1)
  refine ⟨d1, k1, k2, k3.trans hw0, k4.trans hh0, ?_⟩
  intro x y hx hy
  have := k5 (y, x) (mem_pairs.mpr ⟨hy, hx⟩)
  simp only at this
  rw [this]
  cases v x y with
  | some t => rfl
  | none => exact t0 _ _ hx (by omega)

/-- North is up: the northernmost row of a grid of two rows is the first row of the chart. -/
example : ∃ d, renderChart 2 2 (fun x y => .ok (if (x, y) = (0, 1) then some () else none)) (fun _ => black) = .ok d
    ∧ d.pixel 0 0 = some black ∧ d.pixel 0 1 = some Color.transparent := ⟨_, rfl, rfl, rfl⟩

/-! ## C69: pictures from data -/

/-- C69: a picture created from rows of colours shows row y, column x of the data at pixel
(x, height-1-y); pixels without data are transparent. -/
theorem C69_from_data {w h : Nat} (hw : 0 < w) (hh : 0 < h) (hb : 4 * (w * h) < 2 ^ 32)
    (rows : List (List Color)) (hr : rows.length ≤ h) (hc : ∀ r ∈ rows, r.length ≤ w) :
    ∃ d, Drawable.createWithData w h rows = .ok d ∧ d.WF ∧ d.width = w ∧ d.height = h ∧
      ∀ x y, x < w → y < h → d.pixel x (h - 1 - y) =
        some (((rows[y]?).bind (fun r => r[x]?)).getD Color.transparent) := by
  obtain ⟨d0, e0, w0, hw0, hh0, t0⟩ := Drawable.createEmpty_spec hw hh hb
  unfold Drawable.createWithData Drawable.drawRow
  simp only [e0, Res.bind_ok]
  rw [Res.foldl_nested (fun (d : Drawable) (a : List Color × Nat) (p : Color × Nat) => (do
    let a ← subU32 h a.2
    let b ← subU32 a 1
    d.drawPoint p.2 b p.1)) (fun a => a.1.zipIdx) rows.zipIdx]
  have hmem : ∀ q : (List Color × Nat) × (Color × Nat),
      q ∈ rows.zipIdx.flatMap (fun a => a.1.zipIdx.map fun b => (a, b)) ↔
        rows[q.1.2]? = some q.1.1 ∧ q.1.1[q.2.2]? = some q.2.1 := by
    intro q
    rw [List.mem_flatMap]
    constructor
    · rintro ⟨a, ha, hq⟩
      rw [List.mem_map] at hq
      obtain ⟨b, hb', rfl⟩ := hq
      exact ⟨List.mem_zipIdx_iff_getElem?.mp ha, List.mem_zipIdx_iff_getElem?.mp hb'⟩
    · rintro ⟨h1, h2⟩
      exact ⟨q.1, List.mem_zipIdx_iff_getElem?.mpr h1, List.mem_map.mpr
        ⟨q.2, List.mem_zipIdx_iff_getElem?.mpr h2, rfl⟩⟩
  have hin : ∀ q : (List Color × Nat) × (Color × Nat),
      q ∈ rows.zipIdx.flatMap (fun a => a.1.zipIdx.map fun b => (a, b)) → q.1.2 < h ∧ q.2.2 < w := by
    intro q hq
    obtain ⟨h1, h2⟩ := (hmem q).mp hq
    obtain ⟨g1, g2⟩ := List.getElem?_eq_some_iff.mp h1
    obtain ⟨g3, g4⟩ := List.getElem?_eq_some_iff.mp h2
    have := hc q.1.1 (g2 ▸ List.getElem_mem g1)
    omega
  have hnd : ∀ {α : Type} (l : List α), l.zipIdx.Nodup := by
    intro α l
    apply List.Nodup.of_map Prod.snd
    rw [List.zipIdx_map_snd]
    exact List.nodup_range'
  obtain ⟨d1, k1, k2, k3, k4, k5, k6⟩ := Drawable.foldl_draw
    (fun d (q : (List Color × Nat) × (Color × Nat)) => (do
      let a ← subU32 h q.1.2
      let b ← subU32 a 1
      d.drawPoint q.2.2 b q.2.1))
    (fun q => (q.2.2, h - 1 - q.1.2)) (fun q => some q.2.1)
    (rows.zipIdx.flatMap (fun a => a.1.zipIdx.map fun b => (a, b))) d0 w0 (by
      intro q hq
      have := hin q hq
      rw [hw0, hh0]
      exact ⟨this.2, by simp only; omega⟩) (by
      intro d' q hq _ _ _
      have := hin q hq
      have e1 : subU32 h q.1.2 = .ok (h - q.1.2) := by unfold subU32; exact if_pos (by omega)
      have e2 : subU32 (h - q.1.2) 1 = .ok (h - 1 - q.1.2) := by
        unfold subU32; rw [if_pos (by omega)]; congr 1; omega
      simp only [e1, e2, Res.bind_ok]) (by
      refine List.Nodup.map_on ?_ ?_
      · intro p hp q hq e
        have i1 := hin p hp
        have i2 := hin q hq
        obtain ⟨h1, h2⟩ := (hmem p).mp hp
        obtain ⟨h3, h4⟩ := (hmem q).mp hq
        simp only [Prod.mk.injEq] at e
        have e1 : p.1.2 = q.1.2 := by omega
        have e2 := e.1
        rw [e1, h3] at h1
        simp only [Option.some.injEq] at h1
        rw [← h1, e2, h4] at h2
        simp only [Option.some.injEq] at h2
        exact Prod.ext (Prod.ext h1.symm e1) (Prod.ext h2.symm e2)
      · rw [List.nodup_flatMap]
        refine ⟨fun a _ => List.Nodup.map (fun x y e => (Prod.ext_iff.mp e).2) (hnd _), ?_⟩
        refine List.Pairwise.imp_of_mem ?_ (hnd rows)
        intro a b _ _ hab
        rw [Function.onFun, List.disjoint_left]
        intro q h1 h2
        rw [List.mem_map] at h1 h2
        obtain ⟨_, _, rfl⟩ := h1
        obtain ⟨_, _, e⟩ := h2
        exact hab (Prod.ext_iff.mp e).1.symm)
  refine ⟨d1, k1, k2, k3.trans hw0, k4.trans hh0, ?_⟩
  intro x y hx hy
  cases h1 : rows[y]? with
  | none =>
    rw [k6, t0 _ _ hx (by omega)]
    · rfl
    · intro hm
      rw [List.mem_map] at hm
      obtain ⟨q, hq, e⟩ := hm
      have := hin q hq
      obtain ⟨g1, g2⟩ := (hmem q).mp hq
      simp only [Prod.mk.injEq] at e
      rw [show q.1.2 = y by omega, h1] at g1
      simp at g1
  | some r =>
    cases h2 : r[x]? with
    | none =>
      rw [k6, t0 _ _ hx (by omega)]
      · simp [h2]
      · intro hm
        rw [List.mem_map] at hm
        obtain ⟨q, hq, e⟩ := hm
        have := hin q hq
        obtain ⟨g1, g2⟩ := (hmem q).mp hq
        simp only [Prod.mk.injEq] at e
        rw [show q.1.2 = y by omega, h1] at g1
        simp only [Option.some.injEq] at g1
        rw [← g1, e.1, h2] at g2
        simp at g2
    | some c =>
      have := k5 ((r, y), (c, x)) ((hmem _).mpr ⟨h1, h2⟩)
      simp only at this
      rw [this]
      simp [h2]

example : ∃ d, Drawable.createWithData 2 2 [[⟨1, 1, 1, 1⟩], [⟨2, 2, 2, 2⟩, ⟨3, 3, 3, 3⟩]] = .ok d ∧
    d.pixel 0 1 = some ⟨1, 1, 1, 1⟩ ∧ d.pixel 1 1 = some Color.transparent ∧ d.pixel 1 0 = some ⟨3, 3, 3, 3⟩ :=
  ⟨_, rfl, rfl, rfl, rfl⟩

/-! ## C56, C72, C73, C74: sampling -/

/-- Reading a pixel never fails. -/
theorem getPixelColor_eq {i : Image} (hi : i.WF) (x y : Nat) :
    i.getPixelColor x y = .ok ((i.pixel x y).getD Color.transparent) := by
  unfold Image.getPixelColor Image.pixel pixelOf
  by_cases h : x < i.width ∧ y < i.height
  · have hl := cell_lt h.1 h.2
    have h1 := hi.1
    rw [if_neg (by omega), if_pos h, pixelIndex_eq h.1 h.2 hi.2]
    have hb : 4 * (i.width * y + x) + 3 < i.pixelValues.length := by omega
    rw [colorAt_some hb]
    simp only [Res.bind_ok, Res.index]
    rw [List.getElem?_eq_getElem (by omega), List.getElem?_eq_getElem (by omega),
      List.getElem?_eq_getElem (by omega), List.getElem?_eq_getElem (by omega)]
    rfl
  · rw [if_pos (by omega), if_neg h]
    rfl

/-- C56: sampling a picture never panics, at any coordinates (including NaN and infinities). -/
theorem C56_total {i : Image} (hi : i.WF) (x y : Fl) : ∃ c, i.interpolatePixelColor x y = .ok c := by
  unfold Image.interpolatePixelColor
  simp only [getPixelColor_eq hi, Res.bind_ok]
  split
  · exact ⟨_, rfl⟩
  · split <;> exact ⟨_, rfl⟩

/-- C56: at integer coordinates inside the picture sampling gives exactly the pixel. -/
theorem C56_inside {i : Image} (hi : i.WF) (hw : i.width ≤ 2 ^ 24) (hh : i.height ≤ 2 ^ 24) {x y : Nat}
    (hx : x < i.width) (hy : y < i.height) :
    ∃ c, i.pixel x y = some c ∧ i.interpolatePixelColor (.fin x) (.fin y) = .ok c := by
  have hl := cell_lt hx hy
  have hwf := hi
  obtain ⟨h1, h2⟩ := hi
  obtain ⟨c, hp⟩ : ∃ c, i.pixel x y = some c := by
    unfold Image.pixel pixelOf
    rw [if_pos ⟨hx, hy⟩, colorAt_some (by omega)]
    exact ⟨_, rfl⟩
  refine ⟨c, hp, ?_⟩
  have fx : Fl.floor (.fin (x : Rat)) = .fin (x : Rat) := by simp [Fl.floor]
  have fy : Fl.floor (.fin (y : Rat)) = .fin (y : Rat) := by simp [Fl.floor]
  have cx : Fl.ceil (.fin (x : Rat)) = .fin (x : Rat) := by simp [Fl.ceil]
  have cy : Fl.ceil (.fin (y : Rat)) = .fin (y : Rat) := by simp [Fl.ceil]
  have hw' : Fl.ofNat f32 i.width = .fin i.width := rnd32_nat hw
  have hh' : Fl.ofNat f32 i.height = .fin i.height := rnd32_nat hh
  have x0 : (0 : Rat) ≤ x := by positivity
  have y0 : (0 : Rat) ≤ y := by positivity
  have xw : (x : Rat) < i.width := by exact_mod_cast hx
  have yh : (y : Rat) < i.height := by exact_mod_cast hy
  unfold Image.interpolatePixelColor
  simp only [fx, fy, cx, cy, hw', hh']
  have n1 : Fl.lt (.fin (x : Rat)) (.fin 0) = false := by simp [Fl.lt, x0]
  have n2 : Fl.lt (.fin (y : Rat)) (.fin 0) = false := by simp [Fl.lt, y0]
  have n3 : Fl.ge (.fin (x : Rat)) (.fin i.width) = false := by
    simp only [Fl.ge, Fl.le, decide_eq_false_iff_not, not_le]; exact xw
  have n4 : Fl.ge (.fin (y : Rat)) (.fin i.height) = false := by
    simp only [Fl.ge, Fl.le, decide_eq_false_iff_not, not_le]; exact yh
  rw [n1, n2, n3, n4]
  simp only [Bool.or_self, Bool.false_eq_true, if_false, true_or, if_true]
  have u1 : Fl.toU32 (.fin (x : Rat)) = x := Fl.toUInt_nat (by omega)
  have u2 : Fl.toU32 (.fin (y : Rat)) = y := Fl.toUInt_nat (by omega)
  rw [u1, u2, getPixelColor_eq hwf, hp]
  rfl

/-- C56: at integer coordinates outside the picture sampling gives transparent. -/
theorem C56_outside {i : Image} (hw : i.width ≤ 2 ^ 24) (hh : i.height ≤ 2 ^ 24) {x y : Int}
    (h : x < 0 ∨ (i.width : Int) ≤ x ∨ y < 0 ∨ (i.height : Int) ≤ y) :
    i.interpolatePixelColor (.fin x) (.fin y) = .ok Color.transparent := by
  have hw' : Fl.ofNat f32 i.width = .fin i.width := rnd32_nat hw
  have hh' : Fl.ofNat f32 i.height = .fin i.height := rnd32_nat hh
  unfold Image.interpolatePixelColor
  simp only [Fl.floor, Fl.ceil, Int.floor_intCast, Int.ceil_intCast, hw', hh']
  rw [if_pos]
  simp only [Bool.or_eq_true, Fl.lt, Fl.ge, Fl.le, decide_eq_true_eq]
  rcases h with h | h | h | h
  · exact .inl (.inl (.inl (by exact_mod_cast h)))
  · exact .inl (.inr (by exact_mod_cast h))
  · exact .inl (.inl (.inr (by exact_mod_cast h)))
  · exact .inr (by exact_mod_cast h)

/-- A 2x2 picture. -/
def img2 : Image := ⟨[0, 0, 0, 255, 100, 0, 0, 255, 0, 100, 0, 255, 200, 200, 200, 255], 2, 2⟩

example : img2.WF ∧ img2.width ≤ 2 ^ 24 ∧ img2.height ≤ 2 ^ 24 ∧
    img2.interpolatePixelColor (.fin (1 / 2)) (.fin (1 / 2)) = .ok ⟨75, 75, 50, 255⟩ := by
  refine ⟨⟨rfl, by decide⟩, by decide, by decide, by decide +kernel⟩

/-- C72 (between two pixels of a row or column the sampled colour is interpolated) is false: whenever one
of the coordinates is an integer, sampling gives the pixel at the rounded down position, so half way
between a black and a brighter pixel it is still black. -/
theorem C72_counterexample : img2.WF ∧ img2.interpolatePixelColor (.fin (1 / 2)) (.fin 0) = .ok ⟨0, 0, 0, 255⟩ ∧
    img2.pixel 0 0 = some ⟨0, 0, 0, 255⟩ ∧ img2.pixel 1 0 = some ⟨100, 0, 0, 255⟩ := by
  refine ⟨⟨rfl, by decide⟩, by decide +kernel, rfl, rfl⟩

/-- C72: the cause, for all pictures: along a row (an integer y inside) sampling is piecewise constant. -/
theorem C72_cause {i : Image} (hi : i.WF) (hw : i.width ≤ 2 ^ 24) (hh : i.height ≤ 2 ^ 24) {x : Rat} {y : Nat}
    (hx0 : 0 ≤ x) (hx : x < i.width) (hy : y < i.height) :
    i.interpolatePixelColor (.fin x) (.fin y) = .ok ((i.pixel ⌊x⌋.toNat y).getD Color.transparent) := by
  have fy : Fl.floor (.fin (y : Rat)) = .fin (y : Rat) := by simp [Fl.floor]
  have cy : Fl.ceil (.fin (y : Rat)) = .fin (y : Rat) := by simp [Fl.ceil]
  have hw' : Fl.ofNat f32 i.width = .fin i.width := rnd32_nat hw
  have hh' : Fl.ofNat f32 i.height = .fin i.height := rnd32_nat hh
  have y0 : (0 : Rat) ≤ y := by positivity
  have yh : (y : Rat) < i.height := by exact_mod_cast hy
  have f0 : 0 ≤ ⌊x⌋ := Int.floor_nonneg.mpr hx0
  have c0 : 0 ≤ ⌈x⌉ := Int.ceil_nonneg hx0
  have c0' : (0 : Rat) ≤ (⌈x⌉ : Rat) := by exact_mod_cast c0
  have f1 : (⌊x⌋ : Rat) < i.width := lt_of_le_of_lt (Int.floor_le x) hx
  have f1' : ⌊x⌋ < i.width := by exact_mod_cast f1
  unfold Image.interpolatePixelColor
  simp only [fy, cy, hw', hh']
  have n1 : Fl.lt (Fl.ceil (.fin x)) (.fin 0) = false := by
    simp only [Fl.ceil, Fl.lt, decide_eq_false_iff_not, not_lt]; exact c0'
  have n2 : Fl.lt (.fin (y : Rat)) (.fin 0) = false := by simp [Fl.lt, y0]
  have n3 : Fl.ge (Fl.floor (.fin x)) (.fin i.width) = false := by
    simp only [Fl.floor, Fl.ge, Fl.le, decide_eq_false_iff_not, not_le]; exact f1
  have n4 : Fl.ge (.fin (y : Rat)) (.fin i.height) = false := by
    simp only [Fl.ge, Fl.le, decide_eq_false_iff_not, not_le]; exact yh
  rw [n1, n2, n3, n4]
  simp only [Bool.or_self, Bool.false_eq_true, if_false, or_true, if_true]
  have u1 : Fl.toU32 (Fl.floor (.fin x)) = ⌊x⌋.toNat := by
    simp only [Fl.toU32, Fl.floor, Fl.toUInt, Int.floor_intCast]
    omega
  have u2 : Fl.toU32 (.fin (y : Rat)) = y := Fl.toUInt_nat (by omega)
  rw [u1, u2, getPixelColor_eq hi]

/-- C73 (outside the picture the sampled colour fades to transparent alike on all sides) is false: half a
pixel left of the picture its border pixel is returned unchanged, half a pixel right of it is blended with
transparent; NaN gives a pixel of the picture. -/
theorem C73_counterexample : img2.WF ∧
    img2.interpolatePixelColor (.fin (-1 / 2)) (.fin (1 / 2)) = .ok ⟨0, 0, 0, 255⟩ ∧
    img2.interpolatePixelColor (.fin (3 / 2)) (.fin (1 / 2)) = .ok ⟨75, 50, 50, 127⟩ ∧
    img2.interpolatePixelColor .nan (.fin 1) = .ok ⟨0, 100, 0, 255⟩ := by
  refine ⟨⟨rfl, by decide⟩, by decide +kernel, by decide +kernel, by decide +kernel⟩

/-- A white 2x2 picture. -/
def white2 : Image := ⟨List.replicate 16 255, 2, 2⟩

/-- C74 (sampling inside a picture of a single colour gives this colour) is false: rounding followed by
truncation loses a unit, for example at x = 0x1.d76976p-2. -/
theorem C74_counterexample : white2.WF ∧ (∀ x < 2, ∀ y < 2, white2.pixel x y = some ⟨255, 255, 255, 255⟩) ∧
    IsFl f32 (.fin (15447227 / 2 ^ 25)) ∧
    white2.interpolatePixelColor (.fin (15447227 / 2 ^ 25)) (.fin (1 / 2)) = .ok ⟨254, 254, 254, 254⟩ := by
  refine ⟨⟨rfl, by decide⟩, by decide, ⟨⟨15447227, -25, by norm_num [pow2_eq], by decide, by decide⟩, ?_⟩,
    by decide +kernel⟩
  rw [show f32.emax = 128 from rfl, pow2_eq, abs_of_pos (by norm_num)]
  norm_num

/-- One interpolated channel: between the two channels, up to one unit below. -/
theorem channel_bounds {a : Rat} (h0 : 0 ≤ a) (h1 : a ≤ 1) (c1 c2 : UInt8) :
    (Image.interpolateChannel c1 (rnd f32 (1 - a)) c2 (rnd f32 a)).toNat ≤ max c1.toNat c2.toNat ∧
      min c1.toNat c2.toNat ≤ (Image.interpolateChannel c1 (rnd f32 (1 - a)) c2 (rnd f32 a)).toNat + 1 := by
  have b1 : c1.toNat ≤ 255 := by have := c1.toNat_lt; omega
  have b2 : c2.toNat ≤ 255 := by have := c2.toNat_lt; omega
  unfold Image.interpolateChannel
  rw [show Fl.ofNat f32 c1.toNat = .fin c1.toNat from rnd32_nat (b1.trans (by norm_num)),
    show Fl.ofNat f32 c2.toNat = .fin c2.toNat from rnd32_nat (b2.trans (by norm_num))]
  generalize c1.toNat = n1 at *
  generalize c2.toNat = n2 at *
  have q1 : (n1 : Rat) ≤ 255 := by exact_mod_cast b1
  have q2 : (n2 : Rat) ≤ 255 := by exact_mod_cast b2
  have p1 : (0 : Rat) ≤ n1 := Nat.cast_nonneg _
  have p2 : (0 : Rat) ≤ n2 := Nat.cast_nonneg _
  obtain ⟨v1, e1, -, g1⟩ := rnd32_err_le (q := 1 - a) (B := 1) (by rw [abs_of_nonneg (by linarith)]; linarith) (by norm_num)
  obtain ⟨v2, e2, -, g2⟩ := rnd32_err_le (q := a) (B := 1) (by rw [abs_of_nonneg h0]; exact h1) (by norm_num)
  have k1 : (1 : Rat) / 2 ^ 24 + 1 / 2 ^ 150 ≤ 1 / 2 ^ 23 := by norm_num
  have t1 : |v1 - (1 - a)| ≤ 1 / 2 ^ 23 := g1.trans k1
  have t2 : |v2 - a| ≤ 1 / 2 ^ 23 := g2.trans k1
  clear g1 g2
  rw [abs_le] at t1 t2
  rw [e1, e2]
  have m1 : |(n1 : Rat) * v1| ≤ 512 := by
    rw [abs_mul, abs_of_nonneg p1]
    have : |v1| ≤ 2 := by rw [abs_le]; constructor <;> linarith
    calc (n1 : Rat) * |v1| ≤ 255 * 2 := mul_le_mul q1 this (abs_nonneg _) (by norm_num)
      _ ≤ 512 := by norm_num
  have m2 : |(n2 : Rat) * v2| ≤ 512 := by
    rw [abs_mul, abs_of_nonneg p2]
    have : |v2| ≤ 2 := by rw [abs_le]; constructor <;> linarith
    calc (n2 : Rat) * |v2| ≤ 255 * 2 := mul_le_mul q2 this (abs_nonneg _) (by norm_num)
      _ ≤ 512 := by norm_num
  obtain ⟨w1, f1, -, u1⟩ := rnd32_err_le m1 (by norm_num)
  obtain ⟨w2, f2, -, u2⟩ := rnd32_err_le m2 (by norm_num)
  have k2 : (512 : Rat) / 2 ^ 24 + 1 / 2 ^ 150 ≤ 1 / 2 ^ 14 := by norm_num
  replace u1 := u1.trans k2
  replace u2 := u2.trans k2
  have m3 : |w1 + w2| ≤ 1100 := by
    rw [abs_le] at u1 u2 m1 m2 ⊢
    constructor <;> linarith
  obtain ⟨s, f3, -, u3⟩ := rnd32_err_le m3 (by norm_num)
  have k3 : (1100 : Rat) / 2 ^ 24 + 1 / 2 ^ 150 ≤ 1 / 2 ^ 13 := by norm_num
  replace u3 := u3.trans k3
  have hs : Fl.add f32 (Fl.mul f32 (.fin n1) (.fin v1)) (Fl.mul f32 (.fin n2) (.fin v2)) = .fin s := by
    show Fl.add f32 (rnd f32 (n1 * v1)) (rnd f32 (n2 * v2)) = _
    rw [f1, f2]
    exact f3
  rw [hs]
  rw [abs_le] at u1 u2 u3
  -- distance of the sum from the exact weighted mean
  have d1 : |(n1 : Rat) * v1 - n1 * (1 - a)| ≤ 1 / 2 ^ 15 := by
    rw [← mul_sub, abs_mul, abs_of_nonneg p1]
    have : |v1 - (1 - a)| ≤ 1 / 2 ^ 23 := by rw [abs_le]; exact t1
    calc (n1 : Rat) * |v1 - (1 - a)| ≤ 255 * (1 / 2 ^ 23) := mul_le_mul q1 this (abs_nonneg _) (by norm_num)
      _ ≤ 1 / 2 ^ 15 := by norm_num
  have d2 : |(n2 : Rat) * v2 - n2 * a| ≤ 1 / 2 ^ 15 := by
    rw [← mul_sub, abs_mul, abs_of_nonneg p2]
    have : |v2 - a| ≤ 1 / 2 ^ 23 := by rw [abs_le]; exact t2
    calc (n2 : Rat) * |v2 - a| ≤ 255 * (1 / 2 ^ 23) := mul_le_mul q2 this (abs_nonneg _) (by norm_num)
      _ ≤ 1 / 2 ^ 15 := by norm_num
  rw [abs_le] at d1 d2
  have tot1 : s ≤ n1 * (1 - a) + n2 * a + 1 / 4 := by linarith
  have tot2 : n1 * (1 - a) + n2 * a - 1 / 4 ≤ s := by linarith
  have hM1 : (n1 : Rat) ≤ ((max n1 n2 : Nat) : Rat) := by exact_mod_cast le_max_left _ _
  have hM2 : (n2 : Rat) ≤ ((max n1 n2 : Nat) : Rat) := by exact_mod_cast le_max_right _ _
  have hm1 : ((min n1 n2 : Nat) : Rat) ≤ n1 := by exact_mod_cast min_le_left _ _
  have hm2 : ((min n1 n2 : Nat) : Rat) ≤ n2 := by exact_mod_cast min_le_right _ _
  have up : s < ((max n1 n2 : Nat) : Rat) + 1 := by nlinarith
  have lo : ((min n1 n2 : Nat) : Rat) - 1 < s := by nlinarith
  have hf1 : ⌊s⌋ < (max n1 n2 : Nat) + 1 := by rw [Int.floor_lt]; push_cast at up ⊢; exact up
  have hf2 : ((min n1 n2 : Nat) : Int) - 1 ≤ ⌊s⌋ := by rw [Int.le_floor]; push_cast at lo ⊢; exact lo.le
  have hu : (UInt8.ofNat (Fl.toU8 (.fin s))).toNat = min (⌊s⌋.toNat) 255 := by
    rw [UInt8.toNat_ofNat']
    simp only [Fl.toU8, Fl.toUInt]
    omega
  rw [hu]
  omega

/-- C74: between pixels every channel of the sampled colour is at most the largest and at least the
smallest of the four surrounding pixels minus two.  Missing for the full statement: the two units, without
which it is false (`C74_counterexample`). -/
theorem C74_between_partial {i : Image} (hi : i.WF) (hw : i.width ≤ 2 ^ 24) (hh : i.height ≤ 2 ^ 24) {x y : Rat}
    {m n : Nat} (hx0 : (m : Rat) < x) (hx1 : x < m + 1) (hy0 : (n : Rat) < y) (hy1 : y < n + 1)
    (hm : m + 1 < i.width) (hn : n + 1 < i.height) (ch : Color → UInt8)
    (hch : ch = Color.r ∨ ch = Color.g ∨ ch = Color.b ∨ ch = Color.a) :
    ∃ tl tr bl br c, i.pixel m n = some tl ∧ i.pixel (m + 1) n = some tr ∧ i.pixel m (n + 1) = some bl ∧
      i.pixel (m + 1) (n + 1) = some br ∧ i.interpolatePixelColor (.fin x) (.fin y) = .ok c ∧
      (ch c).toNat ≤ max (max (ch tl).toNat (ch tr).toNat) (max (ch bl).toNat (ch br).toNat) ∧
      min (min (ch tl).toNat (ch tr).toNat) (min (ch bl).toNat (ch br).toNat) ≤ (ch c).toNat + 2 := by
  have ex : ∀ {a b : Nat}, a < i.width → b < i.height → ∃ c, i.pixel a b = some c := by
    intro a b ha hb
    have hl := cell_lt ha hb
    have h1 := hi.1
    unfold Image.pixel pixelOf
    rw [if_pos ⟨ha, hb⟩, colorAt_some (by omega)]
    exact ⟨_, rfl⟩
  obtain ⟨tl, htl⟩ := ex (a := m) (b := n) (by omega) (by omega)
  obtain ⟨tr, htr⟩ := ex (a := m + 1) (b := n) (by omega) (by omega)
  obtain ⟨bl, hbl⟩ := ex (a := m) (b := n + 1) (by omega) (by omega)
  obtain ⟨br, hbr⟩ := ex (a := m + 1) (b := n + 1) (by omega) (by omega)
  have hw' : Fl.ofNat f32 i.width = .fin i.width := rnd32_nat hw
  have hh' : Fl.ofNat f32 i.height = .fin i.height := rnd32_nat hh
  have fl : ∀ {z : Rat} {k : Nat}, (k : Rat) < z → z < k + 1 →
      Fl.floor (.fin z) = .fin (k : Rat) ∧ Fl.ceil (.fin z) = .fin ((k + 1 : Nat) : Rat) := by
    intro z k h1 h2
    have e1 : ⌊z⌋ = k := by rw [Int.floor_eq_iff]; exact ⟨by exact_mod_cast h1.le, by exact_mod_cast h2⟩
    have e2 : ⌈z⌉ = (k : Int) + 1 := by
      rw [Int.ceil_eq_iff]; push_cast
      exact ⟨by linarith, h2.le⟩
    simp only [Fl.floor, Fl.ceil, e1, e2]
    push_cast
    exact ⟨rfl, rfl⟩
  obtain ⟨fx, cx⟩ := fl hx0 hx1
  obtain ⟨fy, cy⟩ := fl hy0 hy1
  have neg : ∀ k : Nat, Fl.lt (.fin ((k : Nat) : Rat)) (.fin 0) = false := by
    intro k
    simp only [Fl.lt, decide_eq_false_iff_not, not_lt]
    exact Nat.cast_nonneg k
  have big : ∀ {k l : Nat}, k < l → Fl.ge (.fin (k : Rat)) (.fin (l : Rat)) = false := by
    intro k l h
    simp only [Fl.ge, Fl.le, decide_eq_false_iff_not, not_le]
    exact_mod_cast h
  have u : ∀ {k : Nat}, k ≤ 2 ^ 24 → Fl.toU32 (.fin (k : Rat)) = k := fun h => Fl.toUInt_nat (by omega)
  have sampled : i.interpolatePixelColor (.fin x) (.fin y) = .ok (Image.interpolateColor
      (Image.interpolateColor tl (rnd f32 (1 - (x - m))) tr (rnd f32 (x - m))) (rnd f32 (1 - (y - n)))
      (Image.interpolateColor bl (rnd f32 (1 - (x - m))) br (rnd f32 (x - m))) (rnd f32 (y - n))) := by
    unfold Image.interpolatePixelColor
    simp only [fx, fy, cx, cy, hw', hh']
    rw [neg, neg, big (by omega), big (by omega)]
    simp only [Bool.or_self, Bool.false_eq_true, if_false]
    rw [u (by omega), u (by omega), u (by omega), u (by omega), if_neg (by omega)]
    simp only [getPixelColor_eq hi, htl, htr, hbl, hbr, Option.getD_some, Res.bind_ok]
    have s1 : ∀ {z : Rat} {k : Nat}, Fl.sub f32 (.fin ((k + 1 : Nat) : Rat)) (.fin z) = rnd f32 (1 - (z - k)) := by
      intro z k
      show rnd f32 _ = _
      congr 1
      push_cast
      ring
    have s2 : ∀ {z : Rat} {k : Nat}, Fl.sub f32 (.fin z) (.fin (k : Rat)) = rnd f32 (z - k) := by
      intro z k
      show rnd f32 _ = _
      congr 1
      ring
    rw [s1, s1, s2, s2]
  refine ⟨tl, tr, bl, br, _, htl, htr, hbl, hbr, sampled, ?_⟩
  have key : ∀ t1 t2 b1 b2 : UInt8,
      (Image.interpolateChannel (Image.interpolateChannel t1 (rnd f32 (1 - (x - m))) t2 (rnd f32 (x - m)))
        (rnd f32 (1 - (y - n))) (Image.interpolateChannel b1 (rnd f32 (1 - (x - m))) b2 (rnd f32 (x - m)))
        (rnd f32 (y - n))).toNat ≤ max (max t1.toNat t2.toNat) (max b1.toNat b2.toNat) ∧
      min (min t1.toNat t2.toNat) (min b1.toNat b2.toNat) ≤
      (Image.interpolateChannel (Image.interpolateChannel t1 (rnd f32 (1 - (x - m))) t2 (rnd f32 (x - m)))
        (rnd f32 (1 - (y - n))) (Image.interpolateChannel b1 (rnd f32 (1 - (x - m))) b2 (rnd f32 (x - m)))
        (rnd f32 (y - n))).toNat + 2 := by
    intro t1 t2 b1 b2
    have k1 := channel_bounds (a := x - m) (by linarith) (by linarith) t1 t2
    have k2 := channel_bounds (a := x - m) (by linarith) (by linarith) b1 b2
    have k3 := channel_bounds (a := y - n) (by linarith) (by linarith)
      (Image.interpolateChannel t1 (rnd f32 (1 - (x - m))) t2 (rnd f32 (x - m)))
      (Image.interpolateChannel b1 (rnd f32 (1 - (x - m))) b2 (rnd f32 (x - m)))
    omega
  rcases hch with rfl | rfl | rfl | rfl <;> exact key _ _ _ _

example : img2.WF ∧ ((0 : Nat) : Rat) < 1 / 2 ∧ (1 / 2 : Rat) < (0 : Nat) + 1 ∧ 0 + 1 < img2.width ∧ 0 + 1 < img2.height := by
  refine ⟨⟨rfl, by decide⟩, by norm_num, by norm_num, by decide, by decide⟩

end Verif.Props
