import Verif.Lemmas.Coordinate
import Verif.Spec.Position
import Verif.Props.Convert
import Verif.Props.Window

/-!
# C117: data points and their positions

`LatLonGrid::new` divides the distance from the first to the last point by the number of points, not by the number of
intervals between them, so positions are looked up in a grid that is shrunk towards its first point.
-/

namespace Verif.Props

open Verif Verif.Grib2
open Verif.Spec (spacing pointAt CloseTo)

variable {T : Type}

/-- A message axis: `n` points from `first` to `last`, at least two and less than 2^16, evenly spaced by at least 2^-9
degrees, within -180..180 degrees. -/
structure PointAxis (first last : Rat) (n : Nat) : Prop where
  lo : -180 ≤ first
  hi : last < 180
  two : 2 ≤ n
  small : n < 2 ^ 16
  wide : 1 / 2 ^ 9 ≤ spacing first last n

namespace PointAxis
variable {first last : Rat} {n : Nat}

theorem length (h : PointAxis first last n) : last - first = spacing first last n * ((n : Rat) - 1) := by
  have : (2 : Rat) ≤ n := by exact_mod_cast h.two
  have : (n : Rat) - 1 ≠ 0 := by linarith
  unfold spacing
  field_simp

theorem pos (h : PointAxis first last n) : 0 < spacing first last n := lt_of_lt_of_le (by norm_num) h.wide

theorem axis (h : PointAxis first last n) : Axis first last n := by
  have h2 : (2 : Rat) ≤ n := by exact_mod_cast h.two
  refine ⟨h.lo, h.hi.le, by have := h.two; omega, ?_⟩
  rw [h.length]
  have := mul_le_mul_of_nonneg_right h.wide (show (0 : Rat) ≤ (n : Rat) - 1 by linarith)
  refine le_trans ?_ this
  norm_num
  linarith

/-- The cell chosen for a coordinate, in terms of the numbers of the data points: `(p - first) / spacing` is the
fractional number of the point at `p`; the chosen cell is the one nearest to this number plus the fraction of the way
from the first to the last point. -/
theorem cell (h : PointAxis first last n) {p : Rat} (h1 : first ≤ p) (h2 : p < last) : ∃ t : Rat,
    Fl.div f32 (Fl.sub f32 (.fin p) (.fin first)) (Fl.div f32 (Fl.sub f32 (.fin last) (.fin first)) (Fl.ofNat f32 n))
      = .fin t ∧
    |(Fl.toUSize (Fl.round (.fin t)) : Rat) - ((p - first) / spacing first last n + (p - first) / (last - first))|
      ≤ 1 / 2 + 1 / 2 ^ 5 + 1 / 2 ^ 100 := by
  obtain ⟨t, ht, t0, te⟩ := h.axis.coordinate h1 h2
  have hn : (n : Rat) < 2 ^ 16 := by exact_mod_cast h.small
  have h2' : (2 : Rat) ≤ n := by exact_mod_cast h.two
  have hD : 0 < last - first := by linarith
  have e : (p - first) * n / (last - first) = (p - first) / spacing first last n + (p - first) / (last - first) := by
    have h1 : spacing first last n ≠ 0 := h.pos.ne'
    have : (n : Rat) - 1 ≠ 0 := by linarith
    unfold spacing
    field_simp
    ring
  have hT : (p - first) * n / (last - first) ≤ 2 ^ 16 := by
    rw [div_le_iff₀ hD]
    have : (p - first) * n ≤ (last - first) * n := mul_le_mul_of_nonneg_right (by linarith) (by linarith)
    have : (last - first) * n ≤ (last - first) * 2 ^ 16 := mul_le_mul_of_nonneg_left hn.le hD.le
    linarith
  refine ⟨t, ht, ?_⟩
  rw [e] at hT te
  rw [abs_le] at te
  have r := C20_rounding t t0 (by
    have : (2 : Rat) ^ 16 + 2 ^ 16 / 2 ^ 21 + 1 / 2 ^ 100 ≤ 2 ^ 63 := by norm_num
    linarith [te.2])
  rw [abs_le] at r ⊢
  have : (2 : Rat) ^ 16 / 2 ^ 21 = 1 / 2 ^ 5 := by norm_num
  constructor <;> linarith [te.1, te.2, r.1, r.2]

theorem close (h : PointAxis first last n) {k : Nat} {p : Rat} (hc : CloseTo first last n k p) :
    |(p - first) / spacing first last n - k| ≤ 1 / 20 := by
  have hs := h.pos
  unfold CloseTo pointAt at hc
  have e : (p - first) / spacing first last n - k = (p - (first + k * spacing first last n)) / spacing first last n := by
    field_simp
    ring
  rw [e, abs_div, abs_of_pos hs, div_le_iff₀ hs]
  linarith

/-- In the first two fifths of the axis the right cell is chosen, in the last two fifths its neighbour. -/
theorem chosen (h : PointAxis first last n) {k : Nat} {p : Rat} (h1 : first ≤ p) (h2 : p < last)
    (hc : CloseTo first last n k p) {t : Rat}
    (ht : |(Fl.toUSize (Fl.round (.fin t)) : Rat) - ((p - first) / spacing first last n + (p - first) / (last - first))|
      ≤ 1 / 2 + 1 / 2 ^ 5 + 1 / 2 ^ 100) :
    (p - first ≤ 2 / 5 * (last - first) → Fl.toUSize (Fl.round (.fin t)) = k) ∧
    (3 / 5 * (last - first) ≤ p - first → Fl.toUSize (Fl.round (.fin t)) = k + 1) := by
  have hD : 0 < last - first := by linarith
  have hc := abs_le.mp (h.close hc)
  rw [abs_le] at ht
  have h100 : (1 : Rat) / 2 ^ 100 ≤ 1 / 1000 := by norm_num
  have f0 : 0 ≤ (p - first) / (last - first) := div_nonneg (by linarith) hD.le
  have f1 : (p - first) / (last - first) < 1 := by rw [div_lt_one hD]; linarith
  generalize Fl.toUSize (Fl.round (.fin t)) = x at *
  constructor
  · intro hf
    have hf : (p - first) / (last - first) ≤ 2 / 5 := by rw [div_le_iff₀ hD]; exact hf
    have a1 : (x : Rat) < k + 1 := by linarith [ht.2, hc.2]
    have a2 : (k : Rat) < x + 1 := by linarith [ht.1, hc.1]
    have b1 : x < k + 1 := by exact_mod_cast a1
    have b2 : k < x + 1 := by exact_mod_cast a2
    omega
  · intro hf
    have hf : 3 / 5 ≤ (p - first) / (last - first) := by rw [le_div_iff₀ hD]; exact hf
    have a1 : (x : Rat) < k + 1 + 1 := by linarith [ht.2, hc.2]
    have a2 : (k : Rat) + 1 < x + 1 := by linarith [ht.1, hc.1]
    have b1 : x < k + 1 + 1 := by exact_mod_cast a1
    have b2 : k + 1 < x + 1 := by exact_mod_cast a2
    omega

end PointAxis

/-- A regular grid message: its template gives the first point (s, w) and the last point (n, e) of ni x nj points
(angles of more than 180 degrees are negative ones). -/
structure PointGrid (doc : Document) (s w n e : Rat) (ni nj : Nat) : Prop where
  template : ∃ t, doc.section3.template = .latitudeLongitude t ∧ t.pointsAlongParallel = ni ∧ t.pointsAlongMeridian = nj ∧
    LatLon.new t.firstLat t.firstLon = ⟨.fin s, .fin w⟩ ∧ LatLon.new t.lastLat t.lastLon = ⟨.fin n, .fin e⟩
  lats : PointAxis s n nj
  lons : PointAxis w e ni

/-- The grid made of such a message. -/
theorem PointGrid.grid {doc : Document} {s w n e : Rat} {ni nj : Nat} (hg : PointGrid doc s w n e ni nj)
    {missing : T} {transform : Fl → T} {G : LatLonValueGrid T} (h : createRegularGrid doc missing transform = .ok G) :
    G.grid = LatLonGrid.new (ni, nj) ⟨⟨.fin s, .fin w⟩, ⟨.fin n, .fin e⟩⟩ := by
  obtain ⟨t, ht, rfl, rfl, h1, h2⟩ := hg.template
  unfold createRegularGrid getDimensionsAndExtent at h
  rw [ht] at h
  simp only [Res.bind_eq_ok] at h
  obtain ⟨vs, hvs, ⟨dims, ext⟩, ⟨ext', hext, he⟩, hg'⟩ := h
  simp only [Res.ok.injEq, Prod.mk.injEq] at he hg'
  obtain ⟨rfl, rfl⟩ := he
  subst hg'
  have := (C16_new _ _).2.1 _ hext
  subst this
  rw [h1, h2]
  rfl

/-- Where a position between the first and the last point is looked up. -/
theorem position_cell [GridValue T] {s w n e : Rat} {ni nj : Nat} (hlat : PointAxis s n nj) (hlon : PointAxis w e ni)
    {G : LatLonValueGrid T} (eg : G.grid = LatLonGrid.new (ni, nj) ⟨⟨.fin s, .fin w⟩, ⟨.fin n, .fin e⟩⟩)
    {lat lon : Rat} (h1 : s ≤ lat) (h2 : lat < n) (h3 : w ≤ lon) (h4 : lon < e) :
    ∃ t u : Rat, Fl.div f32 (Fl.sub f32 (.fin lon) (.fin w))
        (Fl.div f32 (Fl.sub f32 (.fin e) (.fin w)) (Fl.ofNat f32 ni)) = .fin t ∧
      Fl.div f32 (Fl.sub f32 (.fin lat) (.fin s))
        (Fl.div f32 (Fl.sub f32 (.fin n) (.fin s)) (Fl.ofNat f32 nj)) = .fin u ∧
      G.getValueByLatLon ⟨.fin lat, .fin lon⟩ =
        G.getValueByXY (Fl.toUSize (Fl.round (.fin t))) (Fl.toUSize (Fl.round (.fin u))) ∧
      |(Fl.toUSize (Fl.round (.fin t)) : Rat) - ((lon - w) / spacing w e ni + (lon - w) / (e - w))|
        ≤ 1 / 2 + 1 / 2 ^ 5 + 1 / 2 ^ 100 ∧
      |(Fl.toUSize (Fl.round (.fin u)) : Rat) - ((lat - s) / spacing s n nj + (lat - s) / (n - s))|
        ≤ 1 / 2 + 1 / 2 ^ 5 + 1 / 2 ^ 100 := by
  obtain ⟨t, ht, te⟩ := hlon.cell h3 h4
  obtain ⟨u, hu, ue⟩ := hlat.cell h1 h2
  refine ⟨t, u, ht, hu, ?_, te, ue⟩
  unfold LatLonValueGrid.getValueByLatLon
  have hxy : G.grid.getXYByLatLon ⟨.fin lat, .fin lon⟩ = some (.fin t, .fin u) := by
    rw [eg]
    unfold LatLonGrid.getXYByLatLon
    have hin : (LatLonGrid.new (ni, nj) ⟨⟨.fin s, .fin w⟩, ⟨.fin n, .fin e⟩⟩).extent.isInside ⟨.fin lat, .fin lon⟩ = true := by
      change (Fl.ge (.fin lat) (.fin s) && Fl.lt (.fin lat) (.fin n) && Fl.ge (.fin lon) (.fin w)
        && Fl.lt (.fin lon) (.fin e)) = true
      simp only [Fl.ge, Fl.le, Fl.lt, Bool.and_eq_true, decide_eq_true_eq]
      exact ⟨⟨⟨h1, h2⟩, h3⟩, h4⟩
    rw [hin]
    simp only [Bool.not_true, Bool.false_eq_true, if_false]
    rw [← ht, ← hu]
    rfl
  rw [hxy]

/-- **C117.** Where a position between the first and the last point of a message is looked up: in column `x` and row `y`,
which are those nearest to the (fractional) numbers of the data points at this position, *plus* the fraction of the way
from the first to the last point. -/
theorem C117_displacement [GridValue T] {doc : Document} {s w n e : Rat} {ni nj : Nat} (hg : PointGrid doc s w n e ni nj)
    {missing : T} {transform : Fl → T} {G : LatLonValueGrid T} (h : createRegularGrid doc missing transform = .ok G)
    {lat lon : Rat} (h1 : s ≤ lat) (h2 : lat < n) (h3 : w ≤ lon) (h4 : lon < e) :
    ∃ x y : Nat, G.getValueByLatLon ⟨.fin lat, .fin lon⟩ = G.getValueByXY x y ∧
      |(x : Rat) - ((lon - w) / spacing w e ni + (lon - w) / (e - w))| ≤ 1 / 2 + 1 / 2 ^ 5 + 1 / 2 ^ 100 ∧
      |(y : Rat) - ((lat - s) / spacing s n nj + (lat - s) / (n - s))| ≤ 1 / 2 + 1 / 2 ^ 5 + 1 / 2 ^ 100 ∧
      (∀ k, CloseTo w e ni k lon → (lon - w ≤ 2 / 5 * (e - w) → x = k) ∧ (3 / 5 * (e - w) ≤ lon - w → x = k + 1)) ∧
      (∀ k, CloseTo s n nj k lat → (lat - s ≤ 2 / 5 * (n - s) → y = k) ∧ (3 / 5 * (n - s) ≤ lat - s → y = k + 1)) := by
  obtain ⟨t, u, -, -, hv, te, ue⟩ := position_cell hg.lats hg.lons (hg.grid h) h1 h2 h3 h4
  exact ⟨_, _, hv, te, ue, fun k hk => hg.lons.chosen h3 h4 hk te, fun k hk => hg.lats.chosen h1 h2 hk ue⟩

/-- **C117 holds in the south-west**: within the first two fifths of the grid in both directions, a position close to a
data point is looked up as this data point. -/
theorem C117_partial [GridValue T] {doc : Document} {s w n e : Rat} {ni nj : Nat} (hg : PointGrid doc s w n e ni nj)
    {missing : T} {transform : Fl → T} {G : LatLonValueGrid T} (h : createRegularGrid doc missing transform = .ok G)
    {lat lon : Rat} {x y : Nat} (h1 : s ≤ lat) (h2 : lat - s ≤ 2 / 5 * (n - s)) (h3 : w ≤ lon)
    (h4 : lon - w ≤ 2 / 5 * (e - w)) (hy : CloseTo s n nj y lat) (hx : CloseTo w e ni x lon) :
    G.getValueByLatLon ⟨.fin lat, .fin lon⟩ = G.getValueByXY x y := by
  have dn : 0 < n - s := by
    have := hg.lats.length
    have h2' : (2 : Rat) ≤ nj := by exact_mod_cast hg.lats.two
    rw [this]; exact mul_pos hg.lats.pos (by linarith)
  have de : 0 < e - w := by
    have := hg.lons.length
    have h2' : (2 : Rat) ≤ ni := by exact_mod_cast hg.lons.two
    rw [this]; exact mul_pos hg.lons.pos (by linarith)
  obtain ⟨x', y', e1, -, -, ex, ey⟩ := C117_displacement hg h h1 (by linarith) h3 (by linarith)
  rw [e1, (ex x hx).1 h4, (ey y hy).1 h2]

/-- **C117 is false in the north-east**: within the last two fifths of the grid in both directions, a position close to a
data point is looked up as the next data point to the north-east. -/
theorem C117_neighbour [GridValue T] {doc : Document} {s w n e : Rat} {ni nj : Nat} (hg : PointGrid doc s w n e ni nj)
    {missing : T} {transform : Fl → T} {G : LatLonValueGrid T} (h : createRegularGrid doc missing transform = .ok G)
    {lat lon : Rat} {x y : Nat} (h1 : 3 / 5 * (n - s) ≤ lat - s) (h2 : lat < n) (h3 : 3 / 5 * (e - w) ≤ lon - w)
    (h4 : lon < e) (hy : CloseTo s n nj y lat) (hx : CloseTo w e ni x lon) :
    G.getValueByLatLon ⟨.fin lat, .fin lon⟩ = G.getValueByXY (x + 1) (y + 1) := by
  have dn : 0 < n - s := by
    have := hg.lats.length
    have h2' : (2 : Rat) ≤ nj := by exact_mod_cast hg.lats.two
    rw [this]; exact mul_pos hg.lats.pos (by linarith)
  have de : 0 < e - w := by
    have := hg.lons.length
    have h2' : (2 : Rat) ≤ ni := by exact_mod_cast hg.lons.two
    rw [this]; exact mul_pos hg.lons.pos (by linarith)
  obtain ⟨x', y', e1, -, -, ex, ey⟩ := C117_displacement hg h (by linarith) h2 (by linarith) h4
  rw [e1, (ex x hx).2 h3, (ey y hy).2 h1]

/-- The demonstration message with 4 x 4 points, one degree apart, from 43 N 5 E to 46 N 8 E, holding the numbers 0..15. -/
def squareMsg : Spec.Grib2.Msg :=
  { demoMsg with
    numberOfPoints := 16, numberOfValues := 16
    grid := .latLon { shape := .sphericalRadius6371229, radius := ⟨0, 0⟩, major := ⟨0, 0⟩
                      minor := ⟨0, 0⟩, ni := 4, nj := 4, basicAngle := 0, subdivision := 0
                      la1 := 43000000, lo1 := 5000000, resolution := 48, la2 := 46000000
                      lo2 := 8000000, di := 1000000, dj := 1000000, scanning := 64 }
    packing := .simple ⟨false, 0, 0⟩ 0 0 16 .floatingPoint
    bitmapIndicator := 255, bitmap := []
    data := List.range 16 }

theorem squareMsg_grid : PointGrid squareMsg.doc 43 5 46 8 4 4 := by
  refine ⟨⟨_, rfl, rfl, rfl, ?_, ?_⟩, ?_, ?_⟩
  · decide +kernel
  · decide +kernel
  · refine ⟨?_, ?_, ?_, ?_, ?_⟩ <;> norm_num [spacing]
  · refine ⟨?_, ?_, ?_, ?_, ?_⟩ <;> norm_num [spacing]

/-- **C117 is false for the code**: the message holds 10 for the point at 45 N 7 E (column 2, row 2), but looking this
position up gives 15, the number of the point at 46 N 8 E. -/
theorem C117_counterexample :
    readSingleDoc (Spec.Grib2.encode squareMsg) = .ok (squareMsg.doc, []) ∧
    pointAt 43 46 4 2 = 45 ∧ pointAt 5 8 4 2 = 7 ∧
    ∃ G, createRegularGrid squareMsg.doc (.fin (-1)) id = .ok G ∧
      G.getValueByXY 2 2 = .ok (some (.fin 10)) ∧
      G.getValueByLatLon ⟨.fin 45, .fin 7⟩ = .ok (some (.fin 15)) := by
  refine ⟨by decide +kernel, by norm_num [pointAt, spacing], by norm_num [pointAt, spacing], ?_⟩
  have h : (createRegularGrid squareMsg.doc (.fin (-1)) id).bind (fun G => .ok (G.getValueByXY 2 2,
      G.getValueByLatLon ⟨.fin 45, .fin 7⟩)) = .ok (.ok (some (.fin 10)), .ok (some (.fin 15))) := by
    decide +kernel
  cases hG : createRegularGrid squareMsg.doc (.fin (-1)) id with
  | ok G =>
    rw [hG] at h
    have h : Res.ok (G.getValueByXY 2 2, G.getValueByLatLon ⟨.fin 45, .fin 7⟩) = _ := h
    simp only [Res.ok.injEq, Prod.mk.injEq] at h
    exact ⟨G, rfl, h.1, h.2⟩
  | err => rw [hG] at h; cases h
  | panic => rw [hG] at h; cases h

/-- The longitudes of the ICON-D2 grid: 1215 points from 3.94 W to 20.34 E, 1/50 degree apart. -/
example : PointAxis (-394 / 100) (2034 / 100) 1215 ∧ spacing (-394 / 100) (2034 / 100) 1215 = 1 / 50 := by
  refine ⟨⟨?_, ?_, ?_, ?_, ?_⟩, ?_⟩ <;> norm_num [spacing]

example {G : LatLonValueGrid Fl} (h : createRegularGrid squareMsg.doc (.fin (-1)) id = .ok G) :
    G.getValueByLatLon ⟨.fin 44, .fin 6⟩ = G.getValueByXY 1 1 ∧
    G.getValueByLatLon ⟨.fin 45, .fin 7⟩ = G.getValueByXY 3 3 :=
  ⟨C117_partial squareMsg_grid h (by norm_num) (by norm_num) (by norm_num) (by norm_num)
      (by norm_num [CloseTo, pointAt, spacing]) (by norm_num [CloseTo, pointAt, spacing]),
    C117_neighbour squareMsg_grid h (by norm_num) (by norm_num) (by norm_num) (by norm_num)
      (by norm_num [CloseTo, pointAt, spacing]) (by norm_num [CloseTo, pointAt, spacing])⟩

end Verif.Props
