import Verif.Props.Position
import Verif.Props.CanDraw
import Verif.Props.EndToEnd
import Verif.Props.Mercator
import Verif.Props.Places

/-!
# C118-C120: from the published messages to the pixels of the map tiles
-/

namespace Verif.Props

open Verif MapTileRenderer MapTileCoord Dwd
open Verif.Spec (Filled cell spacing Accurate mercatorLat tempColors tempClass windKnots windColors)
open Verif.Spec.Grib2 (Msg encode)

/-! ## Pixels -/

theorem tile_small {T : Type} {m : Libm} {valueFn : LatLon → Res (Option T)} {t : MapTileCoord} {colorFn : T → Color}
    {d : Drawable} (h : createSingleTile m valueFn t colorFn = .ok d) : t.x + 1 < 2 ^ 32 ∧ t.y + 1 < 2 ^ 32 := by
  unfold createSingleTile at h
  generalize tileSizePx = k at h
  obtain ⟨_, _, h⟩ := Res.bind_eq_ok.mp h
  obtain ⟨_, _, h⟩ := Res.bind_eq_ok.mp h
  obtain ⟨_, h1, h⟩ := Res.bind_eq_ok.mp h
  obtain ⟨_, h2, h⟩ := Res.bind_eq_ok.mp h
  clear h
  unfold ckU32 at h1 h2
  constructor
  · by_contra hc
    rw [if_neg hc] at h1
    cases h1
  · by_contra hc
    rw [if_neg hc] at h2
    cases h2

/-- The pixels of a tile: each row has a latitude, close to that of the Web Mercator projection (C77), each column the
longitude of the projection, and each pixel the colour for its position. -/
theorem tile_pixels {m : Libm} (hm : Accurate m) {t : MapTileCoord} (hz : t.zoom ≤ 10) (hx : t.x < 2 ^ t.zoom)
    (hy : t.y < 2 ^ t.zoom) {color : LatLon → Res (Option Color)} (hv : ∀ p, ∃ v, color p = .ok v) {d : Drawable}
    (hd : createSingleTile m color t id = .ok d) :
    d.width = 256 ∧ d.height = 256 ∧ ∀ i : Nat, i < 256 → ∃ lat : Rat,
      |(lat : ℝ) - mercatorLat (t.y + i / 256) t.zoom| ≤ 1 / 200 + 300 / 4 ^ t.zoom ∧
      ∀ j : Nat, j < 256 → ∃ o, color ⟨.fin lat, .fin (pixelLon t.x t.zoom j)⟩ = .ok o ∧
        d.pixel j i = some (o.getD Color.transparent) := by
  obtain ⟨x, y, z⟩ := t
  simp only at hz hx hy
  choose v hv using hv
  obtain ⟨hx', hy'⟩ := tile_small hd
  obtain ⟨start, stop, d', e1, e2, e3, -, w1, w2, w3⟩ := C33_tile m ⟨x, y, z⟩ (show z ≤ 31 by omega) hx' hy' color v hv id
  rw [hd] at e3
  cases e3
  refine ⟨w1, w2, fun i hi => ?_⟩
  obtain ⟨start', stop', q, f1, f2, f3, f4⟩ := C77_close_partial m hm (x := x) (show z ≤ 23 by omega) hy hi
  rw [e1] at f1
  cases f1
  simp only at e2
  rw [e2] at f2
  cases f2
  refine ⟨q, f4, fun j hj => ?_⟩
  have w4 := w3 i j hi hj
  rw [f3] at w4
  obtain ⟨start', stop', g1, g2, g3⟩ := C33_longitude m (y := y) hz hx hj
  rw [e1] at g1
  cases g1
  rw [e2] at g2
  cases g2
  unfold LatLon.new at g3 w4
  simp only at g3
  rw [g3] at w4
  have q1 : |q| ≤ 92 := by
    obtain ⟨s', a, hs, ha, na⟩ := toPosition_lat (x := x) hm (show z ≤ 23 by omega) hy.le
    obtain ⟨e', b, he, hb, nb⟩ := toPosition_lat (x := x + 1) (y := y + 1) hm (show z ≤ 23 by omega) hy
    rw [e1] at hs
    cases hs
    rw [e2] at he
    cases he
    have ma := abs_le.mp (mercator_bounds (y : ℝ) z)
    have mb := abs_le.mp (mercator_bounds ((y + 1 : Nat) : ℝ) z)
    have na' := abs_le.mp na
    have nb' := abs_le.mp nb
    have bound : ∀ q : Rat, |(q : ℝ)| ≤ 91 → |q| ≤ 91 := by
      intro q h
      have : ((|q| : Rat) : ℝ) ≤ ((91 : Rat) : ℝ) := by rw [Rat.cast_abs]; push_cast; exact h
      exact_mod_cast this
    have a1 : |a| ≤ 91 := bound a (by rw [abs_le]; constructor <;> linarith [na'.1, na'.2, ma.1, ma.2])
    have b1 : |b| ≤ 91 := bound b (by rw [abs_le]; constructor <;> linarith [nb'.1, nb'.2, mb.1, mb.2])
    obtain ⟨q', hq, eq⟩ := rowLat_near ha hb a1 b1 (i := i) (by omega)
    unfold rowLat at hq
    rw [f3] at hq
    cases hq
    have i0 : (0 : Rat) ≤ i / 256 := by positivity
    have i1 : (i : Rat) / 256 ≤ 1 := by
      rw [div_le_one (by norm_num)]; exact_mod_cast hi.le
    have c : |a + i * ((b - a) / 256)| ≤ 91 := by
      rw [show a + i * ((b - a) / 256) = (1 - (i : Rat) / 256) * a + (i : Rat) / 256 * b by ring]
      rw [abs_le] at a1 b1 ⊢
      constructor <;> nlinarith
    have := abs_le.mp eq
    have := abs_le.mp c
    rw [abs_le]
    constructor <;> linarith
  rw [normalise_id (by linarith [(abs_le.mp q1).1]) (by linarith [(abs_le.mp q1).2])] at w4
  refine ⟨v ⟨.fin q, .fin (pixelLon x z j)⟩, hv _, ?_⟩
  rw [w4]
  unfold pixelLon
  generalize v _ = o
  cases o <;> rfl

/-! ## Charts of grids -/

/-- The position is between the first and the last point. -/
def Between (s w n e lat lon : Rat) : Prop := s ≤ lat ∧ lat < n ∧ w ≤ lon ∧ lon < e

/-- Column `x` and row `y` are those nearest to the numbers of the points at the position, each plus the fraction of
the way from the first to the last point (C117). -/
def Picked (s w n e : Rat) (ni nj : Nat) (lat lon : Rat) (x y : Nat) : Prop :=
  |(x : Rat) - ((lon - w) / spacing w e ni + (lon - w) / (e - w))| ≤ 1 / 2 + 1 / 2 ^ 5 + 1 / 2 ^ 100 ∧
  |(y : Rat) - ((lat - s) / spacing s n nj + (lat - s) / (n - s))| ≤ 1 / 2 + 1 / 2 ^ 5 + 1 / 2 ^ 100

/-- Which point a picked cell is: one at most 1.54 spacings to the east (north) and 0.54 to the west (south). -/
theorem Picked.near {s w n e lat lon : Rat} {ni nj x y : Nat} (h : Picked s w n e ni nj lat lon x y)
    (hb : Between s w n e lat lon) :
    -(54 / 100) ≤ (x : Rat) - (lon - w) / spacing w e ni ∧ (x : Rat) - (lon - w) / spacing w e ni ≤ 154 / 100 ∧
    -(54 / 100) ≤ (y : Rat) - (lat - s) / spacing s n nj ∧ (y : Rat) - (lat - s) / spacing s n nj ≤ 154 / 100 := by
  obtain ⟨h1, h2⟩ := h
  obtain ⟨b1, b2, b3, b4⟩ := hb
  rw [abs_le] at h1 h2
  have f0 : 0 ≤ (lon - w) / (e - w) := div_nonneg (by linarith) (by linarith)
  have f1 : (lon - w) / (e - w) ≤ 1 := by rw [div_le_one (by linarith)]; linarith
  have g0 : 0 ≤ (lat - s) / (n - s) := div_nonneg (by linarith) (by linarith)
  have g1 : (lat - s) / (n - s) ≤ 1 := by rw [div_le_one (by linarith)]; linarith
  have k : (1 : Rat) / 2 ^ 100 ≤ 1 / 1000 := by norm_num
  refine ⟨?_, ?_, ?_, ?_⟩ <;> linarith [h1.1, h1.2, h2.1, h2.2]

/-! ## Looking up a position -/

theorem outside_between {s w n e lat lon : Rat} (h : ¬ Between s w n e lat lon) :
    (finExtent s w n e).isInside ⟨.fin lat, .fin lon⟩ = false := by
  change (Fl.ge (.fin lat) (.fin s) && Fl.lt (.fin lat) (.fin n) && Fl.ge (.fin lon) (.fin w)
    && Fl.lt (.fin lon) (.fin e)) = false
  rw [← Bool.not_eq_true]
  simp only [Fl.ge, Fl.le, Fl.lt, Bool.and_eq_true, decide_eq_true_eq]
  rintro ⟨⟨⟨h1, h2⟩, h3⟩, h4⟩
  exact h ⟨h1, h2, h3, h4⟩

/-- All grids of the same points are looked up in the same cell. -/
theorem lookup {s w n e : Rat} {ni nj : Nat} (hlat : PointAxis s n nj) (hlon : PointAxis w e ni) {lat lon : Rat}
    (hb : Between s w n e lat lon) : ∃ x y, Picked s w n e ni nj lat lon x y ∧
      ∀ G : LatLonValueGrid Fl, G.grid = LatLonGrid.new (ni, nj) (finExtent s w n e) → Filled G ni nj →
        (x < ni ∧ y < nj → G.getValueByLatLon ⟨.fin lat, .fin lon⟩ = .ok (cell G ni x y)) ∧
        (¬ (x < ni ∧ y < nj) → G.getValueByLatLon ⟨.fin lat, .fin lon⟩ = .ok none) := by
  obtain ⟨h1, h2, h3, h4⟩ := hb
  obtain ⟨t, ht, te⟩ := hlon.cell h3 h4
  obtain ⟨u, hu, ue⟩ := hlat.cell h1 h2
  refine ⟨_, _, ⟨te, ue⟩, fun G eg hG => ?_⟩
  obtain ⟨t', u', ht', hu', hv, -⟩ := position_cell hlat hlon eg h1 h2 h3 h4
  rw [ht] at ht'
  rw [hu] at hu'
  cases ht'
  cases hu'
  rw [hv]
  exact ⟨fun h => hG.get h.1 h.2, fun h => (C19_lookup G ni nj hG.dims hG.small hG.length _ _).2 h⟩

/-- The grid read from a published field. -/
theorem source_of_field {T : Type} {w : World} {run : Run} (hm : IsDwd run.model) {r : Req} {msg : Msg}
    (hp : Publishes w run r msg) {missing : T} {f : Fl → T} {G : LatLonValueGrid T}
    (h : Res.bind (fileUrl run r) (fun url => w.readRectangular url missing f) = .ok G) :
    Grib2.createRegularGrid msg.doc missing f = .ok G := by
  obtain ⟨url, body, rest, hu, hd, hz⟩ := hp.there
  obtain ⟨url', hu', h1, h2⟩ := C52_download hm r
  rw [hu] at hu'
  cases hu'
  rw [hu] at h
  change w.readRectangular url missing f = .ok G at h
  unfold World.readRectangular World.readSingle World.stream at h
  simp only [h1, h2, hd, if_true] at h
  change (do let doc ← (do let r ← Grib2.readSingleDoc (w.bunzip body); Res.ok r.1); Grib2.createRegularGrid doc missing f)
    = Res.ok G at h
  rw [hz, C01_round_trip msg hp.ok hp.known rest] at h
  exact h

/-! ## C119: temperature -/

/-- How a temperature in kelvin is drawn: not at all if there is none, else (up to 999 kelvin) in the colour of the class
of a temperature in degrees Celsius that is right to within 0.001. -/
def TempShown (o : Option Rat) (px : Color) : Prop :=
  (o = none → px = Color.transparent) ∧ ∀ k, o = some k → 0 ≤ k → k ≤ 999 →
    ∃ c : Rat, |c - (k - 27315 / 100)| ≤ 1 / 1000 ∧ tempColors[tempClass c]? = some px

theorem temp_pixel {s w n e : Rat} {ni nj : Nat} (hlat : PointAxis s n nj) (hlon : PointAxis w e ni) {l : TempLayer}
    (eg : l.temp.grid = LatLonGrid.new (ni, nj) (finExtent s w n e)) {P : Nat → Nat → Option Rat}
    (hl : Holds l.temp ni nj P) {lat lon : Rat} {o : Option Color}
    (ho : (tempChart l).color ⟨.fin lat, .fin lon⟩ = .ok o) :
    (¬ Between s w n e lat lon → o.getD Color.transparent = Color.transparent) ∧
    (Between s w n e lat lon → ∃ x y, Picked s w n e ni nj lat lon x y ∧
      (x < ni ∧ y < nj → TempShown (P x y) (o.getD Color.transparent)) ∧
      (¬ (x < ni ∧ y < nj) → o.getD Color.transparent = Color.transparent)) := by
  unfold tempChart TempLayer.getTempByLatLon at ho
  simp only at ho
  constructor
  · intro hb
    rw [C20_outside _ _ (by rw [eg]; exact outside_between hb)] at ho
    cases ho
    rfl
  · intro hb
    obtain ⟨x, y, hp, hG⟩ := lookup hlat hlon hb
    obtain ⟨g1, g2⟩ := hG l.temp eg hl.1
    refine ⟨x, y, hp, fun hxy => ?_, fun hxy => ?_⟩
    · rw [g1 hxy] at ho
      obtain ⟨c1, c2⟩ := hl.2 x y hxy.1 hxy.2
      refine ⟨fun hn => ?_, fun k hk k0 k1 => ?_⟩
      · rw [c1 hn] at ho
        cases ho
        rfl
      · obtain ⟨v, hv, hc⟩ := c2 k hk
        rw [abs_of_nonneg k0] at hv
        have hv' := abs_le.mp hv
        have b : k / 2 ^ 22 ≤ 999 / 2 ^ 22 := by gcongr
        have b2 : (999 : Rat) / 2 ^ 22 + 1 / 2 ^ 110 ≤ 1 / 2000 := by norm_num
        rw [if_neg (by intro hc; subst hc; linarith [hv'.1])] at hc
        rw [hc] at ho
        cases ho
        obtain ⟨c, hc1, hc2⟩ := C46_temperature.1 v (by rw [abs_le]; constructor <;> linarith [hv'.1, hv'.2])
        refine ⟨c, ?_, hc2⟩
        have hc1' := abs_le.mp hc1
        have b3 : (1 : Rat) / 2 ^ 13 ≤ 1 / 2000 := by norm_num
        rw [abs_le]
        constructor <;> linarith [hv'.1, hv'.2, hc1'.1, hc1'.2]
    · rw [g2 hxy] at ho
      cases ho
      rfl

theorem zoom_small (model : FcModel) : model.zoomRange.2 ≤ 10 := by cases model <;> decide

/-- C119: if a DWD run is rendered successfully with temperature and step selected, and the server published a field of
temperatures, then every tile that is needed for the extent of the field is written, 256 by 256 pixels.  Each pixel
outside the area of the field is transparent.  Each pixel inside shows the temperature of a point of the message: the
point with the column and row that C117 gives for the latitude and longitude of the pixel. -/
theorem C119_temperature_tiles (m : Libm) (hacc : Accurate m) (w : World) (dirs : Text → Bool) (vars : List Text)
    (filter : List Nat) (run : Run) (hm : IsDwd run.model) (hn : '/' ∉ run.name) (tr : List Write)
    (h : Dwd.renderRun m w dirs vars filter run tr .done) (hv : ChosenVar vars .temp2m) (s : RunStep)
    (hs : s ∈ run.model.forecastSteps) (hc : Chosen filter s) (msg : Msg) (ni nj : Nat)
    (hp : Publishes w run (.single .t2m s.nr) msg) (hf : Field msg ni nj) (south west north east : Rat)
    (hg : PointGrid msg.doc south west north east ni nj) (before : Tree) (t : MapTileCoord)
    (ht : Needed m (finExtent south west north east) run.model.zoomRange t) (hx : t.x < 2 ^ t.zoom)
    (hy : t.y < 2 ^ t.zoom) :
    ∃ d, before.write tr (tilePath (outputPath run s.nr .temp2m) t) = some (.picture d) ∧ d.width = 256 ∧ d.height = 256 ∧
      ∀ i : Nat, i < 256 → ∃ lat : Rat, |(lat : ℝ) - mercatorLat (t.y + i / 256) t.zoom| ≤ 1 / 200 + 300 / 4 ^ t.zoom ∧
        ∀ j : Nat, j < 256 → ∃ px, d.pixel j i = some px ∧
          (¬ Between south west north east lat (pixelLon t.x t.zoom j) → px = Color.transparent) ∧
          (Between south west north east lat (pixelLon t.x t.zoom j) → ∃ x y,
            Picked south west north east ni nj lat (pixelLon t.x t.zoom j) x y ∧
            (x < ni ∧ y < nj → TempShown (physical msg (y * ni + x)) px) ∧
            (¬ (x < ni ∧ y < nj) → px = Color.transparent)) := by
  obtain ⟨l, hl, hd, hfile⟩ := bin_of_run hn h hv (by simp) hs hc
  simp only [dwdLayers, Res.bind_eq_ok, Res.ok.injEq] at hl
  obtain ⟨G, hG, rfl⟩ := hl
  have eg := hg.grid (source_of_field hm hp hG)
  have ht' : Needed m G.grid.extent run.model.zoomRange t := by rw [eg]; exact ht
  have hH := cell_of_field hm hp hf hG
  obtain ⟨d, hd⟩ := hd.1 t ht'
  have htot : ∀ p, ∃ v, (tempChart ⟨G⟩).color p = .ok v := by
    intro p
    obtain ⟨v, hv⟩ := filled_position hH.1 p
    unfold tempChart TempLayer.getTempByLatLon
    simp only
    rw [hv]
    cases v <;> exact ⟨_, rfl⟩
  obtain ⟨w1, w2, w3⟩ := tile_pixels hacc (ht.2.1.trans (zoom_small _)) hx hy htot hd
  refine ⟨d, hfile before (.tempTile t) _ (.tempTile ht' hd), w1, w2, fun i hi => ?_⟩
  obtain ⟨lat, hlat, hpx⟩ := w3 i hi
  refine ⟨lat, hlat, fun j hj => ?_⟩
  obtain ⟨o, ho, hpix⟩ := hpx j hj
  exact ⟨_, hpix, temp_pixel (l := ⟨G⟩) hg.lats hg.lons eg hH ho⟩

/-! ## C120: wind -/

/-- How wind is drawn: not at all if a component is missing, else (components up to 200 m/s, none within 0.001 of -1) in
the colour of the class of a speed in metres per second that is right to within 0.001. -/
def WindShown (a b : Option Rat) (px : Color) : Prop :=
  ((a = none ∨ b = none) → px = Color.transparent) ∧ ∀ u v, a = some u → b = some v → |u| ≤ 200 → |v| ≤ 200 →
    1 / 1000 < |u + 1| → 1 / 1000 < |v + 1| → ∃ i : Nat, windColors[i]? = some px ∧
      (∀ (j : Nat) (kn : Rat), j < i → windKnots[j]? = some kn →
        ((kn * (514444 / 1000000) : Rat) : ℝ) ≤ Real.sqrt ((u : ℝ) ^ 2 + (v : ℝ) ^ 2) + 1 / 1000) ∧
      ∀ (j : Nat) (kn : Rat), i ≤ j → windKnots[j]? = some kn →
        Real.sqrt ((u : ℝ) ^ 2 + (v : ℝ) ^ 2) < ((kn * (514444 / 1000000) : Rat) : ℝ) + 1 / 1000

/-- The length of a vector changes by at most the sum of the changes of its components. -/
theorem length_near (a b c d : ℝ) : |Real.sqrt (a ^ 2 + b ^ 2) - Real.sqrt (c ^ 2 + d ^ 2)| ≤ |a - c| + |b - d| := by
  have key : ∀ a b c d : ℝ, Real.sqrt (a ^ 2 + b ^ 2) ≤ Real.sqrt (c ^ 2 + d ^ 2) + (|a - c| + |b - d|) := by
    intro a b c d
    apply Real.sqrt_le_iff.mpr
    have p0 := Real.sqrt_nonneg (c ^ 2 + d ^ 2)
    have p1 := Real.sq_sqrt (show 0 ≤ c ^ 2 + d ^ 2 by positivity)
    have hc : |c| ≤ Real.sqrt (c ^ 2 + d ^ 2) := Real.abs_le_sqrt (by nlinarith [sq_nonneg d])
    have hd : |d| ≤ Real.sqrt (c ^ 2 + d ^ 2) := Real.abs_le_sqrt (by nlinarith [sq_nonneg c])
    set r := Real.sqrt (c ^ 2 + d ^ 2)
    have x0 := abs_nonneg (a - c)
    have y0 := abs_nonneg (b - d)
    refine ⟨by positivity, ?_⟩
    have e1 : a ^ 2 = c ^ 2 + 2 * (c * (a - c)) + |a - c| ^ 2 := by rw [sq_abs]; ring
    have e2 : b ^ 2 = d ^ 2 + 2 * (d * (b - d)) + |b - d| ^ 2 := by rw [sq_abs]; ring
    have f1 : c * (a - c) ≤ r * |a - c| := by
      refine (le_abs_self _).trans ?_
      rw [abs_mul]
      exact mul_le_mul_of_nonneg_right hc x0
    have f2 : d * (b - d) ≤ r * |b - d| := by
      refine (le_abs_self _).trans ?_
      rw [abs_mul]
      exact mul_le_mul_of_nonneg_right hd y0
    nlinarith [mul_nonneg x0 y0]
  rw [abs_le]
  have h1 := key a b c d
  have h2 := key c d a b
  rw [abs_sub_comm c a, abs_sub_comm d b] at h2
  constructor <;> linarith

theorem wind_shown {u v a b : Rat} (hu : |u| ≤ 200) (hv : |v| ≤ 200) (ha : |a - u| ≤ |u| / 2 ^ 22 + 1 / 2 ^ 110)
    (hb : |b - v| ≤ |v| / 2 ^ 22 + 1 / 2 ^ 110) :
    ∃ i : Nat, windColors[i]? = some (Colors.windColor (windSpeed (.fin a) (.fin b))) ∧
      (∀ (j : Nat) (kn : Rat), j < i → windKnots[j]? = some kn →
        ((kn * (514444 / 1000000) : Rat) : ℝ) ≤ Real.sqrt ((u : ℝ) ^ 2 + (v : ℝ) ^ 2) + 1 / 1000) ∧
      ∀ (j : Nat) (kn : Rat), i ≤ j → windKnots[j]? = some kn →
        Real.sqrt ((u : ℝ) ^ 2 + (v : ℝ) ^ 2) < ((kn * (514444 / 1000000) : Rat) : ℝ) + 1 / 1000 := by
  have near : ∀ {p q : Rat}, |q| ≤ 200 → |p - q| ≤ |q| / 2 ^ 22 + 1 / 2 ^ 110 → |p - q| ≤ 1 / 20000 := by
    intro p q hq h
    have : |q| / 2 ^ 22 ≤ 200 / 2 ^ 22 := by gcongr
    have : (200 : Rat) / 2 ^ 22 + 1 / 2 ^ 110 ≤ 1 / 20000 := by norm_num
    linarith
  have ha := near hu ha
  have hb := near hv hb
  have big : ∀ {p q : Rat}, |q| ≤ 200 → |p - q| ≤ 1 / 20000 → |p| ≤ 201 := by
    intro p q hq h
    have := abs_le.mp hq
    have := abs_le.mp h
    rw [abs_le]
    constructor <;> linarith
  have ha2 := big hu ha
  have hb2 := big hv hb
  obtain ⟨x, hx, x0, xe, -⟩ := C44_speed (e := a) (n := b) (ha2.trans (by norm_num)) (hb2.trans (by norm_num))
  have haR : |(a : ℝ) - u| ≤ 1 / 20000 := by
    have := (Rat.cast_le (K := ℝ)).mpr ha
    push_cast at this
    exact this
  have hbR : |(b : ℝ) - v| ≤ 1 / 20000 := by
    have := (Rat.cast_le (K := ℝ)).mpr hb
    push_cast at this
    exact this
  have hl := (length_near a b u v).trans (add_le_add haR hbR)
  have hle : Real.sqrt ((a : ℝ) ^ 2 + (b : ℝ) ^ 2) ≤ 402 := by
    have hz := length_near a b 0 0
    have h1 : |(a : ℝ)| ≤ 201 := by
      have := (Rat.cast_le (K := ℝ)).mpr ha2
      push_cast at this
      exact this
    have h2 : |(b : ℝ)| ≤ 201 := by
      have := (Rat.cast_le (K := ℝ)).mpr hb2
      push_cast at this
      exact this
    simp only [ne_eq, OfNat.ofNat_ne_zero, not_false_eq_true, zero_pow, add_zero, Real.sqrt_zero, sub_zero] at hz
    have := le_abs_self (Real.sqrt ((a : ℝ) ^ 2 + (b : ℝ) ^ 2))
    linarith
  have hxe : |(x : ℝ) - Real.sqrt ((u : ℝ) ^ 2 + (v : ℝ) ^ 2)| ≤ 1 / 2000 := by
    have h1 := abs_le.mp xe
    have h2 := abs_le.mp hl
    have h3 : Real.sqrt ((a : ℝ) ^ 2 + (b : ℝ) ^ 2) / 2 ^ 21 ≤ 402 / 2 ^ 21 := by gcongr
    have h4 : (402 : ℝ) / 2 ^ 21 + 1 / 2 ^ 70 + 1 / 10000 ≤ 1 / 2000 := by norm_num
    rw [abs_le]
    constructor <;> linarith [h1.1, h1.2, h2.1, h2.2]
  rw [hx]
  obtain ⟨i, ⟨-, i1, i2⟩, -, hi⟩ := C46_wind.1.1 (.fin x) (by simp)
  have hxe := abs_le.mp hxe
  have hbound : ∀ (j : Nat) (kn : Rat), windKnots[j]? = some kn → ∃ q : Rat, windLegend.bounds[j]? = some (Fl.fin q) ∧
      |(q : ℝ) - ((kn * (514444 / 1000000) : Rat) : ℝ)| ≤ 1 / 2000 := by
    intro j kn hj
    obtain ⟨q, hq, hqe⟩ := C46_wind.2 kn (List.mem_of_getElem? hj)
    refine ⟨q, ?_, ?_⟩
    · show (windKnots.map Colors.kt)[j]? = _
      rw [List.getElem?_map, hj, Option.map_some, hq]
    · have hk : kn ≤ 50 := by
        have : ∀ k ∈ windKnots, k ≤ 50 := by decide +kernel
        exact this kn (List.mem_of_getElem? hj)
      have : |q - kn * (514444 / 1000000)| ≤ 1 / 2000 := by
        refine hqe.trans ?_
        have : kn * (514444 / 1000000) / 2 ^ 22 ≤ 50 * (514444 / 1000000) / 2 ^ 22 := by gcongr
        refine this.trans (by norm_num)
      have := (Rat.cast_le (K := ℝ)).mpr this
      push_cast at this ⊢
      exact this
  refine ⟨i, hi, fun j kn hj hk => ?_, fun j kn hj hk => ?_⟩
  · obtain ⟨q, hq, hqe⟩ := hbound j kn hk
    have := i1 j _ hj hq
    rw [Fl.le_fin] at this
    have := (Rat.cast_le (K := ℝ)).mpr this
    have hqe := abs_le.mp hqe
    linarith [hxe.1, hxe.2, hqe.1, hqe.2]
  · obtain ⟨q, hq, hqe⟩ := hbound j kn hk
    have := i2 j _ hj hq
    rw [Fl.lt_fin] at this
    have := (Rat.cast_lt (K := ℝ)).mpr this
    have hqe := abs_le.mp hqe
    linarith [hxe.1, hxe.2, hqe.1, hqe.2]

theorem wind_pixel {s w n e : Rat} {ni nj : Nat} (hlat : PointAxis s n nj) (hlon : PointAxis w e ni) {l : WindLayer}
    (eu : l.zonal.grid = LatLonGrid.new (ni, nj) (finExtent s w n e))
    (ev : l.meridional.grid = LatLonGrid.new (ni, nj) (finExtent s w n e)) {P Q : Nat → Nat → Option Rat}
    (hu : Holds l.zonal ni nj P) (hv : Holds l.meridional ni nj Q) {lat lon : Rat} {o : Option Color}
    (ho : (windChart l).color ⟨.fin lat, .fin lon⟩ = .ok o) :
    (¬ Between s w n e lat lon → o.getD Color.transparent = Color.transparent) ∧
    (Between s w n e lat lon → ∃ x y, Picked s w n e ni nj lat lon x y ∧
      (x < ni ∧ y < nj → WindShown (P x y) (Q x y) (o.getD Color.transparent)) ∧
      (¬ (x < ni ∧ y < nj) → o.getD Color.transparent = Color.transparent)) := by
  have none_of : ∀ a b, l.zonal.getValueByLatLon ⟨.fin lat, .fin lon⟩ = .ok a →
      l.meridional.getValueByLatLon ⟨.fin lat, .fin lon⟩ = .ok b → (a = none ∨ b = none) →
      o.getD Color.transparent = Color.transparent := by
    intro a b ha hb hab
    unfold windChart at ho
    simp only at ho
    rw [((C44_presence_position l _ a b ha hb).2 hab).2] at ho
    cases ho
    rfl
  constructor
  · intro hb
    exact none_of _ _ (C20_outside _ _ (by rw [eu]; exact outside_between hb))
      (C20_outside _ _ (by rw [ev]; exact outside_between hb)) (.inl rfl)
  · intro hb
    obtain ⟨x, y, hp, hG⟩ := lookup hlat hlon hb
    obtain ⟨g1, g2⟩ := hG l.zonal eu hu.1
    obtain ⟨g3, g4⟩ := hG l.meridional ev hv.1
    refine ⟨x, y, hp, fun hxy => ?_, fun hxy => none_of _ _ (g2 hxy) (g4 hxy) (.inl rfl)⟩
    obtain ⟨c1, c2⟩ := hu.2 x y hxy.1 hxy.2
    obtain ⟨c3, c4⟩ := hv.2 x y hxy.1 hxy.2
    refine ⟨fun hn => none_of _ _ (g1 hxy) (g3 hxy) (hn.imp c1 c3), fun u v hpu hpv u1 v1 u2 v2 => ?_⟩
    obtain ⟨a, ha, hca⟩ := c2 u hpu
    obtain ⟨b, hb, hcb⟩ := c4 v hpv
    have ne : ∀ {p q : Rat}, |q| ≤ 200 → 1 / 1000 < |q + 1| → |p - q| ≤ |q| / 2 ^ 22 + 1 / 2 ^ 110 → p ≠ -1 := by
      rintro p q h1 h2 h3 rfl
      rw [show (-1 : Rat) - q = -(q + 1) by ring, abs_neg] at h3
      have : |q| / 2 ^ 22 ≤ 200 / 2 ^ 22 := by gcongr
      have : (200 : Rat) / 2 ^ 22 + 1 / 2 ^ 110 ≤ 1 / 20000 := by norm_num
      linarith
    rw [if_neg (ne u1 u2 ha)] at hca
    rw [if_neg (ne v1 v2 hb)] at hcb
    rw [hca] at g1
    rw [hcb] at g3
    unfold windChart at ho
    simp only at ho
    rw [((C44_presence_position l _ _ _ (g1 hxy) (g3 hxy)).1 _ _ rfl rfl).2] at ho
    cases ho
    exact wind_shown u1 v1 ha hb

/-- C120, the part that holds: likewise for the wind at 10 m, where a pixel shows the speed at the point.  Missing from the
full claim: components of -1 m/s, which are taken for missing values (see the counterexample). -/
theorem C120_wind_tiles_partial (m : Libm) (hacc : Accurate m) (w : World) (dirs : Text → Bool) (vars : List Text)
    (filter : List Nat) (run : Run) (hm : IsDwd run.model) (hn : '/' ∉ run.name) (tr : List Write)
    (h : Dwd.renderRun m w dirs vars filter run tr .done) (hv : ChosenVar vars .wind10m) (s : RunStep)
    (hs : s ∈ run.model.forecastSteps) (hc : Chosen filter s) (mu mv : Msg) (ni nj : Nat)
    (hpu : Publishes w run (.single .u10m s.nr) mu) (hfu : Field mu ni nj)
    (hpv : Publishes w run (.single .v10m s.nr) mv) (hfv : Field mv ni nj) (south west north east : Rat)
    (hgu : PointGrid mu.doc south west north east ni nj) (hgv : PointGrid mv.doc south west north east ni nj)
    (before : Tree) (t : MapTileCoord)
    (ht : Needed m (finExtent south west north east) run.model.zoomRange t) (hx : t.x < 2 ^ t.zoom)
    (hy : t.y < 2 ^ t.zoom) :
    ∃ d, before.write tr (tilePath (outputPath run s.nr .wind10m) t) = some (.picture d) ∧ d.width = 256 ∧
      d.height = 256 ∧
      ∀ i : Nat, i < 256 → ∃ lat : Rat, |(lat : ℝ) - mercatorLat (t.y + i / 256) t.zoom| ≤ 1 / 200 + 300 / 4 ^ t.zoom ∧
        ∀ j : Nat, j < 256 → ∃ px, d.pixel j i = some px ∧
          (¬ Between south west north east lat (pixelLon t.x t.zoom j) → px = Color.transparent) ∧
          (Between south west north east lat (pixelLon t.x t.zoom j) → ∃ x y,
            Picked south west north east ni nj lat (pixelLon t.x t.zoom j) x y ∧
            (x < ni ∧ y < nj → WindShown (physical mu (y * ni + x)) (physical mv (y * ni + x)) px) ∧
            (¬ (x < ni ∧ y < nj) → px = Color.transparent)) := by
  obtain ⟨l, hl, hd, hfile⟩ := bin_of_run hn h hv (by simp) hs hc
  simp only [dwdLayers, Res.bind_eq_ok, Res.ok.injEq] at hl
  obtain ⟨U, hU, V, hV, G, hG, L, hL, rfl⟩ := hl
  obtain rfl := wind_new hL
  have eu := hgu.grid (source_of_field hm hpu hU)
  have ev := hgv.grid (source_of_field hm hpv hV)
  have ht' : Needed m U.grid.extent run.model.zoomRange t := by rw [eu]; exact ht
  have hHu := cell_of_field hm hpu hfu hU
  have hHv := cell_of_field hm hpv hfv hV
  obtain ⟨d, hd⟩ := hd.1 t ht'
  have htot : ∀ p, ∃ v, (windChart ⟨U, V, some G⟩).color p = .ok v := by
    intro p
    obtain ⟨a, ha⟩ := filled_position hHu.1 p
    obtain ⟨b, hb⟩ := filled_position hHv.1 p
    unfold windChart WindLayer.getSpeedByLatLon WindLayer.getWindByLatLon
    simp only
    rw [ha, hb]
    cases a <;> cases b <;> exact ⟨_, rfl⟩
  obtain ⟨w1, w2, w3⟩ := tile_pixels hacc (ht.2.1.trans (zoom_small _)) hx hy htot hd
  refine ⟨d, hfile before (.windTile t) _ (.windTile ht' hd), w1, w2, fun i hi => ?_⟩
  obtain ⟨lat, hlat, hpx⟩ := w3 i hi
  refine ⟨lat, hlat, fun j hj => ?_⟩
  obtain ⟨o, ho, hpix⟩ := hpx j hj
  exact ⟨_, hpix, wind_pixel (l := ⟨U, V, some G⟩) hgu.lats hgu.lons eu ev hHu hHv ho⟩

end Verif.Props
