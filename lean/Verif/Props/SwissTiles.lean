import Verif.Props.CloudTiles
import Verif.Props.WeatherFile

/-!
# C125-C128: what a place on a MeteoSwiss chart shows

The unstructured points are put into the cells of a regular grid by the *centres* of the cells (C23), but positions are
looked up as if the numbers of the cells belonged to their south-western corners (C20).
-/

namespace Verif.Props

open Verif MapTileRenderer MapTileCoord Colors
open Verif.Spec (Filled cell spacing Accurate mercatorLat degrees chartCell)
open Verif.Spec.Grib2 (Msg encode)

/-! ## The cell of a position -/

/-- The area of the charts: from 42.03 N 0.81 W to 50.5 N 17.7 E, as the program's numbers have it. -/
def InChart (lat lon : Rat) : Prop :=
  Between (1377239 / 32768) (-13589545 / 16777216) (101 / 2) (4639949 / 262144) lat lon

/-- The cell where a position is looked up: its centre is up to 0.0104 degrees further north and east (and at most 0.0004
degrees further south or west). -/
def Looked (lat lon : Rat) (x y : Nat) : Prop :=
  lat - 4 / 10000 ≤ (chartCell x y).1 ∧ (chartCell x y).1 ≤ lat + 104 / 10000 ∧
  lon - 4 / 10000 ≤ (chartCell x y).2 ∧ (chartCell x y).2 ≤ lon + 104 / 10000

theorem swiss_lats : PointAxis (1377239 / 32768) (101 / 2) 847 := by
  refine ⟨?_, ?_, ?_, ?_, ?_⟩ <;> norm_num [spacing]

theorem swiss_lons : PointAxis (-13589545 / 16777216) (4639949 / 262144) 1851 := by
  refine ⟨?_, ?_, ?_, ?_, ?_⟩ <;> norm_num [spacing]

theorem looked {lat lon : Rat} {x y : Nat} (hb : InChart lat lon)
    (h : Picked (1377239 / 32768) (-13589545 / 16777216) (101 / 2) (4639949 / 262144) 1851 847 lat lon x y) :
    Looked lat lon x y := by
  obtain ⟨b1, b2, b3, b4⟩ := hb
  obtain ⟨h1, h2⟩ := h
  unfold spacing at h1 h2
  have k : (1 : Rat) / 2 ^ 100 ≤ 1 / 1000 := by norm_num
  rw [abs_le] at h1 h2
  unfold Looked chartCell
  norm_num at h1 h2 k ⊢
  refine ⟨?_, ?_, ?_, ?_⟩ <;> linarith [h1.1, h1.2, h2.1, h2.2]

/-- The point shown for a position is not far from it. -/
theorem Looked.near {lat lon : Rat} {x y : Nat} (h : Looked lat lon x y) {P : Nat → Option (Rat × Rat)} {n i : Nat}
    (hs : Spec.Shows P n x y (some i)) : ∃ p, P i = some p ∧ degrees p (lat, lon) < (26 / 1000 : Rat) := by
  obtain ⟨-, p, hp, hd, -⟩ := hs
  obtain ⟨h1, h2, h3, h4⟩ := h
  refine ⟨p, hp, ?_⟩
  have := degrees_moved (p := p) (p' := p) (q := (lat, lon)) (q' := chartCell x y) (e := 0) (f := 104 / 10000) (by simp) (by simp)
    (by rw [abs_le]; constructor <;> linarith) (by rw [abs_le]; constructor <;> linarith)
  push_cast at this hd ⊢
  linarith

/-! ## C125: looking up positions -/

theorem convert_grid {T : Type} {grid : UnstructuredGrid} {lat lon : Msg} {n : Nat} (hg : Placed grid lat lon n)
    {doc : Grib2.Document} {missing : T} {f : Fl → T} {G : LatLonValueGrid T}
    (h : Grib2.convertUnstructured missing f grid doc = .ok G) :
    G.grid = LatLonGrid.new (1851, 847) (finExtent (1377239 / 32768) (-13589545 / 16777216) (101 / 2) (4639949 / 262144)) := by
  unfold Grib2.convertUnstructured at h
  obtain ⟨vs, hvs, h⟩ := bind_ok' h
  obtain ⟨G', hG, h⟩ := bind_ok' h
  cases h
  unfold UnstructuredValueGrid.createRegularGrid at hG
  simp only [hg.regular] at hG
  split at hG
  · cases hG
  · obtain ⟨_, _, hG⟩ := bind_ok' hG
    cases hG
    rfl

theorem read_grid {w : World} {grid : UnstructuredGrid} {lat lon msg : Msg} {n : Nat} (hg : Placed grid lat lon n)
    {st : RunStep} {rest : List Msg} (hd : Delivers w st.url (msg :: rest)) {f : Fl → Fl} {G : LatLonValueGrid Fl}
    (h : Swiss.readGrid w grid f st = .ok G) :
    G.grid = LatLonGrid.new (1851, 847) (finExtent (1377239 / 32768) (-13589545 / 16777216) (101 / 2) (4639949 / 262144)) := by
  unfold Swiss.readGrid World.readUnstructured at h
  rw [hd.readFirst, Res.bind_ok] at h
  exact convert_grid hg h

/-- C125, the part that holds: looking up a position in a field of MeteoSwiss gives the value of the data point that is shown
in a cell of which the centre is up to one cell (a hundredth of a degree) further north and east; so it is the value of a
point at most 0.026 degrees away.  Missing from the full claim: this need not be the point nearest to the position, and even
close to a point there may be no value at all (see the counterexample). -/
theorem C125_lookup_partial (w : World) (hor : Text) (grid : UnstructuredGrid) (hg : Swiss.readHorConst w hor = .ok grid)
    (lat lon : Msg) (n : Nat) (hk : Constants w hor lat lon n) (st : RunStep) (msg : Msg) (more : List Msg)
    (hd : Delivers w st.url (msg :: more)) (hf : PointField msg n) (G : LatLonValueGrid Fl)
    (h : Swiss.readGrid w grid id st = .ok G) (a b : Rat) :
    (¬ InChart a b → G.getValueByLatLon ⟨.fin a, .fin b⟩ = .ok none) ∧
    (InChart a b → ∃ x y, Looked a b x y ∧
      (¬ (x < 1851 ∧ y < 847) → G.getValueByLatLon ⟨.fin a, .fin b⟩ = .ok none) ∧
      (x < 1851 ∧ y < 847 → ∃ o, Spec.Shows (position lat lon) n x y o ∧
        (∀ i, o = some i → ∃ p, position lat lon i = some p ∧ degrees p (a, b) < (26 / 1000 : Rat)) ∧
        (o.bind (physical msg) = none → G.getValueByLatLon ⟨.fin a, .fin b⟩ = .ok none) ∧
        ∀ q, o.bind (physical msg) = some q → ∃ v : Rat, |v - q| ≤ |q| / 2 ^ 22 + 1 / 2 ^ 110 ∧
          G.getValueByLatLon ⟨.fin a, .fin b⟩ = .ok (if v = -1 then none else some (.fin v)))) := by
  have hp := placed hk hg
  have eg := read_grid hp hd h
  have hH := holds_of_file hp hd hf h
  constructor
  · intro hb
    exact C20_outside _ _ (by rw [eg]; exact outside_between hb)
  · intro hb
    obtain ⟨x, y, hpk, hG⟩ := lookup swiss_lats swiss_lons hb
    obtain ⟨g1, g2⟩ := hG G eg hH.1
    have hl := looked hb hpk
    refine ⟨x, y, hl, g2, fun hxy => ⟨_, hp.shows x y hxy.1 hxy.2, ?_, ?_, ?_⟩⟩
    · intro i hi
      exact hl.near (hi ▸ hp.shows x y hxy.1 hxy.2)
    · intro hn
      rw [g1 hxy, (hH.2 x y hxy.1 hxy.2).1 hn]
    · intro q hq
      obtain ⟨v, v1, v2⟩ := (hH.2 x y hxy.1 hxy.2).2 q hq
      exact ⟨v, v1, by rw [g1 hxy, v2]⟩

/-! ## Tiles -/

/-- C126: if a MeteoSwiss run is rendered successfully with temperature and step selected, every tile that is needed for the
area is written, 256 by 256 pixels; the row of a pixel gives its latitude up to a small error, and the pixel shows the
temperature of the point that C125 gives for this position, and is transparent if there is none. -/
theorem C126_temperature_tiles (m : Libm) (hacc : Accurate m) (w : World) (s : Swiss.Service) (cal : Swiss.Calendar)
    (dirs : Text → Bool) (vars : List Text) (filter : List Nat) (hor vertUrl : Text) (grid : UnstructuredGrid) (time : Instant)
    (tr : List Write) (h : Swiss.renderRun m w s cal dirs vars filter grid vertUrl time tr .done)
    (hg : Swiss.readHorConst w hor = .ok grid) (lat lon : Msg) (n : Nat) (hk : Constants w hor lat lon n)
    (hv : ChosenVar vars .temp2m) (steps : List RunStep) (hs : Swiss.steps s time .t2m false = .ok steps)
    (st : RunStep) (hst : st ∈ steps) (hc : Chosen filter st)
    (msg : Msg) (more : List Msg) (hd : Delivers w st.url (msg :: more)) (hf : PointField msg n) (before : Tree) :
    ∃ run, Swiss.forecastRun cal time = .ok run ∧ ∃ point : Nat → Nat → Option Nat,
      (∀ x y, x < 1851 → y < 847 → Spec.Shows (position lat lon) n x y (point x y)) ∧
      ∀ t : MapTileCoord, Needed m swissGrid.extent run.model.zoomRange t → t.x < 2 ^ t.zoom → t.y < 2 ^ t.zoom →
      ∃ d, before.write tr (tilePath (outputPath run st.nr .temp2m) t) = some (.picture d) ∧ d.width = 256 ∧ d.height = 256 ∧
        ∀ i : Nat, i < 256 → ∃ a : Rat, |(a : ℝ) - mercatorLat (t.y + i / 256) t.zoom| ≤ 1 / 200 + 300 / 4 ^ t.zoom ∧
          ∀ j : Nat, j < 256 → ∃ px, d.pixel j i = some px ∧
            (¬ InChart a (pixelLon t.x t.zoom j) → px = Color.transparent) ∧
            (InChart a (pixelLon t.x t.zoom j) → ∃ x y, Looked a (pixelLon t.x t.zoom j) x y ∧
              (¬ (x < 1851 ∧ y < 847) → px = Color.transparent) ∧
              (x < 1851 ∧ y < 847 → TempShown ((point x y).bind (physical msg)) px)) := by
  obtain ⟨run, l, e1, hl, hd', hfile⟩ := bin_of_swiss h hv (by simp) hs hst hc
  simp only [swissLayers, hs, Res.bind_ok, Res.bind_eq_ok, Res.ok.injEq] at hl
  obtain ⟨L, hL, rfl⟩ := hl
  unfold Swiss.readTemp at hL
  rw [getStep_of_mem (steps_numbered hs) hst rfl] at hL
  obtain ⟨G, hG, hL⟩ := bind_ok' (r := Swiss.readGrid w grid id st) hL
  cases hL
  have hp := placed hk hg
  have eg := read_grid hp hd hG
  have hH := holds_of_file hp hd hf hG
  refine ⟨run, e1, pointOf grid, hp.shows, fun t ht hx hy => ?_⟩
  have ht' : Needed m G.grid.extent run.model.zoomRange t := by rw [eg]; exact ht
  obtain ⟨d, hd⟩ := hd'.1 t ht'
  have htot : ∀ p, ∃ v, (tempChart ⟨G⟩).color p = .ok v := by
    intro p
    obtain ⟨v, hv⟩ := filled_position hH.1 p
    unfold tempChart TempLayer.getTempByLatLon
    simp only
    rw [hv]
    cases v <;> exact ⟨_, rfl⟩
  obtain ⟨w1, w2, w3⟩ := tile_pixels hacc (ht.2.1.trans (zoom_small _)) hx hy htot hd
  refine ⟨d, hfile before (.tempTile t) _ (.tempTile ht' hd), w1, w2, fun i hi => ?_⟩
  obtain ⟨a, ha, hpx⟩ := w3 i hi
  refine ⟨a, ha, fun j hj => ?_⟩
  obtain ⟨o, ho, hpix⟩ := hpx j hj
  obtain ⟨p1, p2⟩ := temp_pixel (l := ⟨G⟩) swiss_lats swiss_lons eg hH ho
  refine ⟨_, hpix, p1, fun hb => ?_⟩
  obtain ⟨x, y, hpk, h1, h2⟩ := p2 hb
  exact ⟨x, y, looked hb hpk, h2, h1⟩

/-- C127, the part that holds: likewise for the speed of the wind.  Missing from the full claim: components of -1 m/s, which
are taken for missing values (see the counterexample). -/
theorem C127_wind_tiles_partial (m : Libm) (hacc : Accurate m) (w : World) (s : Swiss.Service) (cal : Swiss.Calendar)
    (dirs : Text → Bool) (vars : List Text) (filter : List Nat) (hor vertUrl : Text) (grid : UnstructuredGrid) (time : Instant)
    (tr : List Write) (h : Swiss.renderRun m w s cal dirs vars filter grid vertUrl time tr .done)
    (hg : Swiss.readHorConst w hor = .ok grid) (lat lon : Msg) (n : Nat) (hk : Constants w hor lat lon n)
    (hv : ChosenVar vars .wind10m) (us vs gs : List RunStep) (hu : Swiss.steps s time .u10m false = .ok us)
    (hvs : Swiss.steps s time .v10m false = .ok vs) (hgs : Swiss.steps s time .vmax10m false = .ok gs)
    (st stv stg : RunStep) (hst : st ∈ us) (hstv : stv ∈ vs) (hstg : stg ∈ gs) (ev : stv.nr = st.nr) (eg : stg.nr = st.nr)
    (hc : Chosen filter st) (mu mv : Msg) (more more' : List Msg)
    (hdu : Delivers w st.url (mu :: more)) (hfu : PointField mu n)
    (hdv : Delivers w stv.url (mv :: more')) (hfv : PointField mv n) (before : Tree) :
    ∃ run, Swiss.forecastRun cal time = .ok run ∧ ∃ point : Nat → Nat → Option Nat,
      (∀ x y, x < 1851 → y < 847 → Spec.Shows (position lat lon) n x y (point x y)) ∧
      ∀ t : MapTileCoord, Needed m swissGrid.extent run.model.zoomRange t → t.x < 2 ^ t.zoom → t.y < 2 ^ t.zoom →
      ∃ d, before.write tr (tilePath (outputPath run st.nr .wind10m) t) = some (.picture d) ∧ d.width = 256 ∧ d.height = 256 ∧
        ∀ i : Nat, i < 256 → ∃ a : Rat, |(a : ℝ) - mercatorLat (t.y + i / 256) t.zoom| ≤ 1 / 200 + 300 / 4 ^ t.zoom ∧
          ∀ j : Nat, j < 256 → ∃ px, d.pixel j i = some px ∧
            (¬ InChart a (pixelLon t.x t.zoom j) → px = Color.transparent) ∧
            (InChart a (pixelLon t.x t.zoom j) → ∃ x y, Looked a (pixelLon t.x t.zoom j) x y ∧
              (¬ (x < 1851 ∧ y < 847) → px = Color.transparent) ∧
              (x < 1851 ∧ y < 847 →
                WindShown ((point x y).bind (physical mu)) ((point x y).bind (physical mv)) px)) := by
  obtain ⟨run, l, e, hl, hd', hfile⟩ := bin_of_swiss h hv (by simp) hu hst hc
  simp only [swissLayers, hu, hvs, hgs, Res.bind_ok, Res.bind_eq_ok, Res.ok.injEq] at hl
  obtain ⟨L, hL, rfl⟩ := hl
  unfold Swiss.readWind at hL
  rw [getStep_of_mem (steps_numbered hu) hst rfl, getStep_of_mem (steps_numbered hvs) hstv ev,
    getStep_of_mem (steps_numbered hgs) hstg eg] at hL
  simp only [Res.bind_ok] at hL
  obtain ⟨U, hU, hL⟩ := bind_ok' hL
  obtain ⟨V, hV, hL⟩ := bind_ok' hL
  obtain ⟨G, hG, hL⟩ := bind_ok' hL
  obtain rfl := wind_new hL
  have hp := placed hk hg
  have eu := read_grid hp hdu hU
  have ev := read_grid hp hdv hV
  have hHu := holds_of_file hp hdu hfu hU
  have hHv := holds_of_file hp hdv hfv hV
  refine ⟨run, e, pointOf grid, hp.shows, fun t ht hx hy => ?_⟩
  have ht' : Needed m U.grid.extent run.model.zoomRange t := by rw [eu]; exact ht
  obtain ⟨d, hd⟩ := hd'.1 t ht'
  have htot : ∀ p, ∃ v, (windChart ⟨U, V, some G⟩).color p = .ok v := by
    intro p
    obtain ⟨a, ha⟩ := filled_position hHu.1 p
    obtain ⟨b, hb⟩ := filled_position hHv.1 p
    unfold windChart WindLayer.getSpeedByLatLon WindLayer.getWindByLatLon
    simp only
    rw [ha, hb]
    cases a <;> cases b <;> exact ⟨_, rfl⟩
  obtain ⟨w1, w2, w3⟩ := tile_pixels hacc (ht.2.1.trans (zoom_small _)) hx hy htot hd
  refine ⟨d, hfile before (.windTile t) _ (.windTile ht' hd), w1, w2, fun i hi => ?_⟩
  obtain ⟨a, ha, hpx⟩ := w3 i hi
  refine ⟨a, ha, fun j hj => ?_⟩
  obtain ⟨o, ho, hpix⟩ := hpx j hj
  obtain ⟨p1, p2⟩ := wind_pixel (l := ⟨U, V, some G⟩) swiss_lats swiss_lons eu ev hHu hHv ho
  refine ⟨_, hpix, p1, fun hb => ?_⟩
  obtain ⟨x, y, hpk, h1, h2⟩ := p2 hb
  exact ⟨x, y, looked hb hpk, h2, h1⟩

/-- The fractional column and row of a position in the chart: hundredths of a degree from its corner, up to a twentieth. -/
def Within (a b fx fy : Rat) : Prop :=
  0 ≤ fx ∧ 0 ≤ fy ∧ |fx - (b + 81 / 100) * 100| ≤ 1 / 20 ∧ |fy - (a - 4203 / 100) * 100| ≤ 1 / 20

theorem within {a b fx fy : Rat} (hb : InChart a b)
    (h1 : At (-13589545 / 16777216) (4639949 / 262144) 1851 b fx) (h2 : At (1377239 / 32768) (101 / 2) 847 a fy) :
    Within a b fx fy := by
  obtain ⟨b1, b2, b3, b4⟩ := hb
  obtain ⟨h1, h1'⟩ := h1
  obtain ⟨h2, h2'⟩ := h2
  unfold spacing at h1' h2'
  have k : (1 : Rat) / 2 ^ 100 ≤ 1 / 1000 := by norm_num
  rw [abs_le] at h1' h2'
  refine ⟨h1, h2, ?_, ?_⟩ <;> rw [abs_le] <;> norm_num at h1' h2' k ⊢ <;> constructor <;>
    linarith [h1'.1, h1'.2, h2'.1, h2'.2]

/-- The cloud cover of MeteoSwiss, in percent, as a fraction. -/
theorem cover_upTo {G : LatLonValueGrid Fl} {ni nj : Nat} {P : Nat → Nat → Option Rat} (h : HoldsCover G ni nj P)
    (hP : ∀ x y q, x < ni → y < nj → P x y = some q → 0 ≤ q ∧ q ≤ 1) : HoldsUpTo 1 G ni nj P := by
  refine ⟨h.1, fun x y => ?_⟩
  by_cases hxy : x < ni ∧ y < nj
  · rw [if_pos hxy, h.1.get hxy.1 hxy.2]
    obtain ⟨c1, c2⟩ := h.2 x y hxy.1 hxy.2
    refine ⟨fun hn => by rw [c1 hn], fun q hq => ?_⟩
    obtain ⟨q0, q1⟩ := hP x y q hxy.1 hxy.2 hq
    obtain ⟨v, hv, hc⟩ := c2 q hq q0 (by linarith)
    have k : (1 : Rat) / 2 ^ 100 ≤ 1 / 2 ^ 20 := by norm_num
    have hv1 : |v - q| ≤ 1 / 2 ^ 19 := hv.trans (by linarith)
    refine ⟨q0, q1, v, by rw [hc], hv1, ?_⟩
    have hv' := abs_le.mp hv1
    rw [abs_le]
    constructor <;> linarith [hv'.1, hv'.2]
  · rw [if_neg hxy]
    exact ⟨fun _ => (C19_lookup G ni nj h.1.dims h.1.small h.1.length _ _).2 hxy, fun q hq => by cases hq⟩

/-- C128, the part that holds: likewise for the cloud cover (in percent) and the precipitation between two hours, which are
interpolated between the four cells around the fractional column and row; the centres of these are half a cell further north
and east.  Missing from the full claim: places without data, which are drawn as a clear sky (see the counterexample). -/
theorem C128_cloud_precip_tiles_partial (m : Libm) (hacc : Accurate m) (w : World) (s : Swiss.Service) (cal : Swiss.Calendar)
    (dirs : Text → Bool) (vars : List Text) (filter : List Nat) (hor vertUrl : Text) (grid : UnstructuredGrid) (time : Instant)
    (tr : List Write) (h : Swiss.renderRun m w s cal dirs vars filter grid vertUrl time tr .done)
    (hg : Swiss.readHorConst w hor = .ok grid) (lat lon : Msg) (n : Nat) (hk : Constants w hor lat lon n)
    (hv : ChosenVar vars .cloudPrecip) (steps totals : List RunStep) (hs : Swiss.steps s time .clct true = .ok steps)
    (hs' : Swiss.steps s time .totPrec false = .ok totals) (st st0 st1 : RunStep) (hst : st ∈ steps)
    (h0 : st0 ∈ totals) (h1 : st1 ∈ totals) (e0 : st0.nr + 1 = st.nr) (e1 : st1.nr = st.nr) (hc : Chosen filter st)
    (clct total0 total1 : Msg) (more more0 more1 : List Msg)
    (hd : Delivers w st.url (clct :: more)) (hf : PointField clct n)
    (hd0 : Delivers w st0.url (total0 :: more0)) (hf0 : PointField total0 n)
    (hd1 : Delivers w st1.url (total1 :: more1)) (hf1 : PointField total1 n)
    (bc : ∀ i q, i < n → physical clct i = some q → 0 ≤ q ∧ q ≤ 100)
    (b0 : ∀ i q, i < n → physical total0 i = some q → 0 ≤ q ∧ q ≤ 1000)
    (b1 : ∀ i q, i < n → physical total1 i = some q → 0 ≤ q ∧ q ≤ 1000) (before : Tree) :
    ∃ run, Swiss.forecastRun cal time = .ok run ∧ ∃ point : Nat → Nat → Option Nat,
      (∀ x y, x < 1851 → y < 847 → Spec.Shows (position lat lon) n x y (point x y)) ∧
      ∀ t : MapTileCoord, Needed m swissGrid.extent run.model.zoomRange t → t.x < 2 ^ t.zoom → t.y < 2 ^ t.zoom →
      ∃ d, before.write tr (tilePath (outputPath run st.nr .cloudPrecip) t) = some (.picture d) ∧ d.width = 256 ∧
        d.height = 256 ∧
        ∀ i : Nat, i < 256 → ∃ a : Rat, |(a : ℝ) - mercatorLat (t.y + i / 256) t.zoom| ≤ 1 / 200 + 300 / 4 ^ t.zoom ∧
          ∀ j : Nat, j < 256 → ∃ px, d.pixel j i = some px ∧
            (¬ InChart a (pixelLon t.x t.zoom j) → px = clearSky) ∧
            (InChart a (pixelLon t.x t.zoom j) → ∃ fx fy, Within a (pixelLon t.x t.zoom j) fx fy ∧
              CloudRainShown (sampled (fun x y => ((point x y).bind (physical clct)).map (· / 100)) 1851 847 fx fy)
                (sampled (fun x y => (point x y).bind (physical total0)) 1851 847 fx fy)
                (sampled (fun x y => (point x y).bind (physical total1)) 1851 847 fx fy) px) := by
  obtain ⟨run, l, e, hl, hd', hfile⟩ := bin_of_swiss (v := .cloudPrecip) h hv (by simp) hs hst hc
  simp only [swissLayers, hs, hs', Res.bind_ok, Res.bind_eq_ok, Res.ok.injEq] at hl
  obtain ⟨_, _, L, hL, W, _, rfl⟩ := hl
  unfold Swiss.readCloudPrecip at hL
  rw [cloudPrecipSteps_ok (by omega) (getStep_of_mem (steps_numbered hs) hst rfl)
    (getStep_of_mem (steps_numbered hs') h0 (by omega)) (getStep_of_mem (steps_numbered hs') h1 e1), Res.bind_ok] at hL
  obtain ⟨C, hC, hL⟩ := bind_ok' hL
  obtain ⟨P0, hP0, hL⟩ := bind_ok' hL
  obtain ⟨P1, hP1, hL⟩ := bind_ok' hL
  obtain rfl := cloudPrecip_new hL
  have hp := placed hk hg
  have gc := read_grid hp hd hC
  have g0 := read_grid hp hd0 hP0
  have g1 := read_grid hp hd1 hP1
  have hHc := cover_of_file hp hd hf hC
  have hH0 := holds_of_file hp hd0 hf0 hP0
  have hH1 := holds_of_file hp hd1 hf1 hP1
  have bound : ∀ {msg : Msg} {B : Rat}, (∀ i q, i < n → physical msg i = some q → 0 ≤ q ∧ q ≤ B) →
      ∀ x y q, x < 1851 → y < 847 → shown grid msg x y = some q → 0 ≤ q ∧ q ≤ B := by
    intro msg B hB x y q hx hy hq
    have hsh := hp.shows x y hx hy
    unfold shown at hq
    cases ho : pointOf grid x y with
    | none => rw [ho] at hq; cases hq
    | some i =>
      rw [ho] at hq hsh
      exact hB i q hsh.1 hq
  have hbc : ∀ x y q, x < 1851 → y < 847 → (shown grid clct x y).map (· / 100) = some q → 0 ≤ q ∧ q ≤ 1 := by
    intro x y q hx hy hq
    obtain ⟨q', hq', rfl⟩ := Option.map_eq_some_iff.mp hq
    obtain ⟨l1, l2⟩ := bound bc x y q' hx hy hq'
    constructor <;> linarith
  refine ⟨run, e, pointOf grid, hp.shows, fun t ht hx hy => ?_⟩
  have ht' : Needed m C.grid.extent run.model.zoomRange t := by rw [gc]; exact ht
  obtain ⟨d, hd⟩ := hd'.1 t ht'
  have htot : ∀ p, ∃ v, (cloudPrecipChart ⟨C, P0, P1⟩).color p = .ok v := by
    intro p
    obtain ⟨a, ha⟩ := filled_interpolate hHc.1 p
    obtain ⟨b, hb⟩ := filled_interpolate hH0.1 p
    obtain ⟨c, hc⟩ := filled_interpolate hH1.1 p
    obtain ⟨px, hpx, -⟩ := cloud_color (l := ⟨C, P0, P1⟩) ha hb hc
    exact ⟨_, hpx⟩
  obtain ⟨w1, w2, w3⟩ := tile_pixels hacc (ht.2.1.trans (zoom_small _)) hx hy htot hd
  refine ⟨d, hfile before (.cloudPrecipTile t) _ (.cloudPrecipTile ht' hd), w1, w2, fun i hi => ?_⟩
  obtain ⟨a, ha, hpx⟩ := w3 i hi
  refine ⟨a, ha, fun j hj => ?_⟩
  obtain ⟨o, ho, hpix⟩ := hpx j hj
  obtain ⟨p1, p2⟩ := cloud_pixel (l := ⟨C, P0, P1⟩) swiss_lats swiss_lons gc g0 g1 (cover_upTo hHc hbc)
    (hH0.upTo (by norm_num) (le_refl 1000) (bound b0)) (hH1.upTo (by norm_num) (le_refl 1000) (bound b1)) ho
  refine ⟨_, hpix, p1, fun hb => ?_⟩
  obtain ⟨fx, fy, hfx, hfy, hshow⟩ := p2 hb
  exact ⟨fx, fy, within hb hfx hfy, hshow⟩

end Verif.Props
