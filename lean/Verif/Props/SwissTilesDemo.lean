import Verif.Props.SwissTiles
import Verif.Props.SwissDemo
import Verif.Props.TilesDemo

/-!
# Tiles of MeteoSwiss runs that succeed: the hypotheses of C125-C128 can be met, and where C125, C127, C128 fail
-/

namespace Verif.Props

open Verif MapTileRenderer MapTileCoord Colors
open Verif.Spec (Filled cell spacing Accurate AccurateRow mercatorLat degrees chartCell)
open Verif.Spec.Grib2 (Msg encode)

theorem demo_positions : position latMsg lonMsg 0 = some (46, 7) ∧ position latMsg lonMsg 1 = none ∧
    position latMsg lonMsg 2 = some (47, 9) ∧ position latMsg lonMsg 3 = some (43, 10) := by
  obtain ⟨a0, a1, a2, a3⟩ := lat_physical
  obtain ⟨b0, b1, b2, b3⟩ := lon_physical
  simp only [position, a0, a1, a2, a3, b0, b1, b2, b3, and_self]

/-- What is shown in a cell in the west: the first point or nothing, depending on its distance. -/
theorem demo_west {x y : Nat} (hx : x ≤ 830) {o : Option Nat} (h : Spec.Shows (position latMsg lonMsg) 4 x y o) :
    (degrees (46, 7) (chartCell x y) ≤ (99 / 10000 : Real) → o = some 0) ∧
    ((101 / 10000 : Real) ≤ degrees (46, 7) (chartCell x y) → o = none) := by
  obtain ⟨p0, p1, p2, p3⟩ := demo_positions
  have far : ∀ {q : Rat × Rat}, 8 ≤ q.2 → (1 / 2 : Real) ≤ degrees q (chartCell x y) := by
    intro q hq
    unfold degrees chartCell
    apply Real.le_sqrt_of_sq_le
    have hx' : (x : Rat) ≤ 830 := by exact_mod_cast hx
    have : (1 / 4 : Rat) ≤ (q.1 - (4203 / 100 + ((y : Rat) + 1 / 2) / 100)) ^ 2 +
        (q.2 - (-81 / 100 + ((x : Rat) + 1 / 2) / 100)) ^ 2 := by
      have h1 := sq_nonneg (q.1 - (4203 / 100 + ((y : Rat) + 1 / 2) / 100))
      have h2 : (1 / 2 : Rat) ≤ q.2 - (-81 / 100 + ((x : Rat) + 1 / 2) / 100) := by linarith
      have h3 := mul_le_mul h2 h2 (by norm_num) (by linarith)
      rw [← sq] at h3
      linarith
    have := (Rat.cast_le (K := Real)).mpr this
    push_cast at this ⊢
    linarith
  cases o with
  | none =>
    refine ⟨fun hd => ?_, fun _ => rfl⟩
    have := h 0 _ (by norm_num) p0
    push_cast at this
    linarith
  | some i =>
    obtain ⟨hi, p, hp, hd, -⟩ := h
    push_cast at hd
    interval_cases i
    · rw [p0] at hp; cases hp
      exact ⟨fun _ => rfl, fun h => by linarith⟩
    · rw [p1] at hp; cases hp
    · rw [p2] at hp; cases hp
      have := far (q := (47, 9)) (by norm_num)
      linarith
    · rw [p3] at hp; cases hp
      have := far (q := (43, 10)) (by norm_num)
      linarith

/-- The cell of a position, by its bounds. -/
theorem Looked.cell {a b : Rat} {x y x0 y0 : Nat} (h : Looked a b x y) (h1 : 4203 / 100 + ((y0 : Rat) - 45 / 100) / 100 ≤ a)
    (h2 : a ≤ 4203 / 100 + ((y0 : Rat) + 44 / 100) / 100) (h3 : -81 / 100 + ((x0 : Rat) - 45 / 100) / 100 < b)
    (h4 : b ≤ -81 / 100 + ((x0 : Rat) + 44 / 100) / 100) : x = x0 ∧ y = y0 := by
  unfold Looked chartCell at h
  simp only at h
  obtain ⟨l1, l2, l3, l4⟩ := h
  have a1 : (x : Rat) < x0 + 1 := by linarith
  have a2 : (x0 : Rat) < x + 1 := by linarith
  have a3 : (y : Rat) < y0 + 1 := by linarith
  have a4 : (y0 : Rat) < y + 1 := by linarith
  have a1 : x < x0 + 1 := by exact_mod_cast a1
  have a2 : x0 < x + 1 := by exact_mod_cast a2
  have a3 : y < y0 + 1 := by exact_mod_cast a3
  have a4 : y0 < y + 1 := by exact_mod_cast a4
  omega

/-- C125 is false: the temperature of 280 K at the point at 46 N 7 E is not shown at a position 0.0085 degrees to the
north-east of it, where nothing is shown, but is at a position 0.0198 degrees to the south-west of it. -/
theorem C125_counterexample : ∃ (w : World) (grid : UnstructuredGrid) (st : RunStep) (G : LatLonValueGrid Fl),
    Swiss.readHorConst w "hor".toList = .ok grid ∧ Constants w "hor".toList latMsg lonMsg 4 ∧
    (∃ more, Delivers w st.url (warmMsg :: more)) ∧ PointField warmMsg 4 ∧ Swiss.readGrid w grid id st = .ok G ∧
    position latMsg lonMsg 0 = some (46, 7) ∧ physical warmMsg 0 = some 280 ∧
    degrees (46, 7) (46006 / 1000, 7006 / 1000) ≤ 86 / 10000 ∧
    G.getValueByLatLon ⟨.fin (46006 / 1000), .fin (7006 / 1000)⟩ = .ok none ∧
    (197 / 10000 ≤ degrees (46, 7) (45986 / 1000, 6986 / 1000)) ∧
    ∃ v : Rat, |v - 280| ≤ 1 / 1000 ∧ G.getValueByLatLon ⟨.fin (45986 / 1000), .fin (6986 / 1000)⟩ = .ok (some (.fin v)) := by
  have hk : warmMsg.product.known := trivial
  have hc := swiss_constants warmMsg_ok hk "hor".toList
  have hd := swiss_delivers warmMsg_ok hk "b".toList
  obtain ⟨grid, hg⟩ := hor_read hc latMsg_full lonMsg_full
  obtain ⟨G, hG⟩ : ∃ G, Swiss.readGrid (swissWorld warmMsg) grid id ⟨1, "b".toList⟩ = .ok G := by
    obtain ⟨G, hG, -⟩ := single_read (placed hc hg) (swiss_single warmMsg_ok hk warmMsg_full "b".toList) (st := ⟨1, "b".toList⟩) id
    exact ⟨G, hG⟩
  have p : physical warmMsg 0 = some 280 := by decide +kernel
  have main := C125_lookup_partial (swissWorld warmMsg) "hor".toList grid hg latMsg lonMsg 4 hc ⟨1, "b".toList⟩ warmMsg _ hd
    warmMsg_full.toPointField G hG
  refine ⟨swissWorld warmMsg, grid, ⟨1, "b".toList⟩, G, hg, hc, ⟨_, hd⟩, warmMsg_full.toPointField, hG, demo_positions.1, p,
    ?_, ?_, ?_, ?_⟩
  · unfold degrees
    rw [Real.sqrt_le_left (by norm_num)]
    norm_num
  · obtain ⟨x, y, hl, -, h2⟩ := (main (46006 / 1000) (7006 / 1000)).2 (by
      unfold InChart Between; norm_num)
    obtain ⟨rfl, rfl⟩ := hl.cell (x0 := 782) (y0 := 398) (by norm_num) (by norm_num) (by norm_num) (by norm_num)
    obtain ⟨o, hs, -, h3, -⟩ := h2 (by norm_num)
    apply h3
    rw [(demo_west (by norm_num) hs).2 (by
      unfold degrees chartCell
      apply Real.le_sqrt_of_sq_le
      norm_num)]
    rfl
  · unfold degrees
    apply Real.le_sqrt_of_sq_le
    norm_num
  · obtain ⟨x, y, hl, -, h2⟩ := (main (45986 / 1000) (6986 / 1000)).2 (by
      unfold InChart Between; norm_num)
    obtain ⟨rfl, rfl⟩ := hl.cell (x0 := 780) (y0 := 396) (by norm_num) (by norm_num) (by norm_num) (by norm_num)
    obtain ⟨o, hs, -, -, h3⟩ := h2 (by norm_num)
    obtain rfl := (demo_west (by norm_num) hs).1 (by
      unfold degrees chartCell
      rw [Real.sqrt_le_left (by norm_num)]
      norm_num)
    obtain ⟨v, v1, v2⟩ := h3 280 p
    have v1 : |v - 280| ≤ 1 / 1000 := v1.trans (by norm_num)
    refine ⟨v, v1, ?_⟩
    rw [v2, if_neg]
    rintro rfl
    norm_num at v1

/-! ## Tiles -/

/-- A tile of zoom level 8 and a pixel of it near a place of the area. -/
theorem swiss_place {m : Libm} (hm : AccurateRow m) {lat0 lon0 : Rat} (h1 : 43 ≤ lat0) (h2 : lat0 ≤ 50) (h3 : 0 ≤ lon0)
    (h4 : lon0 ≤ 17) : ∃ t : MapTileCoord, Needed m swissGrid.extent FcModel.iconCh1.zoomRange t ∧
      t.x < 2 ^ t.zoom ∧ t.y < 2 ^ t.zoom ∧ ∃ i j : Nat, i < 256 ∧ j < 256 ∧
        |pixelLon t.x t.zoom j - lon0| ≤ 1 / 100 ∧ ∀ lat : Rat,
          |(lat : ℝ) - mercatorLat (t.y + i / 256) t.zoom| ≤ 1 / 200 + 300 / 4 ^ t.zoom → |lat - lat0| ≤ 2 / 100 := by
  obtain ⟨t, hz, hn, hx, hy, i, j, hi, hj, e1, e2⟩ := C122_place m hm (1377239 / 32768) (-13589545 / 16777216) (101 / 2)
    (4639949 / 262144) lat0 lon0 (by norm_num) (by linarith) (by linarith) (by norm_num)
    (by norm_num) (by linarith) (by linarith) (by norm_num) FcModel.iconCh1.zoomRange 8 (by decide) (by decide) (by norm_num)
  refine ⟨t, hn, by rw [hz]; exact hx, by rw [hz]; exact hy, i, j, hi, hj, ?_, fun lat hl => ?_⟩
  · rw [hz]
    exact e1.trans (by norm_num)
  · rw [hz] at hl
    have e2 := abs_le.mp e2
    have hl := abs_le.mp hl
    have : |(lat : ℝ) - lat0| ≤ 2 / 100 := by
      rw [abs_le]
      norm_num at *
      constructor <;> linarith [e2.1, e2.2, hl.1, hl.2]
    have h : (((|lat - lat0| : Rat)) : ℝ) ≤ ((2 / 100 : Rat) : ℝ) := by
      rw [Rat.cast_abs]; push_cast; exact this
    exact_mod_cast h

/-- South of 45 degrees no point of the demonstration is shown in the west. -/
theorem demo_empty {x y : Nat} (hx : x ≤ 830) (hy : y ≤ 290) {o : Option Nat}
    (h : Spec.Shows (position latMsg lonMsg) 4 x y o) : o = none := by
  refine (demo_west hx h).2 ?_
  unfold degrees chartCell
  apply Real.le_sqrt_of_sq_le
  have hy' : (y : Rat) ≤ 290 := by exact_mod_cast hy
  have h2 : (1 / 2 : Rat) ≤ 46 - (4203 / 100 + ((y : Rat) + 1 / 2) / 100) := by linarith
  have h3 := mul_le_mul h2 h2 (by norm_num) (by linarith)
  rw [← sq] at h3
  have : (1 / 4 : Rat) ≤ (46 - (4203 / 100 + ((y : Rat) + 1 / 2) / 100)) ^ 2 +
      (7 - (-81 / 100 + ((x : Rat) + 1 / 2) / 100)) ^ 2 := by
    have := sq_nonneg (7 - (-81 / 100 + ((x : Rat) + 1 / 2) / 100))
    linarith
  have := (Rat.cast_le (K := Real)).mpr this
  push_cast at this ⊢
  linarith

theorem Looked.empty {a b : Rat} {x y : Nat} (h : Looked a b x y) (ha : a ≤ 447 / 10) (hb : b ≤ 7) : x ≤ 830 ∧ y ≤ 290 := by
  unfold Looked chartCell at h
  simp only at h
  obtain ⟨l1, l2, l3, l4⟩ := h
  have a1 : (x : Rat) < 831 := by linarith
  have a3 : (y : Rat) < 291 := by linarith
  have a1 : x < 831 := by exact_mod_cast a1
  have a3 : y < 291 := by exact_mod_cast a3
  omega

/-- The hypotheses of C126 can be met; a pixel near 44.5 N 5 E, where there is no point, is transparent. -/
example (dirs : Text → Bool) (before : Tree) : ∃ m grid tr run,
    Swiss.renderRun m (swissWorld warmMsg) demoService demoCalendar dirs [] [] grid "vert".toList demoTime tr .done ∧
    ∃ (t : MapTileCoord) (d : Drawable) (i j : Nat),
      before.write tr (tilePath (outputPath run 1 .temp2m) t) = some (.picture d) ∧
      |pixelLon t.x t.zoom j - 5| ≤ 1 / 100 ∧ d.pixel j i = some Color.transparent := by
  obtain ⟨m, hacc, hm⟩ := exists_both
  have hk : warmMsg.product.known := trivial
  obtain ⟨grid, tr, hg, ht⟩ := swiss_demo warmMsg_ok hk warmMsg_full hm dirs [] []
  obtain ⟨steps, hs, h1, -⟩ := demo_steps .t2m false
  obtain ⟨run, e, point, hsh, main⟩ := C126_temperature_tiles m hacc _ _ _ dirs [] [] "hor".toList "vert".toList grid demoTime
    tr ht hg latMsg lonMsg 4 (swiss_constants warmMsg_ok hk _) (.inl rfl) steps hs _ h1 (.inl rfl) warmMsg _
    (swiss_delivers warmMsg_ok hk _) warmMsg_full.toPointField before
  refine ⟨m, grid, tr, run, ht, ?_⟩
  obtain ⟨t, hn, hx, hy, i, j, hi, hj, e1, e2⟩ := swiss_place hm (lat0 := 445 / 10) (lon0 := 5) (by norm_num) (by norm_num)
    (by norm_num) (by norm_num)
  rw [← forecastRun_model e] at hn
  obtain ⟨d, h1, -, -, h2⟩ := main t hn hx hy
  obtain ⟨a, ha, h3⟩ := h2 i hi
  obtain ⟨px, hpx, -, h4⟩ := h3 j hj
  refine ⟨t, d, i, j, h1, e1, ?_⟩
  have e1 := abs_le.mp e1
  have e2 := abs_le.mp (e2 a ha)
  obtain ⟨x, y, hl, -, h5⟩ := h4 ⟨by linarith [e2.1], by linarith [e2.2], by linarith [e1.1], by linarith [e1.2]⟩
  obtain ⟨l1, l2⟩ := hl.empty (by linarith [e2.2]) (by linarith [e1.2])
  rw [hpx, (h5 ⟨by omega, by omega⟩).1 (by rw [demo_empty l1 l2 (hsh x y (by omega) (by omega))]; rfl)]

theorem empty_position {G : LatLonValueGrid Fl} (hf : Filled G 1851 847)
    (h : ∀ x y, x < 1851 → y < 847 → cell G 1851 x y = none) (p : LatLon) : G.getValueByLatLon p = .ok none := by
  unfold LatLonValueGrid.getValueByLatLon
  split
  · rfl
  · next x0 y0 _ =>
    by_cases hxy : Fl.toUSize (Fl.round x0) < 1851 ∧ Fl.toUSize (Fl.round y0) < 847
    · rw [hf.get hxy.1 hxy.2, h _ _ hxy.1 hxy.2]
    · exact (C19_lookup G _ _ hf.dims hf.small hf.length _ _).2 hxy

/-- C127 is false: a wind of -1 m/s from both directions is published for all points, one of which is at 46 N 7 E, and is the
one shown in the cell there; but all pixels of all tiles are transparent. -/
theorem C127_counterexample (dirs : Text → Bool) (before : Tree) : ∃ m grid tr run us vs st stv,
    Swiss.renderRun m (swissWorld minusMsg) demoService demoCalendar dirs [] [] grid "vert".toList demoTime tr .done ∧
    Swiss.forecastRun demoCalendar demoTime = .ok run ∧
    Swiss.steps demoService demoTime .u10m false = .ok us ∧ Swiss.steps demoService demoTime .v10m false = .ok vs ∧
    st ∈ us ∧ stv ∈ vs ∧ stv.nr = st.nr ∧ (∃ more, Delivers (swissWorld minusMsg) st.url (minusMsg :: more)) ∧
    (∃ more, Delivers (swissWorld minusMsg) stv.url (minusMsg :: more)) ∧ FullField minusMsg 4 ∧
    (∀ i < 4, physical minusMsg i = some (-1)) ∧ position latMsg lonMsg 0 = some (46, 7) ∧
    (∀ o, Spec.Shows (position latMsg lonMsg) 4 781 397 o → o = some 0) ∧
    (∃ t, Needed m swissGrid.extent run.model.zoomRange t ∧ t.x < 2 ^ t.zoom ∧ t.y < 2 ^ t.zoom) ∧
    ∀ t : MapTileCoord, Needed m swissGrid.extent run.model.zoomRange t → t.x < 2 ^ t.zoom → t.y < 2 ^ t.zoom →
      ∃ d, before.write tr (tilePath (outputPath run st.nr .wind10m) t) = some (.picture d) ∧
        ∀ i j : Nat, i < 256 → j < 256 → d.pixel j i = some Color.transparent := by
  obtain ⟨m, hacc, hm⟩ := exists_both
  have hk : minusMsg.product.known := trivial
  have hd := swiss_delivers minusMsg_ok hk
  obtain ⟨grid, tr, hg, ht⟩ := swiss_demo minusMsg_ok hk minusMsg_full hm dirs [] []
  obtain ⟨us, hu, u1, -⟩ := demo_steps .u10m false
  obtain ⟨vs, hv, v1, -⟩ := demo_steps .v10m false
  obtain ⟨gs, hgs, -, -⟩ := demo_steps .vmax10m false
  have hp := placed (swiss_constants minusMsg_ok hk _) hg
  obtain ⟨run, l, e, hl, hdr, hfile⟩ := bin_of_swiss (v := .wind10m) ht (.inl rfl) (by simp) hu u1 (.inl rfl)
  simp only [swissLayers, hu, hv, hgs, Res.bind_ok, Res.bind_eq_ok, Res.ok.injEq] at hl
  obtain ⟨L, hL, rfl⟩ := hl
  unfold Swiss.readWind at hL
  obtain ⟨su, _, hL⟩ := bind_ok' hL
  obtain ⟨_, _, hL⟩ := bind_ok' hL
  obtain ⟨_, _, hL⟩ := bind_ok' hL
  obtain ⟨U, hU, hL⟩ := bind_ok' hL
  obtain ⟨V, hV, hL⟩ := bind_ok' hL
  obtain ⟨G, hG, hL⟩ := bind_ok' hL
  obtain rfl := wind_new hL
  obtain ⟨fu, cu⟩ := minus_grid hp hU
  obtain ⟨fv, cv⟩ := minus_grid hp hV
  refine ⟨m, grid, tr, run, us, vs, _, _, ht, e, hu, hv, u1, v1, rfl, ⟨_, hd _⟩, ⟨_, hd _⟩, minusMsg_full,
    by decide +kernel, demo_positions.1, fun o => demo_shown, ?_, fun t hn hx hy => ?_⟩
  · obtain ⟨t, hn, hx, hy, -⟩ := swiss_place hm (lat0 := 46) (lon0 := 7) (by norm_num) (by norm_num) (by norm_num) (by norm_num)
    rw [← forecastRun_model e] at hn
    exact ⟨t, hn, hx, hy⟩
  · have ht' : Needed m U.grid.extent run.model.zoomRange t := by
      rw [read_grid hp (hd su.url) hU]; exact hn
    obtain ⟨d, hd⟩ := hdr.1 t ht'
    have htot : ∀ p, (windChart ⟨U, V, some G⟩).color p = .ok none := by
      intro p
      unfold windChart WindLayer.getSpeedByLatLon WindLayer.getWindByLatLon
      simp only
      rw [empty_position fu cu p, empty_position fv cv p]
      rfl
    obtain ⟨-, -, w3⟩ := tile_pixels hacc (hn.2.1.trans (zoom_small _)) hx hy (fun p => ⟨_, htot p⟩) hd
    refine ⟨d, hfile before (.windTile t) _ (.windTile ht' hd), fun i j hi hj => ?_⟩
    obtain ⟨a, -, hpx⟩ := w3 i hi
    obtain ⟨o, ho, hpix⟩ := hpx j hj
    rw [htot] at ho
    cases ho
    exact hpix

/-- The hypotheses of C127 can be met; a pixel near 44.5 N 5 E, where there is no point, is transparent. -/
example (dirs : Text → Bool) (before : Tree) : ∃ m grid tr run,
    Swiss.renderRun m (swissWorld breezeMsg) demoService demoCalendar dirs [] [] grid "vert".toList demoTime tr .done ∧
    ∃ (t : MapTileCoord) (d : Drawable) (i j : Nat),
      before.write tr (tilePath (outputPath run 1 .wind10m) t) = some (.picture d) ∧
      |pixelLon t.x t.zoom j - 5| ≤ 1 / 100 ∧ d.pixel j i = some Color.transparent := by
  obtain ⟨m, hacc, hm⟩ := exists_both
  have hk : breezeMsg.product.known := trivial
  have hd := swiss_delivers breezeMsg_ok hk
  have hf := breezeMsg_full.toPointField
  obtain ⟨grid, tr, hg, ht⟩ := swiss_demo breezeMsg_ok hk breezeMsg_full hm dirs [] []
  obtain ⟨us, hu, u1, -⟩ := demo_steps .u10m false
  obtain ⟨vs, hv, v1, -⟩ := demo_steps .v10m false
  obtain ⟨gs, hgs, g1, -⟩ := demo_steps .vmax10m false
  obtain ⟨run, e, point, hsh, main⟩ := C127_wind_tiles_partial m hacc _ _ _ dirs [] [] "hor".toList "vert".toList grid demoTime
    tr ht hg latMsg lonMsg 4 (swiss_constants breezeMsg_ok hk _) (.inl rfl) us vs gs hu hv hgs _ _ _ u1 v1 g1 rfl rfl (.inl rfl)
    breezeMsg breezeMsg _ _ (hd _) hf (hd _) hf before
  refine ⟨m, grid, tr, run, ht, ?_⟩
  obtain ⟨t, hn, hx, hy, i, j, hi, hj, e1, e2⟩ := swiss_place hm (lat0 := 445 / 10) (lon0 := 5) (by norm_num) (by norm_num)
    (by norm_num) (by norm_num)
  rw [← forecastRun_model e] at hn
  obtain ⟨d, h1, -, -, h2⟩ := main t hn hx hy
  obtain ⟨a, ha, h3⟩ := h2 i hi
  obtain ⟨px, hpx, -, h4⟩ := h3 j hj
  refine ⟨t, d, i, j, h1, e1, ?_⟩
  have e1 := abs_le.mp e1
  have e2 := abs_le.mp (e2 a ha)
  obtain ⟨x, y, hl, -, h5⟩ := h4 ⟨by linarith [e2.1], by linarith [e2.2], by linarith [e1.1], by linarith [e1.2]⟩
  obtain ⟨l1, l2⟩ := hl.empty (by linarith [e2.2]) (by linarith [e1.2])
  rw [hpx, (h5 ⟨by omega, by omega⟩).1 (.inl (by rw [demo_empty l1 l2 (hsh x y (by omega) (by omega))]; rfl))]

/-- C128 is false: a pixel near 44.5 N 5 E shows a clear sky without rain, though no data is published for any point within a
degree of this place. -/
theorem C128_counterexample (dirs : Text → Bool) (before : Tree) : ∃ m grid tr run,
    Swiss.renderRun m (swissWorld galeMsg) demoService demoCalendar dirs [] [] grid "vert".toList demoTime tr .done ∧
    Constants (swissWorld galeMsg) "hor".toList latMsg lonMsg 4 ∧
    Swiss.readHorConst (swissWorld galeMsg) "hor".toList = .ok grid ∧
    (∀ k q, k < 4 → position latMsg lonMsg k = some q → (1 : Real) ≤ degrees q (445 / 10, 5)) ∧
    ∃ (t : MapTileCoord) (d : Drawable) (i j : Nat),
      before.write tr (tilePath (outputPath run 1 .cloudPrecip) t) = some (.picture d) ∧
      |pixelLon t.x t.zoom j - 5| ≤ 1 / 100 ∧
      (∀ a : Rat, |(a : ℝ) - mercatorLat (t.y + i / 256) t.zoom| ≤ 1 / 200 + 300 / 4 ^ t.zoom → |a - 445 / 10| ≤ 2 / 100) ∧
      d.pixel j i = some clearSky := by
  obtain ⟨m, hacc, hm⟩ := exists_both
  have hk : galeMsg.product.known := trivial
  have hd := swiss_delivers galeMsg_ok hk
  have hf := galeMsg_full.toPointField
  have hc := swiss_constants galeMsg_ok hk "hor".toList
  have p4 : ∀ i < 4, physical galeMsg i = some 50 := by decide +kernel
  have bd : ∀ (B : Rat), 50 ≤ B → ∀ i q, i < 4 → physical galeMsg i = some q → 0 ≤ q ∧ q ≤ B := by
    intro B hB i q hi hq
    rw [p4 i hi] at hq
    cases hq
    exact ⟨by norm_num, hB⟩
  obtain ⟨grid, tr, hg, ht⟩ := swiss_demo galeMsg_ok hk galeMsg_full hm dirs [] []
  obtain ⟨steps, hs, h1, -⟩ := demo_steps .clct true
  obtain ⟨totals, hs', g1, g0⟩ := demo_steps .totPrec false
  obtain ⟨run, e, point, hsh, main⟩ := C128_cloud_precip_tiles_partial m hacc _ _ _ dirs [] [] "hor".toList "vert".toList grid
    demoTime tr ht hg latMsg lonMsg 4 hc (.inl rfl) steps totals hs hs' _ _ _ h1 (g0 rfl) g1 rfl rfl (.inl rfl)
    galeMsg galeMsg galeMsg _ _ _ (hd _) hf (hd _) hf (hd _) hf (bd 100 (by norm_num)) (bd 1000 (by norm_num))
    (bd 1000 (by norm_num)) before
  refine ⟨m, grid, tr, run, ht, hc, hg, ?_, ?_⟩
  · obtain ⟨p0, p1, p2, p3⟩ := demo_positions
    intro k q hk hq
    interval_cases k
    · rw [p0] at hq; cases hq
      unfold degrees; apply Real.le_sqrt_of_sq_le; norm_num
    · rw [p1] at hq; cases hq
    · rw [p2] at hq; cases hq
      unfold degrees; apply Real.le_sqrt_of_sq_le; norm_num
    · rw [p3] at hq; cases hq
      unfold degrees; apply Real.le_sqrt_of_sq_le; norm_num
  obtain ⟨t, hn, hx, hy, i, j, hi, hj, e1, e2⟩ := swiss_place hm (lat0 := 445 / 10) (lon0 := 5) (by norm_num) (by norm_num)
    (by norm_num) (by norm_num)
  rw [← forecastRun_model e] at hn
  obtain ⟨d, h1, -, -, h2⟩ := main t hn hx hy
  obtain ⟨a, ha, h3⟩ := h2 i hi
  obtain ⟨px, hpx, -, h4⟩ := h3 j hj
  refine ⟨t, d, i, j, h1, e1, e2, ?_⟩
  have e1 := abs_le.mp e1
  have e2 := abs_le.mp (e2 a ha)
  obtain ⟨fx, fy, ⟨x0, y0, hfx, hfy⟩, h5⟩ :=
    h4 ⟨by linarith [e2.1], by linarith [e2.2], by linarith [e1.1], by linarith [e1.2]⟩
  have hfx := abs_le.mp hfx
  have hfy := abs_le.mp hfy
  have fl : ∀ {f : Rat} {B : Nat}, 0 ≤ f → f < B → ⌊f⌋.toNat < B := by
    intro f B h0 h1
    have h2 : ⌊f⌋ < (B : Int) := by
      rw [Int.floor_lt]
      exact_mod_cast h1
    have h3 : 0 ≤ ⌊f⌋ := Int.floor_nonneg.mpr h0
    omega
  have cx : ⌊fx⌋.toNat < 800 := fl x0 (by push_cast; linarith [hfx.2, e1.2])
  have cy : ⌊fy⌋.toNat < 270 := fl y0 (by push_cast; linarith [hfy.2, e2.2])
  have hnone : ∀ P : Nat → Option Rat, sampled (fun x y => (point x y).bind P) 1851 847 fx fy = none := by
    intro P
    unfold sampled
    simp only
    rw [if_pos (show ⌊fx⌋.toNat < 1851 ∧ ⌊fy⌋.toNat < 847 by omega),
      demo_empty (by omega) (by omega) (hsh ⌊fx⌋.toNat ⌊fy⌋.toNat (by omega) (by omega))]
    simp
  have hnone' : sampled (fun x y => ((point x y).bind (physical galeMsg)).map (· / 100)) 1851 847 fx fy = none := by
    have := hnone fun k => (physical galeMsg k).map (· / 100)
    simpa only [Option.map_bind, Function.comp_def] using this
  rw [hpx, h5.2 hnone' (hnone _) (hnone _)]

end Verif.Props
