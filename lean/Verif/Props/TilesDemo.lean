import Verif.Props.CloudTiles
import Verif.Props.EndToEndDemo
import Verif.Props.DwdSuccess

/-!
# Tiles of runs that succeed: the hypotheses of C118-C122 can be met, and where C118, C120, C121 fail
-/

namespace Verif.Props

open Verif MapTileRenderer MapTileCoord Dwd Colors
open Verif.Spec (Filled cell spacing Accurate AccurateRow mercatorLat tempColors tempClass)
open Verif.Spec.Grib2 (Msg encode F32Word)

/-- There are functions accurate enough for all theorems about tiles. -/
theorem exists_both : ∃ m, Accurate m ∧ AccurateRow m := by
  obtain ⟨m1, h1⟩ := Verif.Spec.exists_accurate
  obtain ⟨m2, h2⟩ := Verif.Spec.exists_accurateRow
  exact ⟨⟨m2.tan, m2.cos, m2.ln, m1.sinh, m1.atan⟩, ⟨h1.1, h1.2⟩, ⟨h2.1, h2.2, h2.3⟩⟩

theorem fieldMsg_points (ref : F32Word) (bitmap : List UInt8) (data : List Nat) :
    PointGrid (fieldMsg ref bitmap data).doc 43 5 45 7 2 2 := by
  obtain ⟨t, ht, t1, t2, t3, t4, t5, t6⟩ := fieldMsg_template ref bitmap data
  obtain ⟨n1, n2, n3, n4⟩ := demo_normal
  refine ⟨⟨t, ht, t1, t2, ?_, ?_⟩, ?_, ?_⟩
  · unfold LatLon.new
    rw [t3, t4, n1, n2]
  · unfold LatLon.new
    rw [t5, t6, n3, n4]
  · refine ⟨?_, ?_, ?_, ?_, ?_⟩ <;> norm_num [spacing]
  · refine ⟨?_, ?_, ?_, ?_, ?_⟩ <;> norm_num [spacing]

/-- A run of ICON-D2 for one variable and hour 3 with a server that delivers the same message for every file. -/
theorem demo_single {m : Libm} (hm : AccurateRow m) {msg : Msg} (ok : msg.ok) (hk : msg.product.known)
    (ha : FullArea msg demoArea 2 2) (v : LayerType) (h1 : v ≠ .verticalCloud) (h2 : v ≠ .verticalWind)
    (hc : v = .cloudPrecip → Codes msg) (dirs : Text → Bool) :
    ∃ tr, Dwd.renderRun m (constWorld msg) dirs [v.name] [3] demoRun tr .done := by
  refine (C105_run m hm (constWorld msg) dirs [v.name] [3] demoRun demoRun_dwd demoArea demoArea_valid 2 2 ?_ ?_).1
  · intro v' hv s _ _ r hr
    have := chosen_single hv
    subst this
    refine ⟨msg, constWorld_publishes ok hk demoRun_dwd r, ha, ?_⟩
    rintro n rfl
    cases v' with
    | cloudPrecip => exact hc rfl
    | wind10m => simp [Uses] at hr
    | temp2m => simp [Uses] at hr
    | verticalCloud => exact absurd rfl h1
    | verticalWind => exact absurd rfl h2
    | weather => exact hr.elim
  · rintro (h | h)
    · exact absurd (chosen_single h).symm h1
    · exact absurd (chosen_single h).symm h2

/-- A tile of zoom level 7 and a pixel of it near a place of the demonstration area. -/
theorem demo_place {m : Libm} (hm : AccurateRow m) {lat0 lon0 : Rat} (h1 : 43 ≤ lat0) (h2 : lat0 ≤ 45) (h3 : 5 ≤ lon0)
    (h4 : lon0 ≤ 7) : ∃ t : MapTileCoord, Needed m (finExtent 43 5 45 7) demoRun.model.zoomRange t ∧
      t.zoom = 7 ∧ t.x < 2 ^ t.zoom ∧ t.y < 2 ^ t.zoom ∧ ∃ i j : Nat, i < 256 ∧ j < 256 ∧
        |pixelLon t.x t.zoom j - lon0| ≤ 2 / 100 ∧ |mercatorLat (t.y + i / 256) t.zoom - lat0| ≤ 2 / 100 ∧ ∀ lat : Rat,
          |(lat : ℝ) - mercatorLat (t.y + i / 256) t.zoom| ≤ 1 / 200 + 300 / 4 ^ t.zoom → |lat - lat0| ≤ 4 / 100 := by
  obtain ⟨t, hz, hn, hx, hy, i, j, hi, hj, e1, e2⟩ := C122_place m hm 43 5 45 7 lat0 lon0 (by norm_num) h1 h2 (by norm_num)
    (by norm_num) h3 h4 (by norm_num) demoRun.model.zoomRange 7 (by decide) (by decide) (by norm_num)
  refine ⟨t, hn, hz, by rw [hz]; exact hx, by rw [hz]; exact hy, i, j, hi, hj, ?_, ?_, fun lat hl => ?_⟩
  · rw [hz]
    exact e1.trans (by norm_num)
  · rw [hz]
    exact e2.trans (by norm_num)
  · rw [hz] at hl
    have e2 := abs_le.mp e2
    have hl := abs_le.mp hl
    have : |(lat : ℝ) - lat0| ≤ 4 / 100 := by
      rw [abs_le]
      norm_num at *
      constructor <;> linarith [e2.1, e2.2, hl.1, hl.2]
    have h : (((|lat - lat0| : Rat)) : ℝ) ≤ ((4 / 100 : Rat) : ℝ) := by
      rw [Rat.cast_abs]; push_cast; exact this
    exact_mod_cast h

/-! ## C119 -/

theorem warmMsg_field : Field warmMsg 2 2 := fieldMsg_field (r := 0) (by decide +kernel) (by norm_num) (by decide)

/-- A tile of the demonstration run has a pixel near 43.3 N 5.3 E that shows the published 280 K of the point at 43 N 5 E,
and one near 43.3 N 6 E, next to the point without temperature, that is transparent. -/
example (dirs : Text → Bool) (before : Tree) : ∃ m tr,
    Dwd.renderRun m (constWorld warmMsg) dirs [LayerType.temp2m.name] [3] demoRun tr .done ∧
    (∃ (t : MapTileCoord) (d : Drawable) (i j : Nat) (px : Color),
      before.write tr (tilePath (outputPath demoRun 3 .temp2m) t) = some (.picture d) ∧ d.pixel j i = some px ∧
      |pixelLon t.x t.zoom j - 53 / 10| ≤ 2 / 100 ∧ TempShown (some 280) px) ∧
    ∃ (t : MapTileCoord) (d : Drawable) (i j : Nat),
      before.write tr (tilePath (outputPath demoRun 3 .temp2m) t) = some (.picture d) ∧
      |pixelLon t.x t.zoom j - 6| ≤ 2 / 100 ∧ d.pixel j i = some Color.transparent := by
  obtain ⟨m, hacc, hm⟩ := exists_both
  obtain ⟨tr, h⟩ := demo_single hm warmMsg_ok trivial ⟨warmMsg_field, by rintro g ⟨⟩; exact ⟨rfl, rfl, rfl, rfl⟩,
    .inr (by decide), by decide⟩ .temp2m (by simp) (by simp) (by simp) dirs
  refine ⟨m, tr, h, ?_⟩
  have main := C119_temperature_tiles m hacc (constWorld warmMsg) dirs _ _ demoRun demoRun_dwd demoRun_name tr h
    (.inr (by simp)) _ step3 (.inr (by simp)) warmMsg 2 2 (constWorld_publishes warmMsg_ok trivial demoRun_dwd _)
    warmMsg_field 43 5 45 7 (fieldMsg_points _ _ _) before
  constructor
  · obtain ⟨t, hn, hz, hx, hy, i, j, hi, hj, e1, e0, e2⟩ := demo_place hm (lat0 := 433 / 10) (lon0 := 53 / 10) (by norm_num)
      (by norm_num) (by norm_num) (by norm_num)
    obtain ⟨d, h1, -, -, h2⟩ := main t hn hx hy
    obtain ⟨lat, hlat, h3⟩ := h2 i hi
    obtain ⟨px, hpx, -, h4⟩ := h3 j hj
    refine ⟨t, d, i, j, px, h1, hpx, e1, ?_⟩
    have e1 := abs_le.mp e1
    have e2 := abs_le.mp (e2 lat hlat)
    obtain ⟨x, y, hp, h5, -⟩ := h4 ⟨by linarith [e2.1], by linarith [e2.2], by linarith [e1.1], by linarith [e1.2]⟩
    unfold Picked spacing at hp
    rw [abs_le, abs_le] at hp
    norm_num at hp
    have hx0 : x = 0 := by
      have : (x : Rat) < 1 := by linarith [hp.1.2, e1.2]
      exact_mod_cast Nat.lt_one_iff.mp (by exact_mod_cast this)
    have hy0 : y = 0 := by
      have : (y : Rat) < 1 := by linarith [hp.2.2, e2.2]
      exact_mod_cast Nat.lt_one_iff.mp (by exact_mod_cast this)
    subst hx0 hy0
    have := h5 ⟨by norm_num, by norm_num⟩
    have e : physical warmMsg (0 * 2 + 0) = some 280 := by decide +kernel
    rwa [e] at this
  · obtain ⟨t, hn, hz, hx, hy, i, j, hi, hj, e1, e0, e2⟩ := demo_place hm (lat0 := 433 / 10) (lon0 := 6) (by norm_num)
      (by norm_num) (by norm_num) (by norm_num)
    obtain ⟨d, h1, -, -, h2⟩ := main t hn hx hy
    obtain ⟨lat, hlat, h3⟩ := h2 i hi
    obtain ⟨px, hpx, -, h4⟩ := h3 j hj
    refine ⟨t, d, i, j, h1, e1, ?_⟩
    have e1 := abs_le.mp e1
    have e2 := abs_le.mp (e2 lat hlat)
    obtain ⟨x, y, hp, h5, -⟩ := h4 ⟨by linarith [e2.1], by linarith [e2.2], by linarith [e1.1], by linarith [e1.2]⟩
    unfold Picked spacing at hp
    rw [abs_le, abs_le] at hp
    norm_num at hp
    have hx0 : x = 1 := by
      have a : (x : Rat) < 2 := by linarith [hp.1.2, e1.2]
      have b : (0 : Rat) < x := by linarith [hp.1.1, e1.1]
      have a : x < 2 := by exact_mod_cast a
      have b : 0 < x := by exact_mod_cast b
      omega
    have hy0 : y = 0 := by
      have : (y : Rat) < 1 := by linarith [hp.2.2, e2.2]
      exact_mod_cast Nat.lt_one_iff.mp (by exact_mod_cast this)
    subst hx0 hy0
    have := h5 ⟨by norm_num, by norm_num⟩
    have e : physical warmMsg (0 * 2 + 1) = none := by decide +kernel
    rw [e] at this
    rw [hpx, this.1 rfl]

/-! ## C120 -/

/-- A tile of the demonstration run has a pixel near 43.3 N 6 E that shows the wind of the point at 43 N 7 E. -/
example (dirs : Text → Bool) (before : Tree) : ∃ m tr,
    Dwd.renderRun m (constWorld windMsg) dirs [LayerType.wind10m.name] [3] demoRun tr .done ∧
    ∃ (t : MapTileCoord) (d : Drawable) (i j : Nat) (px : Color),
      before.write tr (tilePath (outputPath demoRun 3 .wind10m) t) = some (.picture d) ∧ d.pixel j i = some px ∧
      |pixelLon t.x t.zoom j - 6| ≤ 2 / 100 ∧ WindShown (some 5) (some 5) px := by
  obtain ⟨m, hacc, hm⟩ := exists_both
  obtain ⟨tr, h⟩ := demo_single hm windMsg_ok trivial ⟨windMsg_field, by rintro g ⟨⟩; exact ⟨rfl, rfl, rfl, rfl⟩,
    .inl rfl, by decide⟩ .wind10m (by simp) (by simp) (by simp) dirs
  refine ⟨m, tr, h, ?_⟩
  have pub := constWorld_publishes windMsg_ok trivial demoRun_dwd
  obtain ⟨t, hn, hz, hx, hy, i, j, hi, hj, e1, e0, e2⟩ := demo_place hm (lat0 := 433 / 10) (lon0 := 6) (by norm_num)
    (by norm_num) (by norm_num) (by norm_num)
  obtain ⟨d, h1, -, -, h2⟩ := C120_wind_tiles_partial m hacc (constWorld windMsg) dirs _ _ demoRun demoRun_dwd demoRun_name tr h
    (.inr (by simp)) _ step3 (.inr (by simp)) windMsg windMsg 2 2 (pub _) windMsg_field (pub _)
    windMsg_field 43 5 45 7 (fieldMsg_points _ _ _) (fieldMsg_points _ _ _) before t hn hx hy
  obtain ⟨lat, hlat, h3⟩ := h2 i hi
  obtain ⟨px, hpx, -, h4⟩ := h3 j hj
  refine ⟨t, d, i, j, px, h1, hpx, e1, ?_⟩
  have e1 := abs_le.mp e1
  have e2 := abs_le.mp (e2 lat hlat)
  obtain ⟨x, y, hp, h5, -⟩ := h4 ⟨by linarith [e2.1], by linarith [e2.2], by linarith [e1.1], by linarith [e1.2]⟩
  unfold Picked spacing at hp
  rw [abs_le, abs_le] at hp
  norm_num at hp
  have hx0 : x = 1 := by
    have a : (x : Rat) < 2 := by linarith [hp.1.2, e1.2]
    have b : (0 : Rat) < x := by linarith [hp.1.1, e1.1]
    have a : x < 2 := by exact_mod_cast a
    have b : 0 < x := by exact_mod_cast b
    omega
  have hy0 : y = 0 := by
    have : (y : Rat) < 1 := by linarith [hp.2.2, e2.2]
    exact_mod_cast Nat.lt_one_iff.mp (by exact_mod_cast this)
  subst hx0 hy0
  have := h5 ⟨by norm_num, by norm_num⟩
  have e : physical windMsg (0 * 2 + 1) = some 5 := by decide +kernel
  rwa [e] at this

/-- The number -1 at all points. -/
def southwestMsg : Msg := fieldMsg ⟨true, 127, 0⟩ [] [0, 0, 0, 0]

theorem southwestMsg_ok : southwestMsg.ok := fieldMsg_ok ⟨by decide, by decide⟩ (by decide) (by decide) (by decide)

theorem southwestMsg_field : Field southwestMsg 2 2 := fieldMsg_field (r := -1) (by decide +kernel) (by norm_num) (by decide)

theorem southwest_grid (x : SingleVar) (n : Nat) :
    dwdGrid (constWorld southwestMsg) demoRun x n = .ok (fieldGrid [.fin (-1), .fin (-1), .fin (-1), .fin (-1)] (.fin (-1))) :=
  (constWorld_read southwestMsg_ok trivial demoRun_dwd (.single x n) _ _).trans (fieldMsg_grid (by decide +kernel))

/-- A grid that holds nothing but the missing value has no value anywhere. -/
theorem southwest_none (p : LatLon) :
    (fieldGrid [Fl.fin (-1), .fin (-1), .fin (-1), .fin (-1)] (.fin (-1))).getValueByLatLon p = .ok none := by
  have fill : Filled (fieldGrid [Fl.fin (-1), .fin (-1), .fin (-1), .fin (-1)] (.fin (-1))) 2 2 := fieldGrid_filled _ rfl
  obtain ⟨⟨o, ho⟩, h⟩ := C20_inside _ 2 2 fill.dims fill.small fill.length p
  cases o with
  | none => exact ho
  | some v =>
    obtain ⟨_, _, x, y, _, _, _, hv, he, _⟩ := h v ho
    have hv := List.mem_of_getElem? hv
    have : v = .fin (-1) := by simpa [fieldGrid, LatLonValueGrid.new] using hv
    subst this
    have : GridValue.eq (Fl.fin (-1)) (Fl.fin (-1)) = false := he
    exact absurd this (by decide +kernel)

/-- C120 is false: where both components are -1 m/s, which is a wind of 1.4 m/s, no pixel of any tile shows it.  All tiles
are transparent in the whole area. -/
theorem C120_counterexample (dirs : Text → Bool) (before : Tree) : ∃ m tr, Accurate m ∧ AccurateRow m ∧
    Dwd.renderRun m (constWorld southwestMsg) dirs [LayerType.wind10m.name] [3] demoRun tr .done ∧
    (∀ r, Publishes (constWorld southwestMsg) demoRun r southwestMsg) ∧ Field southwestMsg 2 2 ∧
    PointGrid southwestMsg.doc 43 5 45 7 2 2 ∧ (∀ k < 4, physical southwestMsg k = some (-1)) ∧
    (∀ t : MapTileCoord, Needed m (finExtent 43 5 45 7) demoRun.model.zoomRange t → t.x < 2 ^ t.zoom → t.y < 2 ^ t.zoom →
      ∃ d, before.write tr (tilePath (outputPath demoRun 3 .wind10m) t) = some (.picture d) ∧
        ∀ i j : Nat, i < 256 → j < 256 → d.pixel j i = some Color.transparent) ∧
    ∃ t : MapTileCoord, Needed m (finExtent 43 5 45 7) demoRun.model.zoomRange t ∧ t.x < 2 ^ t.zoom ∧ t.y < 2 ^ t.zoom ∧
      ∃ i j : Nat, i < 256 ∧ j < 256 ∧ ∀ lat : Rat,
        |(lat : ℝ) - mercatorLat (t.y + i / 256) t.zoom| ≤ 1 / 200 + 300 / 4 ^ t.zoom →
          Between 43 5 45 7 lat (pixelLon t.x t.zoom j) := by
  obtain ⟨m, hacc, hm⟩ := exists_both
  obtain ⟨tr, h⟩ := demo_single hm southwestMsg_ok trivial ⟨southwestMsg_field, by rintro g ⟨⟩; exact ⟨rfl, rfl, rfl, rfl⟩,
    .inl rfl, by decide⟩ .wind10m (by simp) (by simp) (by simp) dirs
  have fill : Filled (fieldGrid [Fl.fin (-1), .fin (-1), .fin (-1), .fin (-1)] (.fin (-1))) 2 2 := fieldGrid_filled _ rfl
  refine ⟨m, tr, hacc, hm, h, constWorld_publishes southwestMsg_ok trivial demoRun_dwd, southwestMsg_field,
    fieldMsg_points _ _ _, by decide +kernel, ?_, ?_⟩
  · intro t hn hx hy
    obtain ⟨l, hl, hd, hfile⟩ := bin_of_run (v := .wind10m) demoRun_name h (.inr (by simp)) (by simp) step3 (.inr (by simp))
    simp only [dwdLayers, southwest_grid, Res.bind_ok] at hl
    rw [(C43_wind _ _ _).1.mpr ⟨demo_fit _ _ _ _, by rintro g ⟨⟩; exact demo_fit _ _ _ _⟩, Res.bind_ok] at hl
    cases hl
    obtain ⟨d, hd⟩ := hd.1 t hn
    refine ⟨d, hfile before (.windTile t) _ (.windTile hn hd), fun i j hi hj => ?_⟩
    obtain ⟨lat, -, hp⟩ := (C118_transparent_partial m hacc t (hn.2.1.trans (zoom_small _)) hx hy 43 5 45 7 2 2).2 _ d fill fill
      rfl hd i hi
    exact (hp j hj).mpr (.inr (.inl (southwest_none _)))
  · obtain ⟨t, hn, hz, hx, hy, i, j, hi, hj, e1, e0, e2⟩ := demo_place hm (lat0 := 44) (lon0 := 6) (by norm_num)
      (by norm_num) (by norm_num) (by norm_num)
    refine ⟨t, hn, hx, hy, i, j, hi, hj, fun lat hlat => ?_⟩
    have e1 := abs_le.mp e1
    have e2 := abs_le.mp (e2 lat hlat)
    exact ⟨by linarith [e2.1], by linarith [e2.2], by linarith [e1.1], by linarith [e1.2]⟩

/-! ## C118, C121 -/

/-- The number 1 at all points: overcast, weather code 1, and a total of 1 mm that does not change. -/
def overcastMsg : Msg := fieldMsg ⟨false, 0, 0⟩ [] [1, 1, 1, 1]

theorem overcastMsg_ok : overcastMsg.ok := fieldMsg_ok ⟨by decide, by decide⟩ (by decide) (by decide) (by decide)

theorem overcastMsg_field : Field overcastMsg 2 2 :=
  fieldMsg_field (r := 0) (by decide +kernel) (by norm_num) (by decide)

theorem overcast_one {k : Nat} {q : Rat} (h : physical overcastMsg k = some q) : q = 1 := by
  rw [physical_eq (r := 0) rfl (by decide +kernel)] at h
  split at h
  · obtain ⟨x, hx, rfl⟩ := Option.map_eq_some_iff.mp h
    have hx := List.mem_of_getElem? hx
    have hx : x ∈ [1, 1, 1, 1] := hx
    simp only [List.mem_cons, List.not_mem_nil, or_false, or_self] at hx
    subst hx
    decide +kernel
  · cases h

/-- The run with this message, and what C121 gives for it. -/
theorem overcast_run {m : Libm} (hacc : Accurate m) (hm : AccurateRow m) (dirs : Text → Bool) : ∃ tr,
    Dwd.renderRun m (constWorld overcastMsg) dirs [LayerType.cloudPrecip.name] [3] demoRun tr .done ∧
    ∀ (before : Tree) (t : MapTileCoord), Needed m (finExtent 43 5 45 7) demoRun.model.zoomRange t → t.x < 2 ^ t.zoom →
      t.y < 2 ^ t.zoom →
      ∃ d, before.write tr (tilePath (outputPath demoRun 3 .cloudPrecip) t) = some (.picture d) ∧
      ∀ i : Nat, i < 256 → ∃ lat : Rat, |(lat : ℝ) - mercatorLat (t.y + i / 256) t.zoom| ≤ 1 / 200 + 300 / 4 ^ t.zoom ∧
        ∀ j : Nat, j < 256 → ∃ px, d.pixel j i = some px ∧
          (¬ Between 43 5 45 7 lat (pixelLon t.x t.zoom j) → px = clearSky) ∧
          (Between 43 5 45 7 lat (pixelLon t.x t.zoom j) → ∃ fx fy : Rat,
            At 5 7 2 (pixelLon t.x t.zoom j) fx ∧ At 43 45 2 lat fy ∧
            CloudRainShown (sampled (fun x y => physical overcastMsg (y * 2 + x)) 2 2 fx fy)
              (sampled (fun x y => physical overcastMsg (y * 2 + x)) 2 2 fx fy)
              (sampled (fun x y => physical overcastMsg (y * 2 + x)) 2 2 fx fy) px) := by
  obtain ⟨tr, h⟩ := demo_single hm overcastMsg_ok trivial ⟨overcastMsg_field, by rintro g ⟨⟩; exact ⟨rfl, rfl, rfl, rfl⟩,
    .inl rfl, by decide⟩ .cloudPrecip (by simp) (by simp)
    (fun _ => ⟨⟨_, _, _, rfl⟩, fun i q hq => ⟨1, by decide, by rw [overcast_one hq]; decide +kernel⟩⟩) dirs
  refine ⟨tr, h, fun before t hn hx hy => ?_⟩
  have pub := constWorld_publishes overcastMsg_ok trivial demoRun_dwd
  obtain ⟨d, h1, -, -, h2⟩ := C121_cloud_precip_tiles_partial m hacc (constWorld overcastMsg) dirs _ _ demoRun demoRun_dwd
    demoRun_name tr h (.inr (by simp)) _ step3 (.inr (by simp)) overcastMsg overcastMsg overcastMsg 2 2 (pub _)
    overcastMsg_field (pub _) overcastMsg_field (pub _) overcastMsg_field 43 5 45 7 (fieldMsg_points _ _ _)
    (fieldMsg_points _ _ _) (fieldMsg_points _ _ _) (fun x y q _ _ hq => by rw [overcast_one hq]; norm_num)
    (fun x y q _ _ hq => by rw [overcast_one hq]; norm_num) (fun x y q _ _ hq => by rw [overcast_one hq]; norm_num)
    before t hn hx hy
  exact ⟨d, h1, h2⟩

/-- A floor between two whole numbers. -/
theorem floor_between {f : Rat} {k : Nat} (h1 : (k : Rat) < f) (h2 : f < k + 1) : ⌊f⌋ = k ∧ f ≠ ⌊f⌋ := by
  have : ⌊f⌋ = (k : Int) := by
    rw [Int.floor_eq_iff]
    push_cast
    exact ⟨h1.le, h2⟩
  refine ⟨this, ?_⟩
  rw [this]
  push_cast
  exact h1.ne'

/-- C121 is false: the published sky is overcast at all four points, but a pixel near 44.5 N 6.5 E, in the middle of the
north-eastern quarter of the area, shows a clear sky.  (Near 43.5 N 5.5 E the clouds are shown.) -/
theorem C121_counterexample (dirs : Text → Bool) (before : Tree) : ∃ m tr,
    Dwd.renderRun m (constWorld overcastMsg) dirs [LayerType.cloudPrecip.name] [3] demoRun tr .done ∧
    (∀ r, Publishes (constWorld overcastMsg) demoRun r overcastMsg) ∧ Field overcastMsg 2 2 ∧
    PointGrid overcastMsg.doc 43 5 45 7 2 2 ∧ (∀ k < 4, physical overcastMsg k = some 1) ∧
    (∃ (t : MapTileCoord) (d : Drawable) (i j : Nat),
      before.write tr (tilePath (outputPath demoRun 3 .cloudPrecip) t) = some (.picture d) ∧ d.pixel j i = some clearSky ∧
      |pixelLon t.x t.zoom j - 65 / 10| ≤ 2 / 100 ∧
      |mercatorLat (t.y + i / 256) t.zoom - ((445 / 10 : Rat) : ℝ)| ≤ 2 / 100) ∧
    ∃ (t : MapTileCoord) (d : Drawable) (i j : Nat) (px : Color),
      before.write tr (tilePath (outputPath demoRun 3 .cloudPrecip) t) = some (.picture d) ∧ d.pixel j i = some px ∧
      CloudRainShown (some 1) (some 1) (some 1) px ∧
      |pixelLon t.x t.zoom j - 55 / 10| ≤ 2 / 100 := by
  obtain ⟨m, hacc, hm⟩ := exists_both
  obtain ⟨tr, h, main⟩ := overcast_run hacc hm dirs
  have p4 : ∀ k < 4, physical overcastMsg k = some 1 := by decide +kernel
  refine ⟨m, tr, h, constWorld_publishes overcastMsg_ok trivial demoRun_dwd, overcastMsg_field, fieldMsg_points _ _ _, p4,
    ?_, ?_⟩
  · obtain ⟨t, hn, hz, hx, hy, i, j, hi, hj, e1, e0, e2⟩ := demo_place hm (lat0 := 445 / 10) (lon0 := 65 / 10) (by norm_num)
      (by norm_num) (by norm_num) (by norm_num)
    obtain ⟨d, h1, h2⟩ := main before t hn hx hy
    obtain ⟨lat, hlat, h3⟩ := h2 i hi
    obtain ⟨px, hpx, -, h4⟩ := h3 j hj
    refine ⟨t, d, i, j, h1, ?_, e1, e0⟩
    have e1 := abs_le.mp e1
    have e2 := abs_le.mp (e2 lat hlat)
    obtain ⟨fx, fy, ax, ay, h5⟩ := h4 ⟨by linarith [e2.1], by linarith [e2.2], by linarith [e1.1], by linarith [e1.2]⟩
    obtain ⟨-, ax⟩ := ax
    obtain ⟨-, ay⟩ := ay
    unfold spacing at ax ay
    rw [abs_le] at ax ay
    norm_num at ax ay
    obtain ⟨x1, x2⟩ := floor_between (f := fx) (k := 1) (by norm_num; linarith [ax.1, e1.1]) (by norm_num; linarith [ax.2, e1.2])
    obtain ⟨y1, y2⟩ := floor_between (f := fy) (k := 1) (by norm_num; linarith [ay.1, e2.1]) (by norm_num; linarith [ay.2, e2.2])
    have hs : sampled (fun x y => physical overcastMsg (y * 2 + x)) 2 2 fx fy = none := by
      unfold sampled
      simp only
      rw [if_neg (by rintro (h | h); exacts [x2 h, y2 h]), x1, y1]
      simp [p4]
    rw [hpx, h5.2 hs hs hs]
  · obtain ⟨t, hn, hz, hx, hy, i, j, hi, hj, e1, e0, e2⟩ := demo_place hm (lat0 := 435 / 10) (lon0 := 55 / 10) (by norm_num)
      (by norm_num) (by norm_num) (by norm_num)
    obtain ⟨d, h1, h2⟩ := main before t hn hx hy
    obtain ⟨lat, hlat, h3⟩ := h2 i hi
    obtain ⟨px, hpx, -, h4⟩ := h3 j hj
    refine ⟨t, d, i, j, px, h1, hpx, ?_, e1⟩
    have e1 := abs_le.mp e1
    have e2 := abs_le.mp (e2 lat hlat)
    obtain ⟨fx, fy, ax, ay, h5⟩ := h4 ⟨by linarith [e2.1], by linarith [e2.2], by linarith [e1.1], by linarith [e1.2]⟩
    obtain ⟨-, ax⟩ := ax
    obtain ⟨-, ay⟩ := ay
    unfold spacing at ax ay
    rw [abs_le] at ax ay
    norm_num at ax ay
    obtain ⟨x1, x2⟩ := floor_between (f := fx) (k := 0) (by norm_num; linarith [ax.1, e1.1]) (by norm_num; linarith [ax.2, e1.2])
    obtain ⟨y1, y2⟩ := floor_between (f := fy) (k := 0) (by norm_num; linarith [ay.1, e2.1]) (by norm_num; linarith [ay.2, e2.2])
    have hs : sampled (fun x y => physical overcastMsg (y * 2 + x)) 2 2 fx fy = some 1 := by
      unfold sampled
      simp only
      rw [if_neg (by rintro (h | h); exacts [x2 h, y2 h]), x1, y1]
      simp [p4]
    rwa [hs] at h5

/-- C118 is false: the pixels at the western edge of the map of the world, far from the area, are half transparent black. -/
theorem C118_counterexample (dirs : Text → Bool) (before : Tree) : ∃ m tr d,
    Dwd.renderRun m (constWorld overcastMsg) dirs [LayerType.cloudPrecip.name] [3] demoRun tr .done ∧
    PointGrid overcastMsg.doc 43 5 45 7 2 2 ∧
    before.write tr (tilePath (outputPath demoRun 3 .cloudPrecip) ⟨0, 0, 0⟩) = some (.picture d) ∧
    pixelLon 0 0 0 = -180 ∧ ∀ i : Nat, i < 256 → d.pixel 0 i = some ⟨0, 0, 0, 127⟩ := by
  obtain ⟨m, hacc, hm⟩ := exists_both
  obtain ⟨tr, h, main⟩ := overcast_run hacc hm dirs
  obtain ⟨t, hz, hn, hx, hy, -⟩ := C122_place m hm 43 5 45 7 44 6 (by norm_num) (by norm_num) (by norm_num) (by norm_num)
    (by norm_num) (by norm_num) (by norm_num) (by norm_num) demoRun.model.zoomRange 0 (by decide) (by decide) (by norm_num)
  obtain ⟨x, y, z⟩ := t
  simp only at hz hx hy
  subst hz
  have hx : x = 0 := by simpa using hx
  have hy : y = 0 := by simpa using hy
  subst hx hy
  obtain ⟨d, h1, h2⟩ := main before _ hn (by norm_num) (by norm_num)
  have e : pixelLon 0 0 0 = -180 := by norm_num [pixelLon]
  refine ⟨m, tr, d, h, fieldMsg_points _ _ _, h1, e, fun i hi => ?_⟩
  obtain ⟨lat, -, h3⟩ := h2 i hi
  obtain ⟨px, hpx, h4, -⟩ := h3 0 (by norm_num)
  rw [hpx, h4 (by
    rintro ⟨-, -, h, -⟩
    simp only at h
    rw [e] at h
    norm_num at h)]
  rfl

end Verif.Props
