import Verif.Props.Colors
import Verif.Props.Layer
import Verif.Props.Render

/-!
# C86: complete layers are rendered without a panic
-/

namespace Verif.Props

open Verif MapTileRenderer
open Verif.Spec (Filled cell)

/-- The tiles of an extent have neighbours with coordinates in the range of `u32`. -/
def InRange (m : Libm) (e : LatLonExtent) (zooms : Nat × Nat) : Prop :=
  ∀ t, Needed m e zooms t → t.x + 1 < 2 ^ 32 ∧ t.y + 1 < 2 ^ 32

/-- This is so up to 180 degrees of longitude if the latitudes have rows in this range. -/
theorem inRange_of_corners (m : Libm) (e : LatLonExtent) {zooms : Nat × Nat} (hz : zooms.2 ≤ 18)
    (h0 : Fl.le e.minCoord.lon (.fin 180) = true) (h1 : Fl.le e.maxCoord.lon (.fin 180) = true)
    (hr : ∀ z, zooms.1 ≤ z → z ≤ zooms.2 → MapTileCoord.row m e.minCoord.lat (.fin (2 ^ z)) + 1 < 2 ^ 32 ∧
      MapTileCoord.row m e.maxCoord.lat (.fin (2 ^ z)) + 1 < 2 ^ 32) : InRange m e zooms := by
  rintro t ⟨ht1, ht2, a, b, ha, hb, _, hx, _, hy⟩
  unfold MapTileCoord.fromPosition at ha hb
  rw [zoomPow_eq (show t.zoom ≤ 31 by omega)] at ha hb
  cases ha
  cases hb
  have hc : ∀ lon, Fl.le lon (.fin 180) = true → MapTileCoord.column lon (.fin (2 ^ t.zoom)) ≤ 2 ^ 18 := by
    intro lon h
    have h := MapTileCoord.column_mono (p := 2 ^ t.zoom) (by positivity) h
    have hw := MapTileCoord.column_west (x := 2 ^ t.zoom) (z := t.zoom) (by omega) (le_refl _)
    have e : MapTileCoord.west (2 ^ t.zoom) t.zoom = 180 := by
      unfold MapTileCoord.west
      push_cast
      rw [mul_div_assoc, div_self (by positivity)]
      norm_num
    rw [e] at hw
    rw [hw] at h
    exact h.trans (Nat.pow_le_pow_right (by norm_num) (by omega))
  have c0 := hc _ h0
  have c1 := hc _ h1
  obtain ⟨r0, r1⟩ := hr t.zoom ht1 ht2
  simp only at hx hy
  constructor <;> omega

/-- Looking up a cell of a complete grid does not panic, wherever it is. -/
theorem filled_xy {T : Type} [GridValue T] {g : LatLonValueGrid T} {w h : Nat} (hg : Filled g w h) (x y : Nat) :
    ∃ v, g.getValueByXY x y = .ok v := by
  by_cases hxy : x < w ∧ y < h
  · exact ⟨_, hg.get hxy.1 hxy.2⟩
  · exact ⟨none, (C19_lookup g w h hg.dims hg.small hg.length x y).2 hxy⟩

theorem filled_position {T : Type} [GridValue T] {g : LatLonValueGrid T} {w h : Nat} (hg : Filled g w h) (p : LatLon) :
    ∃ v, g.getValueByLatLon p = .ok v := by
  unfold LatLonValueGrid.getValueByLatLon
  split
  · exact ⟨none, rfl⟩
  · exact filled_xy hg _ _

theorem filled_interpolate {T : Type} [GridValue T] {g : LatLonValueGrid T} {w h : Nat} (hg : Filled g w h) (p : LatLon) :
    ∃ v, g.interpolate p = .ok v := by
  unfold LatLonValueGrid.interpolate
  split
  · exact ⟨none, rfl⟩
  · simp only
    split
    · exact ⟨none, rfl⟩
    · split
      · exact filled_xy hg _ _
      · rename_i x y _ _ _
        obtain ⟨a, ha⟩ := filled_xy hg (Fl.toUSize (Fl.floor x)) (Fl.toUSize (Fl.floor y))
        obtain ⟨b, hb⟩ := filled_xy hg (Fl.toUSize (Fl.ceil x)) (Fl.toUSize (Fl.floor y))
        obtain ⟨c, hc⟩ := filled_xy hg (Fl.toUSize (Fl.floor x)) (Fl.toUSize (Fl.ceil y))
        obtain ⟨d, hd⟩ := filled_xy hg (Fl.toUSize (Fl.ceil x)) (Fl.toUSize (Fl.ceil y))
        rw [ha, hb, hc, hd]
        exact ⟨_, rfl⟩

/-- A tile can be made if all values can be looked up. -/
theorem tile_ok {T : Type} {m : Libm} {e : LatLonExtent} {zooms : Nat × Nat} (hz : zooms.2 ≤ 31) (he : InRange m e zooms)
    (valueFn : LatLon → Res (Option T)) (hv : ∀ p, ∃ v, valueFn p = .ok v) (colorFn : T → Color) (t : MapTileCoord)
    (ht : Needed m e zooms t) : ∃ d, createSingleTile m valueFn t colorFn = .ok d := by
  choose v hv using hv
  obtain ⟨hx, hy⟩ := he t ht
  obtain ⟨_, _, d, _, _, h, _⟩ := C33_tile m t (ht.2.1.trans hz) hx hy valueFn v hv colorFn
  exact ⟨d, h⟩

/-- C86: temperature. -/
theorem C86_temp (m : Libm) {zooms : Nat × Nat} (hz : zooms.2 ≤ 31) {l : TempLayer} {w h : Nat} (hl : Filled l.temp w h)
    (he : InRange m l.temp.grid.extent zooms) : CanDraw m zooms (.temp l) := by
  refine ⟨tile_ok hz he _ (fun p => ?_) id, (C37_file hl).imp fun _ h => h.1⟩
  obtain ⟨v, hv⟩ := filled_position hl p
  unfold tempChart TempLayer.getTempByLatLon
  simp only
  rw [hv]
  cases v <;> exact ⟨_, rfl⟩

/-- C86: wind. -/
theorem C86_wind (m : Libm) {zooms : Nat × Nat} (hz : zooms.2 ≤ 31) {l : WindLayer} {w h : Nat} (hu : Filled l.zonal w h)
    (hv : Filled l.meridional w h) (hg : ∀ g, l.gusts = some g → Filled g w h)
    (he : InRange m l.zonal.grid.extent zooms) : CanDraw m zooms (.wind l) := by
  refine ⟨tile_ok hz he _ (fun p => ?_) id, (C39_file hu hv hg).imp fun _ h => h.1⟩
  obtain ⟨a, ha⟩ := filled_position hu p
  obtain ⟨b, hb⟩ := filled_position hv p
  unfold windChart WindLayer.getSpeedByLatLon WindLayer.getWindByLatLon
  simp only
  rw [ha, hb]
  cases a <;> cases b <;> exact ⟨_, rfl⟩

/-- C86: clouds, precipitation and weather, where all weather codes are known (others panic, see C41). -/
theorem C86_cloud_precip (m : Libm) {zooms : Nat × Nat} (hz : zooms.2 ≤ 31) {l : CloudPrecipLayer} {w h : Nat}
    (hc : Filled l.cloud w h) (h0 : Filled l.precip0 w h) (h1 : Filled l.precip1 w h)
    (he : InRange m l.cloud.grid.extent zooms) {wl : WeatherLayer} {w' h' : Nat} (hwc : Filled wl.clct w' h')
    (hwe : Filled wl.ceiling w' h') (hww : ∀ g, wl.ww = some g → Filled g w' h')
    (hk : ∀ g, wl.ww = some g → ∀ x y v, x < w' → y < h' → cell g w' x y = some v → UInt8.ofNat (Fl.toU8 v) ∈ Props.knownCodes) :
    CanDraw m zooms (.cloudPrecip l wl) := by
  refine ⟨tile_ok hz he _ (fun p => ?_) id, (C38_file_partial hc h0 h1).imp fun _ h => h.1, ?_⟩
  · obtain ⟨a, ha⟩ := filled_interpolate hc p
    obtain ⟨b, hb⟩ := filled_interpolate h0 p
    obtain ⟨c, hc⟩ := filled_interpolate h1 p
    unfold cloudPrecipChart CloudPrecipLayer.getCloudAndPrecipByLatLon
    simp only
    rw [ha, hb, hc]
    obtain ⟨col, hcol, _⟩ := C46_composite (unwrapOr a (.fin 0)) (Fl.sub f32 (unwrapOr c (.fin 0)) (unwrapOr b (.fin 0)))
    refine ⟨some col, ?_⟩
    show Res.bind (Colors.cloudPrecipColor _) _ = _
    rw [hcol]
    rfl
  · have : ∀ x y, ∃ c, x < w' → y < h' → WeatherLayer.interpret (wwCell wl w' x y) = .ok c := by
      intro x y
      by_cases hxy : x < w' ∧ y < h'
      · cases hv : wwCell wl w' x y with
        | none => exact ⟨none, fun _ _ => rfl⟩
        | some v =>
          unfold wwCell at hv
          cases hg : wl.ww with
          | none => rw [hg] at hv; cases hv
          | some g =>
            rw [hg] at hv
            obtain ⟨wi, hwi⟩ := (C41_round_trip_partial.2 _).mpr (hk g hg x y v hxy.1 hxy.2 hv)
            refine ⟨some wi, fun _ _ => ?_⟩
            unfold WeatherLayer.interpret
            simp only [hwi]
            rfl
      · exact ⟨none, fun h1 h2 => absurd ⟨h1, h2⟩ hxy⟩
    choose code hcode using this
    exact (C40_file hwc hwe hww code hcode).imp fun _ h => h.1

/-- C86: vertical clouds. -/
theorem C86_vertical_clouds (m : Libm) (zooms : Nat × Nat) {l : VerticalCloudLayer} {w h n : Nat} (hn : 0 < n)
    (hh : l.hhl.length = n) (hc : l.clc.length = n) (fh : ∀ g ∈ l.hhl, Filled g w h) (fc : ∀ g ∈ l.clc, Filled g w h) :
    CanDraw m zooms (.verticalCloud l) := (C42_clouds hn hh hc fh fc).imp fun _ h => h.1

/-- C86: vertical wind. -/
theorem C86_vertical_wind (m : Libm) (zooms : Nat × Nat) {l : VerticalWindLayer} {w h n : Nat} (hn : 0 < n)
    (hh : l.hhl.length = n) (hu : l.u.length = n) (hv : l.v.length = n) (fh : ∀ g ∈ l.hhl, Filled g w h)
    (fu : ∀ g ∈ l.u, Filled g w h) (fv : ∀ g ∈ l.v, Filled g w h) : CanDraw m zooms (.verticalWind l) :=
  (C42_wind hn hh hu hv fh fu fv).imp fun _ h => h.1

/-- The hypotheses can be met: a temperature layer that covers the earth, with a value missing. -/
example : ∃ m : Libm, CanDraw m (0, 7) (.temp ⟨rowGrid [.fin 280, .fin (-1), .fin (1095 / 4)] (.fin (-1))⟩) := by
  refine ⟨⟨fun _ => .fin 0, fun _ => .fin 1, fun _ => .fin 0, id, id⟩,
    C86_temp _ (by norm_num) (rowGrid_filled _ _ (by decide)) (inRange_of_corners _ _ (by norm_num) (by decide +kernel)
      (by decide +kernel) ?_)⟩
  intro z _ hz
  simp only at hz
  interval_cases z <;> decide +kernel

/-- Known weather codes. -/
example : ∀ x y v, x < 3 → y < 1 → cell (rowGrid [Fl.fin 61, .fin 3, .fin (-1)] (.fin (-1))) 3 x y = some v →
    UInt8.ofNat (Fl.toU8 v) ∈ Props.knownCodes := by
  intro x y v hx hy hv
  interval_cases x <;> interval_cases y
  · have : cell (rowGrid [Fl.fin 61, .fin 3, .fin (-1)] (.fin (-1))) 3 0 0 = some (.fin 61) := by decide +kernel
    rw [this] at hv; cases hv; decide +kernel
  · have : cell (rowGrid [Fl.fin 61, .fin 3, .fin (-1)] (.fin (-1))) 3 1 0 = some (.fin 3) := by decide +kernel
    rw [this] at hv; cases hv; decide +kernel
  · have : cell (rowGrid [Fl.fin 61, .fin 3, .fin (-1)] (.fin (-1))) 3 2 0 = none := by decide +kernel
    rw [this] at hv; cases hv

end Verif.Props
