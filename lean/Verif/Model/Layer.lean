import Verif.Model.Geo

/-!
# Model of `src/meteo_chart/meteo_layer/`

Layers hold value grids; looking up a cell may panic (see `LatLonValueGrid.getValueByXY`), so lookups
return `Res`.  The layer type field, a constant of each layer kind, is not stored but modelled as
`LayerType` where paths are built.
-/

namespace Verif

/-- `Option::unwrap_or`. -/
def unwrapOr {T : Type} (o : Option T) (d : T) : T :=
  match o with
  | some v => v
  | none => d

/-- `!=` on two grids' dimensions and extents, as used by the constructors below: are both equal? -/
def sameDims {S T : Type} (a : LatLonValueGrid S) (b : LatLonValueGrid T) : Bool := a.dims == b.dims

/-- `get_grid_lat_lon_extent() ==` (`src/geo/grid/lat_lon_value_grid.rs` 38-40,
`src/geo/common/lat_lon_extent.rs` 79-83). -/
def sameExtent {S T : Type} (a : LatLonValueGrid S) (b : LatLonValueGrid T) : Bool :=
  LatLonExtent.eq a.grid.extent b.grid.extent

/-! ## Temperature, clouds, precipitation, heights -/

/-- `MeteoTemp2mLayer` (`src/meteo_chart/meteo_layer/meteo_temp_2m_layer.rs` 7-10).  The layers
`MeteoCloudLayer`, `MeteoPrecipLayer` and `MeteoHhlLayer` (`meteo_cloud_layer.rs`,
`meteo_precip_layer.rs`, `meteo_hhl_layer.rs`) have the same shape: one grid and its lookups. -/
structure TempLayer where
  temp : LatLonValueGrid Fl

/-- `get_temp_by_xy` (`src/meteo_chart/meteo_layer/meteo_temp_2m_layer.rs` 41-43). -/
def TempLayer.getTempByXY (l : TempLayer) (x y : Nat) : Res (Option Fl) := l.temp.getValueByXY x y

/-- `get_temp_by_lat_lon` (`src/meteo_chart/meteo_layer/meteo_temp_2m_layer.rs` 46-48). -/
def TempLayer.getTempByLatLon (l : TempLayer) (p : LatLon) : Res (Option Fl) := l.temp.getValueByLatLon p

/-! ## Clouds and precipitation -/

/-- `MeteoCloudPrecipLayer` (`src/meteo_chart/meteo_layer/meteo_cloud_precip_layer.rs` 9-14). -/
structure CloudPrecipLayer where
  cloud : LatLonValueGrid Fl
  precip0 : LatLonValueGrid Fl
  precip1 : LatLonValueGrid Fl

namespace CloudPrecipLayer

/-- `MeteoCloudPrecipLayer::new` (`src/meteo_chart/meteo_layer/meteo_cloud_precip_layer.rs` 18-41). -/
def new (cloud precip0 precip1 : LatLonValueGrid Fl) : Res CloudPrecipLayer :=
  if !sameDims cloud precip0 || !sameDims precip0 precip1 then .err
  else if !sameExtent cloud precip0 || !sameExtent precip0 precip1 then .err
  else .ok ⟨cloud, precip0, precip1⟩

/-- `get_grid_dimensions` (`src/meteo_chart/meteo_layer/meteo_cloud_precip_layer.rs` 49-51). -/
def dims (l : CloudPrecipLayer) : Nat × Nat := l.cloud.dims

/-- `get_cloud_and_precip_by_xy` (`src/meteo_chart/meteo_layer/meteo_cloud_precip_layer.rs` 59-66). -/
def getCloudAndPrecipByXY (l : CloudPrecipLayer) (x y : Nat) : Res (Option (Fl × Fl)) := do
  let c ← l.cloud.getValueByXY x y
  let p0 ← l.precip0.getValueByXY x y
  let p1 ← l.precip1.getValueByXY x y
  .ok (some (unwrapOr c (.fin 0), Fl.sub f32 (unwrapOr p1 (.fin 0)) (unwrapOr p0 (.fin 0))))

/-- `get_cloud_and_precip_by_lat_lon`
(`src/meteo_chart/meteo_layer/meteo_cloud_precip_layer.rs` 69-76). -/
def getCloudAndPrecipByLatLon (l : CloudPrecipLayer) (p : LatLon) : Res (Option (Fl × Fl)) := do
  let c ← l.cloud.interpolate p
  let p0 ← l.precip0.interpolate p
  let p1 ← l.precip1.interpolate p
  .ok (some (unwrapOr c (.fin 0), Fl.sub f32 (unwrapOr p1 (.fin 0)) (unwrapOr p0 (.fin 0))))

end CloudPrecipLayer

/-! ## Wind -/

/-- `MeteoWind10mLayer` (`src/meteo_chart/meteo_layer/meteo_wind_10m_layer.rs` 8-13). -/
structure WindLayer where
  zonal : LatLonValueGrid Fl
  meridional : LatLonValueGrid Fl
  gusts : Option (LatLonValueGrid Fl)

/-- The pair of two present values (`src/meteo_chart/meteo_layer/meteo_wind_10m_layer.rs` 70-73, 81-84). -/
def bothOf {S T : Type} (a : Option S) (b : Option T) : Option (S × T) :=
  match a, b with
  | some a, some b => some (a, b)
  | _, _ => none

/-- The speed (`src/meteo_chart/meteo_layer/meteo_wind_10m_layer.rs` 90, 96, 103). -/
def windSpeed (e n : Fl) : Fl := Fl.sqrt f32 (Fl.add f32 (Fl.mul f32 e e) (Fl.mul f32 n n))

namespace WindLayer

/-- The check of the gusts grid (`src/meteo_chart/meteo_layer/meteo_wind_10m_layer.rs` 30-38). -/
def gustsFit (zonal : LatLonValueGrid Fl) : Option (LatLonValueGrid Fl) → Bool
  | none => true
  | some g => sameDims g zonal && sameExtent g zonal

/-- `MeteoWind10mLayer::new` (`src/meteo_chart/meteo_layer/meteo_wind_10m_layer.rs` 17-48). -/
def new (zonal meridional : LatLonValueGrid Fl) (gusts : Option (LatLonValueGrid Fl)) : Res WindLayer :=
  if !sameDims zonal meridional then .err
  else if !sameExtent zonal meridional then .err
  else if !gustsFit zonal gusts then .err
  else .ok ⟨zonal, meridional, gusts⟩

/-- `get_grid_dimensions` (`src/meteo_chart/meteo_layer/meteo_wind_10m_layer.rs` 56-58). -/
def dims (l : WindLayer) : Nat × Nat := l.zonal.dims

/-- `get_wind_speed_e_n_by_xy` (`src/meteo_chart/meteo_layer/meteo_wind_10m_layer.rs` 66-74). -/
def getWindByXY (l : WindLayer) (x y : Nat) : Res (Option (Fl × Fl)) := do
  let e ← l.zonal.getValueByXY x y
  let n ← l.meridional.getValueByXY x y
  .ok (bothOf e n)

/-- `get_wind_speed_e_n_by_lat_lon` (`src/meteo_chart/meteo_layer/meteo_wind_10m_layer.rs` 77-85). -/
def getWindByLatLon (l : WindLayer) (p : LatLon) : Res (Option (Fl × Fl)) := do
  let e ← l.zonal.getValueByLatLon p
  let n ← l.meridional.getValueByLatLon p
  .ok (bothOf e n)

/-- `get_wind_speed_tot_xy` (`src/meteo_chart/meteo_layer/meteo_wind_10m_layer.rs` 88-91). -/
def getSpeedByXY (l : WindLayer) (x y : Nat) : Res (Option Fl) := do
  let w ← l.getWindByXY x y
  .ok (w.map fun p => windSpeed p.1 p.2)

/-- `get_wind_speed_tot_by_lat_lon` (`src/meteo_chart/meteo_layer/meteo_wind_10m_layer.rs` 94-97). -/
def getSpeedByLatLon (l : WindLayer) (p : LatLon) : Res (Option Fl) := do
  let w ← l.getWindByLatLon p
  .ok (w.map fun p => windSpeed p.1 p.2)

/-- `get_wind_speed_dir_by_xy` (`src/meteo_chart/meteo_layer/meteo_wind_10m_layer.rs` 100-106); the
direction `atan2(n, e)` in degrees is an arbitrary function of the components. -/
def getSpeedDirByXY (dir : Fl → Fl → Fl) (l : WindLayer) (x y : Nat) : Res (Option (Fl × Fl)) := do
  let w ← l.getWindByXY x y
  .ok (w.map fun p => (windSpeed p.1 p.2, dir p.1 p.2))

/-- `get_gusts_by_xy` (`src/meteo_chart/meteo_layer/meteo_wind_10m_layer.rs` 109-114). -/
def getGustsByXY (l : WindLayer) (x y : Nat) : Res (Option Fl) :=
  match l.gusts with
  | some g => g.getValueByXY x y
  | none => .ok none

end WindLayer

/-! ## Weather -/

/-- `WeatherInterpretation` (`src/meteo_chart/meteo_layer/weather_interpretation.rs` 2-31). -/
inductive Weather where
  | clearSky | mainlyClearSky | partlyCloudy | overcast | fog | fogDepositingRime | slightDrizzle
  | moderateDrizzle | heavyDrizzle | drizzleFreezingSlight | drizzleFreezingModerateOrHeavy
  | slightRainNotFreezing | moderateRainNotFreezing | heavyRainNotFreezing | rainFreezingSlight
  | rainFreezingModerateOrHeavy | slightFallOfSnowflakes | moderateFallOfSnowflakes
  | heavyFallOfSnowflakes | snowGrains | rainShowerSlight | rainShowerModerateOrHeavy | rainShowerViolent
  | snowShowerSlight | snowShowerModerateOrHeavy | thunderstormSlightOrModerate
  | thunderstormWithHailOrHeavyThunderstorm | thunderstormWithHeavyRain
  deriving DecidableEq, Repr

namespace Weather

/-- `WeatherInterpretation::from_value`
(`src/meteo_chart/meteo_layer/weather_interpretation.rs` 35-67); unknown codes panic. -/
def fromValue (v : UInt8) : Res Weather :=
  match v.toNat with
  | 0 => .ok clearSky
  | 1 => .ok mainlyClearSky
  | 2 => .ok partlyCloudy
  | 3 => .ok overcast
  | 45 => .ok fog
  | 48 => .ok fogDepositingRime
  | 51 => .ok slightDrizzle
  | 53 => .ok moderateDrizzle
  | 55 => .ok heavyDrizzle
  | 56 => .ok drizzleFreezingSlight
  | 57 => .ok drizzleFreezingModerateOrHeavy
  | 61 => .ok slightRainNotFreezing
  | 63 => .ok moderateRainNotFreezing
  | 65 => .ok heavyRainNotFreezing
  | 66 => .ok rainFreezingSlight
  | 67 => .ok rainFreezingModerateOrHeavy
  | 71 => .ok slightFallOfSnowflakes
  | 73 => .ok moderateFallOfSnowflakes
  | 75 => .ok heavyFallOfSnowflakes
  | 77 => .ok snowGrains
  | 80 => .ok rainShowerSlight
  | 81 => .ok rainShowerModerateOrHeavy
  | 82 => .ok rainShowerViolent
  | 85 => .ok snowShowerSlight
  | 86 => .ok snowShowerModerateOrHeavy
  | 95 => .ok thunderstormSlightOrModerate
  | 96 => .ok thunderstormWithHailOrHeavyThunderstorm
  | 99 => .ok thunderstormWithHeavyRain
  | _ => .panic

/-- `WeatherInterpretation::to_value`
(`src/meteo_chart/meteo_layer/weather_interpretation.rs` 70-101). -/
def toValue : Weather → UInt8
  | clearSky => 0
  | mainlyClearSky => 1
  | partlyCloudy => 2
  | overcast => 3
  | fog => 45
  | fogDepositingRime => 48
  | slightDrizzle => 51
  | moderateDrizzle => 53
  | heavyDrizzle => 55
  | drizzleFreezingSlight => 56
  | drizzleFreezingModerateOrHeavy => 57
  | slightRainNotFreezing => 61
  | moderateRainNotFreezing => 63
  | heavyRainNotFreezing => 65
  | rainFreezingSlight => 66
  | rainFreezingModerateOrHeavy => 67
  | slightFallOfSnowflakes => 71
  | moderateFallOfSnowflakes => 73
  | heavyFallOfSnowflakes => 75
  | snowGrains => 77
  | rainShowerSlight => 80
  | rainShowerModerateOrHeavy => 81
  | rainShowerViolent => 82
  | snowShowerSlight => 85
  | snowShowerModerateOrHeavy => 86
  | thunderstormSlightOrModerate => 95
  | thunderstormWithHailOrHeavyThunderstorm => 96
  | thunderstormWithHeavyRain => 99

end Weather

/-- `WeatherLayer` (`src/meteo_chart/meteo_layer/weather_layer.rs` 9-14). -/
structure WeatherLayer where
  clct : LatLonValueGrid Fl
  ceiling : LatLonValueGrid Fl
  ww : Option (LatLonValueGrid Fl)

namespace WeatherLayer

/-- `WeatherLayer::new` (`src/meteo_chart/meteo_layer/weather_layer.rs` 18-39). -/
def new (clct ceiling : LatLonValueGrid Fl) (ww : Option (LatLonValueGrid Fl)) : Res WeatherLayer :=
  if !sameDims clct ceiling then .err
  else if !sameExtent clct ceiling then .err
  else .ok ⟨clct, ceiling, ww⟩

/-- `get_grid_dimensions` (`src/meteo_chart/meteo_layer/weather_layer.rs` 47-49). -/
def dims (l : WeatherLayer) : Nat × Nat := l.clct.dims

/-- `Option::map` with a function that may panic. -/
def interpret : Option Fl → Res (Option Weather)
  | none => .ok none
  | some v => (Weather.fromValue (UInt8.ofNat (Fl.toU8 v))).bind fun w => .ok (some w)

/-- `get_ww_by_xy` (`src/meteo_chart/meteo_layer/weather_layer.rs` 77-84). -/
def getWwByXY (l : WeatherLayer) (x y : Nat) : Res (Option Weather) :=
  match l.ww with
  | none => .ok none
  | some g => (g.getValueByXY x y).bind interpret

end WeatherLayer

/-! ## Vertical cross sections -/

/-- `MeteoVerticalCloudLayer` (`src/meteo_chart/meteo_layer/meteo_vertical_cloud_layer.rs` 6-10). -/
structure VerticalCloudLayer where
  hhl : List (LatLonValueGrid UInt8)
  clc : List (LatLonValueGrid UInt8)

namespace VerticalCloudLayer

/-- `MeteoVerticalCloudLayer::new`
(`src/meteo_chart/meteo_layer/meteo_vertical_cloud_layer.rs` 14-32). -/
def new (hhl clc : List (LatLonValueGrid UInt8)) : Res VerticalCloudLayer :=
  if hhl.length == 0 || clc.length == 0 then .panic
  else if hhl.length != clc.length then .panic
  else .ok ⟨hhl, clc⟩

/-- `get_grid_dimensions` (`src/meteo_chart/meteo_layer/meteo_vertical_cloud_layer.rs` 40-45). -/
def dims (l : VerticalCloudLayer) : Res (Nat × Nat × Nat) := do
  let g ← Res.unwrap l.clc[0]?
  .ok (g.dims.1, g.dims.2, l.clc.length)

/-- `get_hhl_value` (`src/meteo_chart/meteo_layer/meteo_vertical_cloud_layer.rs` 53-55). -/
def getHhl (l : VerticalCloudLayer) (x y level : Nat) : Res (Option UInt8) := do
  let g ← Res.index l.hhl level
  g.getValueByXY x y

/-- `get_clc_value` (`src/meteo_chart/meteo_layer/meteo_vertical_cloud_layer.rs` 58-60). -/
def getClc (l : VerticalCloudLayer) (x y level : Nat) : Res (Option UInt8) := do
  let g ← Res.index l.clc level
  g.getValueByXY x y

end VerticalCloudLayer

/-- `MeteoVerticalWindLayer` (`src/meteo_chart/meteo_layer/meteo_vertical_wind_layer.rs` 6-11). -/
structure VerticalWindLayer where
  hhl : List (LatLonValueGrid UInt8)
  u : List (LatLonValueGrid UInt8)
  v : List (LatLonValueGrid UInt8)

namespace VerticalWindLayer

/-- `MeteoVerticalWindLayer::new`
(`src/meteo_chart/meteo_layer/meteo_vertical_wind_layer.rs` 15-35). -/
def new (hhl u v : List (LatLonValueGrid UInt8)) : Res VerticalWindLayer :=
  if hhl.length == 0 || u.length == 0 || v.length == 0 then .panic
  else if hhl.length != u.length || hhl.length != v.length then .panic
  else .ok ⟨hhl, u, v⟩

/-- `get_grid_dimensions` (`src/meteo_chart/meteo_layer/meteo_vertical_wind_layer.rs` 43-48). -/
def dims (l : VerticalWindLayer) : Res (Nat × Nat × Nat) := do
  let g ← Res.unwrap l.u[0]?
  .ok (g.dims.1, g.dims.2, l.u.length)

/-- `get_hhl_value` (`src/meteo_chart/meteo_layer/meteo_vertical_wind_layer.rs` 56-58). -/
def getHhl (l : VerticalWindLayer) (x y level : Nat) : Res (Option UInt8) := do
  let g ← Res.index l.hhl level
  g.getValueByXY x y

/-- `get_u_v_values` (`src/meteo_chart/meteo_layer/meteo_vertical_wind_layer.rs` 61-70). -/
def getUV (l : VerticalWindLayer) (x y level : Nat) : Res (Option (UInt8 × UInt8)) := do
  let gu ← Res.index l.u level
  let u ← gu.getValueByXY x y
  let gv ← Res.index l.v level
  let v ← gv.getValueByXY x y
  .ok (bothOf u v)

end VerticalWindLayer

end Verif
