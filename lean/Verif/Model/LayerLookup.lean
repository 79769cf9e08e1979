import Verif.Model.Layer
import Verif.Model.Libm
import Verif.Model.Dwd

/-!
# Further lookups of layers, layers with one grid, and the description of the DWD models

Code that the renderers do not call but that is part of the public interface.
-/

namespace Verif

/-! ## Layers with one grid -/

/-- `MeteoCloudLayer` (`src/meteo_chart/meteo_layer/meteo_cloud_layer.rs` 6-14). -/
structure CloudLayer where
  value : LatLonValueGrid Fl

/-- `get_cloud_cover_by_xy` (`src/meteo_chart/meteo_layer/meteo_cloud_layer.rs` 27-29). -/
def CloudLayer.getCloudCoverByXY (l : CloudLayer) (x y : Nat) : Res (Option Fl) := l.value.getValueByXY x y

/-- `get_cloud_cover_by_lat_lon` (`src/meteo_chart/meteo_layer/meteo_cloud_layer.rs` 32-34). -/
def CloudLayer.getCloudCoverByLatLon (l : CloudLayer) (p : LatLon) : Res (Option Fl) := l.value.getValueByLatLon p

/-- `MeteoPrecipLayer` (`src/meteo_chart/meteo_layer/meteo_precip_layer.rs` 6-14). -/
structure PrecipLayer where
  value : LatLonValueGrid Fl

/-- `get_total_precipitation_by_xy` (`src/meteo_chart/meteo_layer/meteo_precip_layer.rs` 27-29). -/
def PrecipLayer.getTotalByXY (l : PrecipLayer) (x y : Nat) : Res (Option Fl) := l.value.getValueByXY x y

/-- `get_total_precipitation_by_lat_lon` (`src/meteo_chart/meteo_layer/meteo_precip_layer.rs` 32-34). -/
def PrecipLayer.getTotalByLatLon (l : PrecipLayer) (p : LatLon) : Res (Option Fl) := l.value.getValueByLatLon p

/-- `MeteoHhlLayer` (`src/meteo_chart/meteo_layer/meteo_hhl_layer.rs` 6-14). -/
structure HhlLayer where
  value : LatLonValueGrid Fl

/-- `get_height_by_xy` (`src/meteo_chart/meteo_layer/meteo_hhl_layer.rs` 27-29). -/
def HhlLayer.getHeightByXY (l : HhlLayer) (x y : Nat) : Res (Option Fl) := l.value.getValueByXY x y

/-- `get_height_by_lat_lon` (`src/meteo_chart/meteo_layer/meteo_hhl_layer.rs` 32-34). -/
def HhlLayer.getHeightByLatLon (l : HhlLayer) (p : LatLon) : Res (Option Fl) := l.value.getValueByLatLon p

/-! ## Wind -/

/-- `get_gusts_by_lat_lon` (`src/meteo_chart/meteo_layer/meteo_wind_10m_layer.rs` 117-122). -/
def WindLayer.getGustsByLatLon (l : WindLayer) (p : LatLon) : Res (Option Fl) :=
  match l.gusts with
  | some g => g.getValueByLatLon p
  | none => .ok none

/-- The direction (`src/meteo_chart/meteo_layer/meteo_wind_10m_layer.rs` 104); `atan2` is the function of the
platform. -/
def windDir (atan2 : Fl → Fl → Fl) (e n : Fl) : Fl := toDegrees32 (atan2 n e)

/-! ## Weather -/

namespace WeatherLayer

/-- `get_ceiling_by_xy` (`src/meteo_chart/meteo_layer/weather_layer.rs` 57-59). -/
def getCeilingByXY (l : WeatherLayer) (x y : Nat) : Res (Option Fl) := l.ceiling.getValueByXY x y

/-- `get_ceiling_by_lat_lon` (`src/meteo_chart/meteo_layer/weather_layer.rs` 62-64). -/
def getCeilingByLatLon (l : WeatherLayer) (p : LatLon) : Res (Option Fl) := l.ceiling.getValueByLatLon p

/-- `get_clct_by_xy` (`src/meteo_chart/meteo_layer/weather_layer.rs` 67-69). -/
def getClctByXY (l : WeatherLayer) (x y : Nat) : Res (Option Fl) := l.clct.getValueByXY x y

/-- `get_clct_by_lat_lon` (`src/meteo_chart/meteo_layer/weather_layer.rs` 72-74). -/
def getClctByLatLon (l : WeatherLayer) (p : LatLon) : Res (Option Fl) := l.clct.getValueByLatLon p

/-- `get_ww_by_lat_lon` (`src/meteo_chart/meteo_layer/weather_layer.rs` 87-94). -/
def getWwByLatLon (l : WeatherLayer) (p : LatLon) : Res (Option Weather) :=
  match l.ww with
  | none => .ok none
  | some g => (g.getValueByLatLon p).bind interpret

end WeatherLayer

/-! ## Description of the DWD models -/

/-- `DwdModelType` (`src/dwd/forecast_run/dwd_model_type.rs` 2-6). -/
inductive DwdModelType where
  | iconD2
  | iconEu
  | icon
  deriving DecidableEq, Repr

/-- `get_name` (`src/dwd/forecast_run/dwd_model_type.rs` 10-16). -/
def DwdModelType.getName : DwdModelType → Text
  | iconD2 => "icon-d2".toList
  | iconEu => "icon-eu".toList
  | icon => "icon-global".toList

/-- `DwdModelConfig` (`src/dwd/forecast_run/dwd_model_config.rs` 3-7). -/
structure DwdModelConfig where
  model : DwdModelType
  stepHours : List Nat
  runHoursUtc : List Nat

/-- `get_dwd_model_config` (`src/dwd/forecast_run/dwd_model_config.rs` 11-29). -/
def DwdModelConfig.get : DwdModelType → DwdModelConfig
  | .iconD2 => ⟨.iconD2, List.range 48, [0, 3, 6, 9, 12, 15, 18, 21]⟩
  | .iconEu => ⟨.iconEu, List.range 78, [0, 6, 12, 18]⟩
  | .icon => ⟨.icon, List.range 78, [0, 6, 12, 18]⟩

end Verif
