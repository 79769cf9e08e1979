import Verif.Model.MapTile
import Verif.Model.Res
import Verif.Model.Text

/-!
# Forecast models, runs, steps and output paths

`src/meteo_common/*.rs`, `src/meteo_chart/meteo_layer/meteo_layer_type.rs`, `src/metobin/meteobin_type.rs`.
-/

namespace Verif

/-- `MeteoForecastModel` (`src/meteo_common/meteo_forecast_model.rs` 8-13). -/
inductive FcModel where
  | iconGlobal
  | iconEu
  | iconD2
  | iconCh1
  deriving DecidableEq, Repr

namespace FcModel

/-- `get_name` (`src/meteo_common/meteo_forecast_model.rs` 24-31). -/
def name : FcModel → Text
  | .iconGlobal => "icon-global".toList
  | .iconEu => "icon-eu".toList
  | .iconD2 => "icon-d2".toList
  | .iconCh1 => "icon-ch1".toList

/-- `get_step_range` (`src/meteo_common/meteo_forecast_model.rs` 45-52): first and last step. -/
def stepRange : FcModel → Nat × Nat
  | .iconGlobal => (2, 78)
  | .iconEu => (2, 78)
  | .iconD2 => (2, 48)
  | .iconCh1 => (2, 33)

/-- `get_diff_step_range` (`src/meteo_common/meteo_forecast_model.rs` 66-71).  The subtraction panics
below zero. -/
def diffStepRange (m : FcModel) : Res (Nat × Nat) :=
  if 1 ≤ m.stepRange.1 then .ok (m.stepRange.1 - 1, m.stepRange.2 - 0) else .panic

/-- `get_zoom_range` (`src/meteo_common/meteo_forecast_model.rs` 74-81). -/
def zoomRange : FcModel → Nat × Nat
  | .iconGlobal => (0, 5)
  | .iconEu => (0, 6)
  | .iconD2 => (0, 7)
  | .iconCh1 => (0, 8)

/-- `get_vertical_level_range` (`src/meteo_common/meteo_forecast_model.rs` 87-94). -/
def verticalLevels : FcModel → Nat × Nat
  | .iconGlobal => (25, 90)
  | .iconEu => (25, 74)
  | .iconD2 => (25, 65)
  | .iconCh1 => (31, 79)

end FcModel

/-- A calendar date (`chrono::NaiveDate`). -/
structure Date where
  year : Int
  month : Nat
  day : Nat
  deriving DecidableEq, Repr

namespace Date

/-- Leap years of the Gregorian calendar. -/
def leap (y : Int) : Bool := y % 4 == 0 && (y % 100 != 0 || y % 400 == 0)

/-- Days of a month. -/
def daysIn (y : Int) (m : Nat) : Nat :=
  if m = 2 then (if leap y then 29 else 28)
  else if m = 4 ∨ m = 6 ∨ m = 9 ∨ m = 11 then 30 else 31

/-- The dates that exist (`NaiveDate` contains no others; its limit of about ±262000 years is dropped). -/
def Valid (d : Date) : Prop := 1 ≤ d.month ∧ d.month ≤ 12 ∧ 1 ≤ d.day ∧ d.day ≤ daysIn d.year d.month

instance (d : Date) : Decidable d.Valid := inferInstanceAs (Decidable (_ ∧ _))

/-- The day before: `date.add(Duration::days(-1))`. -/
def yesterday (d : Date) : Date :=
  if 1 < d.day then ⟨d.year, d.month, d.day - 1⟩
  else if 1 < d.month then ⟨d.year, d.month - 1, daysIn d.year (d.month - 1)⟩
  else ⟨d.year - 1, 12, 31⟩

/-- `%Y` of chrono: four digits for the years 0 to 9999, otherwise with a sign. -/
def fmtYear (y : Int) : Text :=
  if 0 ≤ y ∧ y ≤ 9999 then decPad 4 y.toNat
  else (if y < 0 then '-' else '+') :: decPad 4 y.natAbs

/-- `format("%Y%m%d")`. -/
def fmt (d : Date) : Text := fmtYear d.year ++ decPad 2 d.month ++ decPad 2 d.day

end Date

/-- `MeteoForecastRun` (`src/meteo_common/meteo_forecast_run.rs` 7-11). -/
structure Run where
  model : FcModel
  date : Date
  name : Text
  deriving DecidableEq, Repr

/-- `MeteoForecastRunStep` (`src/meteo_common/meteo_forecast_run_step.rs` 6-9). -/
structure RunStep where
  nr : Nat
  url : Text
  deriving DecidableEq, Repr

/-- `get_step_by_nr` (`src/meteo_common/meteo_forecast_run_step.rs` 35-44). -/
def getStepByNr (steps : List RunStep) (nr : Nat) : Res RunStep :=
  Res.okOr (steps.find? fun s => s.nr == nr)

/-- `get_forecast_steps` (`src/meteo_common/meteo_forecast_model.rs` 34-42). -/
def FcModel.forecastSteps (m : FcModel) : List RunStep :=
  (rangeIncl m.stepRange.1 m.stepRange.2).map fun n => ⟨n, []⟩

/-- `get_forecast_diff_steps` (`src/meteo_common/meteo_forecast_model.rs` 55-63). -/
def FcModel.forecastDiffSteps (m : FcModel) : Res (List RunStep) := do
  let r ← m.diffStepRange
  .ok ((rangeIncl r.1 r.2).map fun n => ⟨n, []⟩)

/-- `MeteoLayerType` (`src/meteo_chart/meteo_layer/meteo_layer_type.rs` 2-9). -/
inductive LayerType where
  | cloudPrecip
  | weather
  | wind10m
  | temp2m
  | verticalCloud
  | verticalWind
  deriving DecidableEq, Repr

namespace LayerType

/-- `get_name` (`src/meteo_chart/meteo_layer/meteo_layer_type.rs` 13-22). -/
def name : LayerType → Text
  | .cloudPrecip => "cloud_precip".toList
  | .weather => "weather".toList
  | .wind10m => "wind_10m".toList
  | .temp2m => "temp_2m".toList
  | .verticalCloud => "vertical_cloud".toList
  | .verticalWind => "vertical_wind".toList

/-- `get_output_subdir` (`src/meteo_chart/meteo_layer/meteo_layer_type.rs` 25-34). -/
def subdir : LayerType → Text
  | .cloudPrecip => "clct_precip".toList
  | .weather => "clct_precip".toList
  | .wind10m => "wind".toList
  | .temp2m => "temp".toList
  | .verticalCloud => "vertical_clouds".toList
  | .verticalWind => "vertical_wind".toList

end LayerType

/-- `MeteobinType` (`src/metobin/meteobin_type.rs` 2-9). -/
inductive BinType where
  | precip
  | temp2m
  | verticalClouds
  | verticalWind
  | wind10m
  | weather
  deriving DecidableEq, Repr

namespace BinType

/-- `get_output_file` (`src/metobin/meteobin_type.rs` 13-22). -/
def file : BinType → Text
  | .precip => "PRECIP.meteobin".toList
  | .temp2m => "TEMP.meteobin".toList
  | .verticalClouds => "VERTICAL_CLOUDS.meteobin".toList
  | .verticalWind => "VERTICAL_WIND.meteobin".toList
  | .wind10m => "WIND.meteobin".toList
  | .weather => "WW.meteobin".toList

/-- The layer type (`layer.get_type()`) in whose directory a file is written
(`src/metobin/precip_metobin.rs` 25, `temp_metobin.rs` 25, `vertical_cloud_metobin.rs` 25,
`vertical_wind_metobin.rs` 25, `wind_metobin.rs` 26, `weather_metobin.rs` 27; the layer types are
`src/meteo_chart/meteo_layer/meteo_cloud_precip_layer.rs` 44-46, `meteo_temp_2m_layer.rs` 26-28,
`meteo_vertical_cloud_layer.rs` 35-37, `meteo_vertical_wind_layer.rs` 38-40, `meteo_wind_10m_layer.rs` 51-53,
`weather_layer.rs` 42-44). -/
def layer : BinType → LayerType
  | .precip => .cloudPrecip
  | .temp2m => .temp2m
  | .verticalClouds => .verticalCloud
  | .verticalWind => .verticalWind
  | .wind10m => .wind10m
  | .weather => .weather

end BinType

/-- `get_output_path` (`src/meteo_common/meteo_forecast_renderer_helper.rs` 13-27). -/
def outputPath (run : Run) (step : Nat) (l : LayerType) : Text :=
  "./output/".toList ++ run.model.name ++ ['/'] ++ run.date.fmt ++ run.name ++ ['/'] ++ decPad 3 step ++ ['/'] ++
    l.subdir ++ ['/']

/-- The file of a meteobin (`src/metobin/precip_metobin.rs` 23-27, `temp_metobin.rs` 23-27,
`vertical_cloud_metobin.rs` 25-30, `vertical_wind_metobin.rs` 25-30, `wind_metobin.rs` 24-28,
`weather_metobin.rs` 25-29). -/
def binPath (run : Run) (step : Nat) (b : BinType) : Text := outputPath run step b.layer ++ b.file

end Verif
