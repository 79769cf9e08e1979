import Verif.Model.Dwd
import Verif.Model.Physics
import Verif.Model.Render
import Verif.Model.Swiss
import Verif.Model.Unstructured

/-!
# Reading the layers of a step

`src/grib2/converter/file_to_grid_converter.rs`, `src/system/file_helper.rs`, `src/dwd/dwd_file_reader/*.rs`
and `src/meteo_swiss/file_reader/*.rs`.

Downloading, unpacking bzip2 and opening a file are parameters.  A file that is read twice has the same
content both times.
-/

namespace Verif

/-- The outside world: the body of the answer to a GET request (nothing if the request fails), the content of a
local file (nothing if it cannot be opened), and what the bzip2 decoder delivers for a stream until its end or until
its first error. -/
structure World where
  download : Text → Option (List UInt8)
  file : Text → Option (List UInt8)
  bunzip : List UInt8 → List UInt8

namespace World

/-- The stream that is decoded (`src/grib2/converter/file_to_grid_converter.rs` 22-32 and 36-46,
`src/system/file_helper.rs` 14-37). -/
def stream (w : World) (name : Text) : Res (List UInt8) :=
  if Dwd.isUrl name then do
    let body ← Res.okOr (w.download name)
    .ok (if Dwd.isBz2 name then w.bunzip body else body)
  else Res.okOr (w.file name)

/-- `read_single_doc_from_file_or_url` (`src/grib2/converter/file_to_grid_converter.rs` 21-32). -/
def readSingle (w : World) (name : Text) : Res Grib2.Document := do
  let s ← w.stream name
  let r ← Grib2.readSingleDoc s
  .ok r.1

/-- `read_multi_doc_from_file_or_url` (`src/grib2/converter/file_to_grid_converter.rs` 35-46). -/
def readMulti (w : World) (name : Text) : Res (List Grib2.Document) := do
  let s ← w.stream name
  Grib2.readMultiDoc s

/-- `read_rectangular_grid_from_file_and_transform` (`src/grib2/converter/file_to_grid_converter.rs` 60-69) and,
with the identity as transformation, `read_rectangular_grid_from_file` (49-57). -/
def readRectangular {T : Type} (w : World) (name : Text) (missing : T) (transform : Fl → T) :
    Res (LatLonValueGrid T) := do
  let doc ← w.readSingle name
  Grib2.createRegularGrid doc missing transform

/-- `read_unstructured_grid_from_file_and_transform` (`src/grib2/converter/file_to_grid_converter.rs` 72-84). -/
def readUnstructured {T : Type} (w : World) (name : Text) (missing : T) (transform : Fl → T) (grid : UnstructuredGrid) :
    Res (LatLonValueGrid T) := do
  let doc ← w.readSingle name
  Grib2.convertUnstructured missing transform grid doc

/-- `read_multi_unstructured_grids_from_file_and_transform`
(`src/grib2/converter/file_to_grid_converter.rs` 87-114). -/
def readMultiUnstructured {T : Type} (w : World) (name : Text) (missing : T) (transform : Fl → T)
    (grid : UnstructuredGrid) (range : Option (Nat × Nat)) : Res (List (LatLonValueGrid T)) := do
  let docs ← w.readMulti name
  Grib2.convertMulti docs missing transform grid range

end World

/-! ## Value transformations -/

/-- `MISSING_VALUE` of the readers of single level files, e.g. `src/dwd/dwd_file_reader/dwd_icon_t_2m_reader.rs` 18,
`src/meteo_swiss/file_reader/icon_ch_t_2m_reader.rs` 13. -/
def missingF32 : Fl := .fin (-1)

/-- `x as u8` (`src/dwd/dwd_file_reader/dwd_icon_clc_reader.rs` 30,
`src/meteo_swiss/file_reader/icon_ch_clc_reader.rs` 56-58). -/
def clcByte (x : Fl) : UInt8 := UInt8.ofNat (Fl.toU8 x)

/-- `(Length::from_meters_to_feet(x) / 100.0) as u8` (`src/dwd/dwd_file_reader/dwd_icon_hhl_reader.rs` 29,
`src/meteo_swiss/file_reader/icon_ch_hhl_reader.rs` 38-40). -/
def hhlByte (x : Fl) : UInt8 := UInt8.ofNat (Fl.toU8 (Fl.div f32 (Physics.metersToFeet x) (.fin 100)))

/-- `(Speed::from_mps_to_knots(x) + 128.0).round().min(254.0).max(0.0) as u8`
(`src/dwd/dwd_file_reader/dwd_icon_u_reader.rs` 30-35, `dwd_icon_v_reader.rs` 31,
`src/meteo_swiss/file_reader/icon_ch_u_reader.rs` 38-43, `icon_ch_v_reader.rs` 38-43). -/
def uvByte (x : Fl) : UInt8 :=
  UInt8.ofNat (Fl.toU8 (Fl.fmax
    (Fl.fmin (Fl.round (Fl.add f32 (Physics.mpsToKnots x) (.fin 128))) (.fin 254)) (.fin 0)))

/-- `value / 100.0` (`src/meteo_swiss/file_reader/icon_ch_clct_reader.rs` 25-27). -/
def clctFraction (x : Fl) : Fl := Fl.div f32 x (.fin 100)

/-! ## DWD -/

namespace Dwd

/-- The readers of single level files (`read_grid_from_file` and `DwdIconT2mReader::read_layer`, e.g.
`src/dwd/dwd_file_reader/dwd_icon_ceiling_reader.rs` 21-32, `dwd_icon_t_2m_reader.rs` 21-33). -/
def readGrid (w : World) (run : Run) (x : SingleVar) (step : RunStep) : Res (LatLonValueGrid Fl) := do
  let url ← fileUrl run (.single x step.nr)
  w.readRectangular url missingF32 id

/-- `DwdIconT2mReader::read_layer` (`src/dwd/dwd_file_reader/dwd_icon_t_2m_reader.rs` 21-33). -/
def readTemp (w : World) (run : Run) (step : RunStep) : Res TempLayer := do
  let g ← readGrid w run .t2m step
  .ok ⟨g⟩

/-- `DwdIconWind10mReader::read_layer` (`src/dwd/dwd_file_reader/dwd_icon_wind_10m_reader.rs` 14-25). -/
def readWind (w : World) (run : Run) (step : RunStep) : Res WindLayer := do
  let u ← readGrid w run .u10m step
  let v ← readGrid w run .v10m step
  let gusts ← readGrid w run .vmax10m step
  WindLayer.new u v (some gusts)

/-- `DwdIconCloudPrecipReader::read_layer` (`src/dwd/dwd_file_reader/dwd_icon_cloud_precip_reader.rs` 13-31). -/
def readCloudPrecip (w : World) (run : Run) (clct totPrec : List RunStep) (step : RunStep) :
    Res CloudPrecipLayer := do
  let (c, p0, p1) ← cloudPrecipSteps step clct totPrec
  let clct ← readGrid w run .clctMod c
  let prec0 ← readGrid w run .totPrec p0
  let prec1 ← readGrid w run .totPrec p1
  CloudPrecipLayer.new clct prec0 prec1

/-- `DwdIconWeatherReader::read_layer` (`src/dwd/dwd_file_reader/dwd_icon_weather_reader.rs` 14-25). -/
def readWeather (w : World) (run : Run) (step : RunStep) : Res WeatherLayer := do
  let clct ← readGrid w run .clctMod step
  let ceiling ← readGrid w run .ceiling step
  let ww ← readGrid w run .ww step
  WeatherLayer.new clct ceiling (some ww)

/-- `read_clc_grids` (`src/dwd/dwd_file_reader/dwd_icon_clc_reader.rs` 25-51).  The levels are read in parallel; the
grids are collected in their order. -/
def readClc (w : World) (run : Run) (step : RunStep) (levels : Nat × Nat) : Res (List (LatLonValueGrid UInt8)) :=
  Res.mapM (fun level => do
    let url ← fileUrl run (.level .clc step.nr level)
    w.readRectangular url 0 clcByte) (rangeIncl levels.1 levels.2)

/-- `read_u_grids`, `read_v_grids` (`src/dwd/dwd_file_reader/dwd_icon_u_reader.rs` 25-57,
`dwd_icon_v_reader.rs` 26-48). -/
def readUV (w : World) (run : Run) (x : LevelVar) (step : RunStep) (levels : Nat × Nat) :
    Res (List (LatLonValueGrid UInt8)) :=
  Res.mapM (fun level => do
    let url ← fileUrl run (.level x step.nr level)
    w.readRectangular url 255 uvByte) (rangeIncl levels.1 levels.2)

/-- `read_hhl_grids` (`src/dwd/dwd_file_reader/dwd_icon_hhl_reader.rs` 25-46). -/
def readHhl (w : World) (run : Run) (levels : Nat × Nat) : Res (List (LatLonValueGrid UInt8)) :=
  Res.mapM (fun level => do
    let url ← fileUrl run (.hhl level)
    w.readRectangular url 0 hhlByte) (rangeIncl levels.1 levels.2)

end Dwd

/-! ## MeteoSwiss -/

namespace Swiss

/-- The readers of single level files, `read_grid_from_file` and `transform_values`
(`src/meteo_swiss/file_reader/icon_ch_ceiling_reader.rs` 13-27, `icon_ch_clct_reader.rs` 13-27,
`icon_ch_t_2m_reader.rs` 31-45, `icon_ch_tot_prec_reader.rs` 13-27, `icon_ch_wind_u_10m_reader.rs` 13-27,
`icon_ch_wind_v_10m_reader.rs` 13-27, `icon_ch_wind_vmax_10m_reader.rs` 13-27); all but the cloud cover keep the
value. -/
def readGrid (w : World) (grid : UnstructuredGrid) (transform : Fl → Fl) (step : RunStep) : Res (LatLonValueGrid Fl) :=
  w.readUnstructured step.url missingF32 transform grid

/-- `IconChT2mReader::read_layer` (`src/meteo_swiss/file_reader/icon_ch_t_2m_reader.rs` 16-28). -/
def readTemp (w : World) (grid : UnstructuredGrid) (t2m : List RunStep) (step : RunStep) : Res TempLayer := do
  let s ← Res.unwrapResult (getStepByNr t2m step.nr)
  let g ← readGrid w grid id s
  .ok ⟨g⟩

/-- `IconChWind10mReader::read_layer` (`src/meteo_swiss/file_reader/icon_ch_wind_10m_reader.rs` 14-33); missing
steps are errors here. -/
def readWind (w : World) (grid : UnstructuredGrid) (u10m v10m vmax10m : List RunStep) (step : RunStep) :
    Res WindLayer := do
  let us ← getStepByNr u10m step.nr
  let vs ← getStepByNr v10m step.nr
  let gs ← getStepByNr vmax10m step.nr
  let u ← readGrid w grid id us
  let v ← readGrid w grid id vs
  let gusts ← readGrid w grid id gs
  WindLayer.new u v (some gusts)

/-- `IconChCloudPrecipReader::read_layer` (`src/meteo_swiss/file_reader/icon_ch_cloud_precip_reader.rs` 13-31). -/
def readCloudPrecip (w : World) (grid : UnstructuredGrid) (clct totPrec : List RunStep) (step : RunStep) :
    Res CloudPrecipLayer := do
  let (c, p0, p1) ← cloudPrecipSteps step clct totPrec
  let clct ← readGrid w grid clctFraction c
  let prec0 ← readGrid w grid id p0
  let prec1 ← readGrid w grid id p1
  CloudPrecipLayer.new clct prec0 prec1

/-- `IconChWwReader::read_layer` (`src/meteo_swiss/file_reader/icon_ch_ww_reader.rs` 13-31). -/
def readWeather (w : World) (grid : UnstructuredGrid) (clct ceiling : List RunStep) (step : RunStep) :
    Res WeatherLayer := do
  let cs ← Res.unwrapResult (getStepByNr clct step.nr)
  let es ← Res.unwrapResult (getStepByNr ceiling step.nr)
  let clct ← readGrid w grid clctFraction cs
  let ceiling ← readGrid w grid id es
  WeatherLayer.new clct ceiling none

/-- `get_vertical_level_range` (`src/meteo_swiss/common/icon_ch1_model_config.rs` 7-9): positions of messages in
the file. -/
def levels : Nat × Nat := (31, 79)

/-- `IconChHhlReader::read_grids` (`src/meteo_swiss/file_reader/icon_ch_hhl_reader.rs` 17-35). -/
def readHhl (w : World) (grid : UnstructuredGrid) (url : Text) : Res (List (LatLonValueGrid UInt8)) :=
  w.readMultiUnstructured url 0 hhlByte grid (some levels)

/-- `IconChClcReader::read_layer` (`src/meteo_swiss/file_reader/icon_ch_clc_reader.rs` 19-53). -/
def readVerticalCloud (w : World) (grid : UnstructuredGrid) (hhl : List (LatLonValueGrid UInt8)) (clc : List RunStep)
    (step : RunStep) : Res VerticalCloudLayer := do
  let s ← Res.unwrapResult (getStepByNr clc step.nr)
  let grids ← w.readMultiUnstructured s.url 0 clcByte grid (some levels)
  VerticalCloudLayer.new hhl grids

/-- `IconChVerticalWindReader::read_layer` (`src/meteo_swiss/file_reader/icon_ch_vertical_wind_reader.rs` 15-33,
`icon_ch_u_reader.rs` 17-35, `icon_ch_v_reader.rs` 17-35). -/
def readVerticalWind (w : World) (grid : UnstructuredGrid) (hhl : List (LatLonValueGrid UInt8)) (u v : List RunStep)
    (step : RunStep) : Res VerticalWindLayer := do
  let us ← Res.unwrapResult (getStepByNr u step.nr)
  let vs ← Res.unwrapResult (getStepByNr v step.nr)
  let ug ← w.readMultiUnstructured us.url 255 uvByte grid (some levels)
  let vg ← w.readMultiUnstructured vs.url 255 uvByte grid (some levels)
  VerticalWindLayer.new hhl ug vg

/-- `IMG_DIMENSIONS` (`src/meteo_swiss/file_reader/icon_ch_hor_const_reader.rs` 13). -/
def gridDims : Nat × Nat := (1851, 847)

/-- The extent of the regular grid (`src/meteo_swiss/file_reader/icon_ch_hor_const_reader.rs` 15-18, 25-28). -/
def gridExtent : Res LatLonExtent :=
  LatLonExtent.new (LatLon.new (lit (4203 / 100)) (lit (-81 / 100))) (LatLon.new (lit (5050 / 100)) (lit (1770 / 100)))

/-- `MAX_COORD_DIST_DEG` (`src/meteo_swiss/file_reader/icon_ch_hor_const_reader.rs` 14). -/
def maxDist : Fl := lit (1 / 100)

/-- `IconHorConstReader::read_grid_from_file`
(`src/meteo_swiss/file_reader/icon_ch_hor_const_reader.rs` 21-34). -/
def readHorConst (w : World) (url : Text) : Res UnstructuredGrid := do
  let docs ← w.readMulti url
  let clat ← Res.index docs 4
  let clon ← Res.index docs 3
  let ext ← gridExtent
  let coordinates ← Grib2.getLatLonValues clat clon
  let g ← UnstructuredGrid.new gridDims ext coordinates
  g.calcCoordDistLookupMap maxDist

end Swiss

end Verif
