import Verif.Model.Readers

/-!
# The program

`src/dwd/dwd_forecast_renderer/dwd_icon_forecast_renderer.rs`,
`src/meteo_swiss/forecast_renderer/icon_ch1_forecast_renderer.rs`, `src/meteo_swiss/data_geo_admin_ch/*.rs` and
`src/main.rs`.  Parsing the command line, sending requests and decoding JSON are not modelled: the arguments and
the answers are parameters.
-/

namespace Verif

open MapTileRenderer (Outcome Seq)

/-- What the program does: files written, and how it ends. -/
abbrev Effect := List Write → Outcome → Prop

/-- `let x = r?; ...`: without a value nothing is written. -/
def Effect.need {α : Type} (r : Res α) (f : α → Effect) : Effect :=
  match r with
  | .ok a => f a
  | .err => fun tr o => tr = [] ∧ o = .failed
  | .panic => fun tr o => tr = [] ∧ o = .panicked

/-- `if c { ...?; }`. -/
def Effect.when (c : Bool) (e : Effect) : Effect := if c then e else fun tr o => tr = [] ∧ o = .done

/-- `variable_filter.is_empty() || variable_filter.contains(&layer.get_name())`
(`src/dwd/dwd_forecast_renderer/dwd_icon_forecast_renderer.rs` 42). -/
def variableChosen (vars : List Text) (l : LayerType) : Bool := vars.isEmpty || vars.contains l.name

namespace Dwd

/-- The closure of `render_cloud_precip_forecast`
(`src/dwd/dwd_forecast_renderer/dwd_icon_forecast_renderer.rs` 87-97). -/
def cloudPrecipLayers (w : World) (run : Run) (clct totPrec : List RunStep) (step : RunStep) : Res Layers := do
  let l ← readCloudPrecip w run clct totPrec step
  let ww ← readWeather w run step
  .ok (.cloudPrecip l ww)

/-- The closure of `render_wind10m_forecast`
(`src/dwd/dwd_forecast_renderer/dwd_icon_forecast_renderer.rs` 110-112). -/
def windLayers (w : World) (run : Run) (step : RunStep) : Res Layers := do
  let l ← readWind w run step
  .ok (.wind l)

/-- The closure of `render_temp2m_forecast`
(`src/dwd/dwd_forecast_renderer/dwd_icon_forecast_renderer.rs` 125-127). -/
def tempLayers (w : World) (run : Run) (step : RunStep) : Res Layers := do
  let l ← readTemp w run step
  .ok (.temp l)

/-- The closure of `render_vertical_clouds_forecast`
(`src/dwd/dwd_forecast_renderer/dwd_icon_forecast_renderer.rs` 142-147). -/
def verticalCloudLayers (w : World) (run : Run) (levels : Nat × Nat) (hhl : List (LatLonValueGrid UInt8))
    (step : RunStep) : Res Layers := do
  let clc ← readClc w run step levels
  let l ← VerticalCloudLayer.new hhl clc
  .ok (.verticalCloud l)

/-- The closure of `render_vertical_wind_forecast`
(`src/dwd/dwd_forecast_renderer/dwd_icon_forecast_renderer.rs` 167-173). -/
def verticalWindLayers (w : World) (run : Run) (levels : Nat × Nat) (hhl : List (LatLonValueGrid UInt8))
    (step : RunStep) : Res Layers := do
  let u ← readUV w run .u step levels
  let v ← readUV w run .v step levels
  let l ← VerticalWindLayer.new hhl u v
  .ok (.verticalWind l)

/-- `render_cloud_precip_forecast` (`src/dwd/dwd_forecast_renderer/dwd_icon_forecast_renderer.rs` 81-102). -/
def renderCloudPrecip (m : Libm) (w : World) (dirs : Text → Bool) (filter : List Nat) (run : Run) : Effect :=
  Effect.need run.model.forecastDiffSteps fun totPrec =>
    renderSteps m run dirs run.model.forecastSteps filter (cloudPrecipLayers w run run.model.forecastSteps totPrec)

/-- `render_wind10m_forecast` (`src/dwd/dwd_forecast_renderer/dwd_icon_forecast_renderer.rs` 105-117). -/
def renderWind (m : Libm) (w : World) (dirs : Text → Bool) (filter : List Nat) (run : Run) : Effect :=
  renderSteps m run dirs run.model.forecastSteps filter (windLayers w run)

/-- `render_temp2m_forecast` (`src/dwd/dwd_forecast_renderer/dwd_icon_forecast_renderer.rs` 120-132). -/
def renderTemp (m : Libm) (w : World) (dirs : Text → Bool) (filter : List Nat) (run : Run) : Effect :=
  renderSteps m run dirs run.model.forecastSteps filter (tempLayers w run)

/-- `render_vertical_clouds_forecast`
(`src/dwd/dwd_forecast_renderer/dwd_icon_forecast_renderer.rs` 135-157). -/
def renderVerticalCloud (m : Libm) (w : World) (dirs : Text → Bool) (filter : List Nat) (run : Run)
    (hhl : List (LatLonValueGrid UInt8)) : Effect :=
  renderSteps m run dirs run.model.forecastSteps filter (verticalCloudLayers w run run.model.verticalLevels hhl)

/-- `render_vertical_wind_forecast`
(`src/dwd/dwd_forecast_renderer/dwd_icon_forecast_renderer.rs` 160-183). -/
def renderVerticalWind (m : Libm) (w : World) (dirs : Text → Bool) (filter : List Nat) (run : Run)
    (hhl : List (LatLonValueGrid UInt8)) : Effect :=
  renderSteps m run dirs run.model.forecastSteps filter (verticalWindLayers w run run.model.verticalLevels hhl)

/-- The parts of `render_latest_forecasts` after the run has been found
(`src/dwd/dwd_forecast_renderer/dwd_icon_forecast_renderer.rs` 42-77). -/
def renderRun (m : Libm) (w : World) (dirs : Text → Bool) (vars : List Text) (filter : List Nat) (run : Run) : Effect :=
  Seq [Effect.when (variableChosen vars .cloudPrecip) (renderCloudPrecip m w dirs filter run),
    Effect.when (variableChosen vars .wind10m) (renderWind m w dirs filter run),
    Effect.when (variableChosen vars .temp2m) (renderTemp m w dirs filter run),
    Effect.when (vars.isEmpty || vars.contains LayerType.verticalCloud.name || vars.contains LayerType.verticalWind.name)
      (Effect.need (readHhl w run run.model.verticalLevels) fun hhl =>
        Seq [Effect.when (variableChosen vars .verticalCloud) (renderVerticalCloud m w dirs filter run hhl),
          Effect.when (variableChosen vars .verticalWind) (renderVerticalWind m w dirs filter run hhl)])]

/-- `DwdIconForecastRenderer::render_latest_forecasts`
(`src/dwd/dwd_forecast_renderer/dwd_icon_forecast_renderer.rs` 31-78). -/
def renderLatest (m : Libm) (w : World) (dirs : Text → Bool) (today now : Date) (available : Text → Bool)
    (model : FcModel) (vars : List Text) (filter : List Nat) : Effect :=
  Effect.need (findLatestRun model today now available) (renderRun m w dirs vars filter)

end Dwd

namespace Swiss

/-- `IconChForecastVariable` (`src/meteo_swiss/forecast_run/icon_ch_forecast_variable.rs` 2-14). -/
inductive Variable where
  | clct | totPrec | ceiling | u10m | v10m | vmax10m | t2m | clc | u | v
  deriving DecidableEq, Repr

/-- `IconChAsset` (`src/meteo_swiss/data_geo_admin_ch/icon_ch_assets_response.rs` 31-36). -/
structure Asset where
  id : Text
  title : Text
  href : Text
  deriving DecidableEq, Repr

/-- The answers of the web service: the list of constant files, the reference times of the forecasts in the order
of the answer, and the files of a variable of the run with a given reference time. -/
structure Service where
  assets : Res (List Asset)
  refTimes : Res (List Text)
  search : Variable → Instant → Res (List SwissSearch.Feature)

/-- The calendar and text conversions of chrono. -/
structure Calendar where
  parse : Text → Res OffsetTime
  date : Instant → Date

/-- `find_asset_by_id` (`src/meteo_swiss/data_geo_admin_ch/icon_ch_assets_response.rs` 15-17). -/
def findAsset (assets : List Asset) (id : Text) : Option Asset := assets.find? fun a => a.id == id

/-- `HOR_CONSTS_ID` (`src/meteo_swiss/data_geo_admin_ch/icon_ch_assets_response.rs` 10). -/
def horConstId : Text := "horizontal_constants_icon-ch1-eps.grib2".toList

/-- `VERT_CONSTS_ID` (`src/meteo_swiss/data_geo_admin_ch/icon_ch_assets_response.rs` 11). -/
def vertConstId : Text := "vertical_constants_icon-ch1-eps.grib2".toList

/-- `get_forecast_run` (`src/meteo_swiss/forecast_renderer/icon_ch1_forecast_renderer.rs` 203-211). -/
def forecastRun (cal : Calendar) (t : Instant) : Res Run := do
  let name ← RefTime.runName t
  .ok ⟨.iconCh1, cal.date t, name⟩

/-- `get_forecast_run_steps` (`src/meteo_swiss/forecast_renderer/icon_ch1_forecast_renderer.rs` 214-234). -/
def steps (s : Service) (t : Instant) (x : Variable) (skipFirst : Bool) : Res (List RunStep) := do
  let features ← s.search x t
  let files ← SwissSearch.findFiles features
  .ok (SwissSearch.runSteps files skipFirst)

/-- `render_cloud_precip_forecast` (`src/meteo_swiss/forecast_renderer/icon_ch1_forecast_renderer.rs` 98-117). -/
def renderCloudPrecip (m : Libm) (w : World) (s : Service) (cal : Calendar) (dirs : Text → Bool) (filter : List Nat)
    (grid : UnstructuredGrid) (t : Instant) : Effect :=
  Effect.need (forecastRun cal t) fun run =>
  Effect.need (steps s t .clct true) fun clct =>
  Effect.need (steps s t .totPrec false) fun totPrec =>
  Effect.need (steps s t .ceiling false) fun ceiling =>
    renderSteps m run dirs clct filter fun step => do
      let l ← readCloudPrecip w grid clct totPrec step
      let ww ← readWeather w grid clct ceiling step
      .ok (.cloudPrecip l ww)

/-- `render_wind_10m_forecast` (`src/meteo_swiss/forecast_renderer/icon_ch1_forecast_renderer.rs` 120-136). -/
def renderWind (m : Libm) (w : World) (s : Service) (cal : Calendar) (dirs : Text → Bool) (filter : List Nat)
    (grid : UnstructuredGrid) (t : Instant) : Effect :=
  Effect.need (forecastRun cal t) fun run =>
  Effect.need (steps s t .u10m false) fun u10m =>
  Effect.need (steps s t .v10m false) fun v10m =>
  Effect.need (steps s t .vmax10m false) fun vmax10m =>
    renderSteps m run dirs u10m filter fun step => do
      let l ← readWind w grid u10m v10m vmax10m step
      .ok (.wind l)

/-- `render_temp_2m_forecast` (`src/meteo_swiss/forecast_renderer/icon_ch1_forecast_renderer.rs` 139-153). -/
def renderTemp (m : Libm) (w : World) (s : Service) (cal : Calendar) (dirs : Text → Bool) (filter : List Nat)
    (grid : UnstructuredGrid) (t : Instant) : Effect :=
  Effect.need (forecastRun cal t) fun run =>
  Effect.need (steps s t .t2m false) fun t2m =>
    renderSteps m run dirs t2m filter fun step => do
      let l ← readTemp w grid t2m step
      .ok (.temp l)

/-- `render_vertical_clouds_forecast`
(`src/meteo_swiss/forecast_renderer/icon_ch1_forecast_renderer.rs` 156-176). -/
def renderVerticalCloud (m : Libm) (w : World) (s : Service) (cal : Calendar) (dirs : Text → Bool) (filter : List Nat)
    (grid : UnstructuredGrid) (t : Instant) (hhl : List (LatLonValueGrid UInt8)) : Effect :=
  Effect.need (forecastRun cal t) fun run =>
  Effect.need (steps s t .clc false) fun clc =>
    renderSteps m run dirs clc filter fun step => do
      let l ← readVerticalCloud w grid hhl clc step
      .ok (.verticalCloud l)

/-- `render_vertical_wind_forecast`
(`src/meteo_swiss/forecast_renderer/icon_ch1_forecast_renderer.rs` 179-200). -/
def renderVerticalWind (m : Libm) (w : World) (s : Service) (cal : Calendar) (dirs : Text → Bool) (filter : List Nat)
    (grid : UnstructuredGrid) (t : Instant) (hhl : List (LatLonValueGrid UInt8)) : Effect :=
  Effect.need (forecastRun cal t) fun run =>
  Effect.need (steps s t .u false) fun u =>
  Effect.need (steps s t .v false) fun v =>
    renderSteps m run dirs u filter fun step => do
      let l ← readVerticalWind w grid hhl u v step
      .ok (.verticalWind l)

/-- The parts of `render_latest_forecasts` after the constants and the reference time are known
(`src/meteo_swiss/forecast_renderer/icon_ch1_forecast_renderer.rs` 55-94). -/
def renderRun (m : Libm) (w : World) (s : Service) (cal : Calendar) (dirs : Text → Bool) (vars : List Text)
    (filter : List Nat) (grid : UnstructuredGrid) (vertUrl : Text) (t : Instant) : Effect :=
  Seq [Effect.when (variableChosen vars .cloudPrecip) (renderCloudPrecip m w s cal dirs filter grid t),
    Effect.when (variableChosen vars .wind10m) (renderWind m w s cal dirs filter grid t),
    Effect.when (variableChosen vars .temp2m) (renderTemp m w s cal dirs filter grid t),
    Effect.when (vars.isEmpty || vars.contains LayerType.verticalCloud.name || vars.contains LayerType.verticalWind.name)
      (Effect.need (readHhl w grid vertUrl) fun hhl =>
        Seq [Effect.when (variableChosen vars .verticalCloud) (renderVerticalCloud m w s cal dirs filter grid t hhl),
          Effect.when (variableChosen vars .verticalWind) (renderVerticalWind m w s cal dirs filter grid t hhl)])]

/-- `IconCh1ForecastRenderer::render_latest_forecasts`
(`src/meteo_swiss/forecast_renderer/icon_ch1_forecast_renderer.rs` 38-95). -/
def renderLatest (m : Libm) (w : World) (s : Service) (cal : Calendar) (dirs : Text → Bool) (vars : List Text)
    (filter : List Nat) : Effect :=
  Effect.need s.assets fun assets =>
  Effect.need (Res.unwrap (findAsset assets horConstId)) fun hor =>
  Effect.need (readHorConst w hor.href) fun grid =>
  Effect.need (Res.unwrap (findAsset assets vertConstId)) fun vert =>
  Effect.need s.refTimes fun refTimes =>
  Effect.need (SwissSearch.findLatest cal.parse refTimes) fun t =>
    renderRun m w s cal dirs vars filter grid vert.href t

end Swiss

/-- Everything outside the program that it depends on. -/
structure Environment where
  libm : Libm
  world : World
  service : Swiss.Service
  calendar : Swiss.Calendar
  dirs : Text → Bool
  today : Date
  now : Date
  available : Text → Bool

/-- `main` (`src/main.rs` 27-57): the result of rendering is dropped after it has been printed. -/
def mainEffect (e : Environment) (model : Text) (vars : List Text) (filter : List Nat) : Effect :=
  if model = "icon-ch1".toList then Swiss.renderLatest e.libm e.world e.service e.calendar e.dirs vars filter
  else if model = "icon-d2".toList then
    Dwd.renderLatest e.libm e.world e.dirs e.today e.now e.available .iconD2 vars filter
  else if model = "icon-eu".toList then
    Dwd.renderLatest e.libm e.world e.dirs e.today e.now e.available .iconEu vars filter
  else fun tr o => tr = [] ∧ o = .done

/-- The exit status of the process: `main` returns normally after an error too, a panic ends with 101. -/
def exitStatus : Outcome → Nat
  | .done => 0
  | .failed => 0
  | .panicked => 101

end Verif
