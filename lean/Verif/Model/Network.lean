import Verif.Model.Program

/-!
# A network that is not reliable

`Verif.Model.Readers` takes a download as a function of the URL: a file that is requested twice is delivered twice, or
twice not at all.  Here every request is answered anew, with any of several answers (the file, nothing, a part of it, a page
of an overloaded server), also if the same URL was requested before.  The code makes every request once
(`src/system/file_helper.rs` 14-27, no repetition after an error).

The definitions are those of `Verif.Model.Readers` and `Verif.Model.Program` with requests of this kind.  Local files, the
bzip2 decoder, the clock and the answers of the catalogues (each of which is requested once during a call) are as there.
-/

namespace Verif

open MapTileRenderer (Outcome Seq)

/-- The answers that a request may get. -/
abbrev Net := Text → Option (List UInt8) → Prop

/-- The results that a computation may have. -/
def May (α : Type) := Res α → Prop

namespace May

/-- A computation with one result. -/
def of {α : Type} (r : Res α) : May α := fun x => x = r

/-- `?`: an error or a panic ends the function. -/
def bind {α β : Type} (x : May α) (f : α → May β) : May β := fun r =>
  (x .err ∧ r = .err) ∨ (x .panic ∧ r = .panic) ∨ ∃ a, x (.ok a) ∧ f a r

instance : Monad May where
  pure a := of (.ok a)
  bind := bind

instance : MonadLift Res May where
  monadLift := of

/-- `Res.mapM` (an error or a panic is that of the first element without result). -/
def mapM {α β : Type} (f : α → May β) : List α → May (List β)
  | [] => pure []
  | a :: as => do
    let b ← f a
    let bs ← mapM f as
    pure (b :: bs)

end May

namespace Net

/-- A GET request (`src/system/file_helper.rs` 16-20). -/
def request (net : Net) (url : Text) : May (List UInt8) := fun r => ∃ a, net url a ∧ r = Res.okOr a

/-- `World.stream` (`src/grib2/converter/file_to_grid_converter.rs` 22-32 and 36-46, `src/system/file_helper.rs` 14-37). -/
def stream (net : Net) (w : World) (name : Text) : May (List UInt8) :=
  if Dwd.isUrl name then do
    let body ← net.request name
    pure (if Dwd.isBz2 name then w.bunzip body else body)
  else May.of (Res.okOr (w.file name))

/-- `World.readSingle` (`src/grib2/converter/file_to_grid_converter.rs` 21-32). -/
def readSingle (net : Net) (w : World) (name : Text) : May Grib2.Document := do
  let s ← net.stream w name
  let r ← Grib2.readSingleDoc s
  pure r.1

/-- `World.readMulti` (`src/grib2/converter/file_to_grid_converter.rs` 35-46). -/
def readMulti (net : Net) (w : World) (name : Text) : May (List Grib2.Document) := do
  let s ← net.stream w name
  Grib2.readMultiDoc s

/-- `World.readRectangular` (`src/grib2/converter/file_to_grid_converter.rs` 49-69). -/
def readRectangular {T : Type} (net : Net) (w : World) (name : Text) (missing : T) (transform : Fl → T) :
    May (LatLonValueGrid T) := do
  let doc ← net.readSingle w name
  Grib2.createRegularGrid doc missing transform

/-- `World.readUnstructured` (`src/grib2/converter/file_to_grid_converter.rs` 72-84). -/
def readUnstructured {T : Type} (net : Net) (w : World) (name : Text) (missing : T) (transform : Fl → T)
    (grid : UnstructuredGrid) : May (LatLonValueGrid T) := do
  let doc ← net.readSingle w name
  Grib2.convertUnstructured missing transform grid doc

/-- `World.readMultiUnstructured` (`src/grib2/converter/file_to_grid_converter.rs` 87-114). -/
def readMultiUnstructured {T : Type} (net : Net) (w : World) (name : Text) (missing : T) (transform : Fl → T)
    (grid : UnstructuredGrid) (range : Option (Nat × Nat)) : May (List (LatLonValueGrid T)) := do
  let docs ← net.readMulti w name
  Grib2.convertMulti docs missing transform grid range

/-! ## DWD -/

/-- `Dwd.readGrid` (e.g. `src/dwd/dwd_file_reader/dwd_icon_ceiling_reader.rs` 21-32). -/
def dwdGrid (net : Net) (w : World) (run : Run) (x : Dwd.SingleVar) (step : RunStep) : May (LatLonValueGrid Fl) := do
  let url ← Dwd.fileUrl run (.single x step.nr)
  net.readRectangular w url missingF32 id

/-- `Dwd.windLayers` (`src/dwd/dwd_file_reader/dwd_icon_wind_10m_reader.rs` 14-25). -/
def dwdWind (net : Net) (w : World) (run : Run) (step : RunStep) : May Layers := do
  let u ← net.dwdGrid w run .u10m step
  let v ← net.dwdGrid w run .v10m step
  let gusts ← net.dwdGrid w run .vmax10m step
  let l ← WindLayer.new u v (some gusts)
  pure (.wind l)

/-- `Dwd.tempLayers` (`src/dwd/dwd_file_reader/dwd_icon_t_2m_reader.rs` 21-33). -/
def dwdTemp (net : Net) (w : World) (run : Run) (step : RunStep) : May Layers := do
  let g ← net.dwdGrid w run .t2m step
  pure (.temp ⟨g⟩)

/-- `Dwd.cloudPrecipLayers` (`src/dwd/dwd_file_reader/dwd_icon_cloud_precip_reader.rs` 13-31,
`src/dwd/dwd_file_reader/dwd_icon_weather_reader.rs` 14-25): the cloud cover is requested twice. -/
def dwdCloudPrecip (net : Net) (w : World) (run : Run) (clct totPrec : List RunStep) (step : RunStep) : May Layers := do
  let (c, p0, p1) ← cloudPrecipSteps step clct totPrec
  let clct ← net.dwdGrid w run .clctMod c
  let prec0 ← net.dwdGrid w run .totPrec p0
  let prec1 ← net.dwdGrid w run .totPrec p1
  let l ← CloudPrecipLayer.new clct prec0 prec1
  let clct ← net.dwdGrid w run .clctMod step
  let ceiling ← net.dwdGrid w run .ceiling step
  let ww ← net.dwdGrid w run .ww step
  let ww ← WeatherLayer.new clct ceiling (some ww)
  pure (.cloudPrecip l ww)

/-- `Dwd.readHhl` (`src/dwd/dwd_file_reader/dwd_icon_hhl_reader.rs` 25-46). -/
def dwdHhl (net : Net) (w : World) (run : Run) (levels : Nat × Nat) : May (List (LatLonValueGrid UInt8)) :=
  May.mapM (fun level => do
    let url ← Dwd.fileUrl run (.hhl level)
    net.readRectangular w url 0 hhlByte) (rangeIncl levels.1 levels.2)

/-- `Dwd.readClc` (`src/dwd/dwd_file_reader/dwd_icon_clc_reader.rs` 25-51). -/
def dwdClc (net : Net) (w : World) (run : Run) (step : RunStep) (levels : Nat × Nat) :
    May (List (LatLonValueGrid UInt8)) :=
  May.mapM (fun level => do
    let url ← Dwd.fileUrl run (.level .clc step.nr level)
    net.readRectangular w url 0 clcByte) (rangeIncl levels.1 levels.2)

/-- `Dwd.readUV` (`src/dwd/dwd_file_reader/dwd_icon_u_reader.rs` 25-57, `dwd_icon_v_reader.rs` 26-48). -/
def dwdUV (net : Net) (w : World) (run : Run) (x : Dwd.LevelVar) (step : RunStep) (levels : Nat × Nat) :
    May (List (LatLonValueGrid UInt8)) :=
  May.mapM (fun level => do
    let url ← Dwd.fileUrl run (.level x step.nr level)
    net.readRectangular w url 255 uvByte) (rangeIncl levels.1 levels.2)

/-- `Dwd.verticalCloudLayers` (`src/dwd/dwd_forecast_renderer/dwd_icon_forecast_renderer.rs` 142-147). -/
def dwdVerticalCloud (net : Net) (w : World) (run : Run) (levels : Nat × Nat) (hhl : List (LatLonValueGrid UInt8))
    (step : RunStep) : May Layers := do
  let clc ← net.dwdClc w run step levels
  let l ← VerticalCloudLayer.new hhl clc
  pure (.verticalCloud l)

/-- `Dwd.verticalWindLayers` (`src/dwd/dwd_forecast_renderer/dwd_icon_forecast_renderer.rs` 167-173). -/
def dwdVerticalWind (net : Net) (w : World) (run : Run) (levels : Nat × Nat) (hhl : List (LatLonValueGrid UInt8))
    (step : RunStep) : May Layers := do
  let u ← net.dwdUV w run .u step levels
  let v ← net.dwdUV w run .v step levels
  let l ← VerticalWindLayer.new hhl u v
  pure (.verticalWind l)

/-! ## MeteoSwiss -/

/-- `Swiss.readGrid` (e.g. `src/meteo_swiss/file_reader/icon_ch_ceiling_reader.rs` 13-27). -/
def swissGrid (net : Net) (w : World) (grid : UnstructuredGrid) (transform : Fl → Fl) (step : RunStep) :
    May (LatLonValueGrid Fl) := net.readUnstructured w step.url missingF32 transform grid

/-- `Swiss.readTemp` (`src/meteo_swiss/file_reader/icon_ch_t_2m_reader.rs` 16-28). -/
def swissTemp (net : Net) (w : World) (grid : UnstructuredGrid) (t2m : List RunStep) (step : RunStep) : May Layers := do
  let s ← Res.unwrapResult (getStepByNr t2m step.nr)
  let g ← net.swissGrid w grid id s
  pure (.temp ⟨g⟩)

/-- `Swiss.readWind` (`src/meteo_swiss/file_reader/icon_ch_wind_10m_reader.rs` 14-33). -/
def swissWind (net : Net) (w : World) (grid : UnstructuredGrid) (u10m v10m vmax10m : List RunStep) (step : RunStep) :
    May Layers := do
  let us ← getStepByNr u10m step.nr
  let vs ← getStepByNr v10m step.nr
  let gs ← getStepByNr vmax10m step.nr
  let u ← net.swissGrid w grid id us
  let v ← net.swissGrid w grid id vs
  let gusts ← net.swissGrid w grid id gs
  let l ← WindLayer.new u v (some gusts)
  pure (.wind l)

/-- `Swiss.readCloudPrecip` and `Swiss.readWeather`
(`src/meteo_swiss/file_reader/icon_ch_cloud_precip_reader.rs` 13-31, `icon_ch_ww_reader.rs` 13-31): the cloud cover is
requested twice. -/
def swissCloudPrecip (net : Net) (w : World) (grid : UnstructuredGrid) (clct totPrec ceiling : List RunStep)
    (step : RunStep) : May Layers := do
  let (c, p0, p1) ← cloudPrecipSteps step clct totPrec
  let cloud ← net.swissGrid w grid clctFraction c
  let prec0 ← net.swissGrid w grid id p0
  let prec1 ← net.swissGrid w grid id p1
  let l ← CloudPrecipLayer.new cloud prec0 prec1
  let cs ← Res.unwrapResult (getStepByNr clct step.nr)
  let es ← Res.unwrapResult (getStepByNr ceiling step.nr)
  let cloud ← net.swissGrid w grid clctFraction cs
  let ceil ← net.swissGrid w grid id es
  let ww ← WeatherLayer.new cloud ceil none
  pure (.cloudPrecip l ww)

/-- `Swiss.readHhl` (`src/meteo_swiss/file_reader/icon_ch_hhl_reader.rs` 17-35). -/
def swissHhl (net : Net) (w : World) (grid : UnstructuredGrid) (url : Text) : May (List (LatLonValueGrid UInt8)) :=
  net.readMultiUnstructured w url 0 hhlByte grid (some Swiss.levels)

/-- `Swiss.readVerticalCloud` (`src/meteo_swiss/file_reader/icon_ch_clc_reader.rs` 19-53). -/
def swissVerticalCloud (net : Net) (w : World) (grid : UnstructuredGrid) (hhl : List (LatLonValueGrid UInt8))
    (clc : List RunStep) (step : RunStep) : May Layers := do
  let s ← Res.unwrapResult (getStepByNr clc step.nr)
  let grids ← net.readMultiUnstructured w s.url 0 clcByte grid (some Swiss.levels)
  let l ← VerticalCloudLayer.new hhl grids
  pure (.verticalCloud l)

/-- `Swiss.readVerticalWind` (`src/meteo_swiss/file_reader/icon_ch_vertical_wind_reader.rs` 15-33). -/
def swissVerticalWind (net : Net) (w : World) (grid : UnstructuredGrid) (hhl : List (LatLonValueGrid UInt8))
    (u v : List RunStep) (step : RunStep) : May Layers := do
  let us ← Res.unwrapResult (getStepByNr u step.nr)
  let vs ← Res.unwrapResult (getStepByNr v step.nr)
  let ug ← net.readMultiUnstructured w us.url 255 uvByte grid (some Swiss.levels)
  let vg ← net.readMultiUnstructured w vs.url 255 uvByte grid (some Swiss.levels)
  let l ← VerticalWindLayer.new hhl ug vg
  pure (.verticalWind l)

/-- `Swiss.readHorConst` (`src/meteo_swiss/file_reader/icon_ch_hor_const_reader.rs` 21-34). -/
def swissHorConst (net : Net) (w : World) (url : Text) : May UnstructuredGrid := do
  let docs ← net.readMulti w url
  let clat ← Res.index docs 4
  let clon ← Res.index docs 3
  let ext ← Swiss.gridExtent
  let coordinates ← Grib2.getLatLonValues clat clon
  let g ← UnstructuredGrid.new Swiss.gridDims ext coordinates
  g.calcCoordDistLookupMap Swiss.maxDist

end Net

/-! ## The program -/

/-- `let x = r?; ...` (`Effect.need`). -/
def Effect.needs {α : Type} (r : May α) (f : α → Effect) : Effect := fun tr o =>
  (r .err ∧ tr = [] ∧ o = .failed) ∨ (r .panic ∧ tr = [] ∧ o = .panicked) ∨ ∃ a, r (.ok a) ∧ f a tr o

/-- The closure called for a step (`runStep`, e.g. `src/meteo_chart/forecast_renderer/cloud_precip_forecast_renderer.rs`
28-44). -/
def runStepNet (m : Libm) (run : Run) (dirs : Text → Bool) (filter : List Nat) (read : RunStep → May Layers)
    (s : RunStep) : Effect :=
  if selected filter s then Effect.needs (read s) fun l => RunJob m run dirs s.nr l.job
  else fun tr o => tr = [] ∧ o = .done

/-- `renderSteps` (`src/meteo_chart/forecast_renderer/cloud_precip_forecast_renderer.rs` 17-45 and the others). -/
def renderStepsNet (m : Libm) (run : Run) (dirs : Text → Bool) (steps : List RunStep) (filter : List Nat)
    (read : RunStep → May Layers) : Effect :=
  ParTry (runStepNet m run dirs filter read) steps

/-- `Dwd.renderRun` (`src/dwd/dwd_forecast_renderer/dwd_icon_forecast_renderer.rs` 42-77). -/
def Dwd.renderRunNet (net : Net) (m : Libm) (w : World) (dirs : Text → Bool) (vars : List Text) (filter : List Nat)
    (run : Run) : Effect :=
  let render := renderStepsNet m run dirs run.model.forecastSteps filter
  let levels := run.model.verticalLevels
  Seq [Effect.when (variableChosen vars .cloudPrecip) (Effect.need run.model.forecastDiffSteps fun totPrec =>
      render (net.dwdCloudPrecip w run run.model.forecastSteps totPrec)),
    Effect.when (variableChosen vars .wind10m) (render (net.dwdWind w run)),
    Effect.when (variableChosen vars .temp2m) (render (net.dwdTemp w run)),
    Effect.when (vars.isEmpty || vars.contains LayerType.verticalCloud.name || vars.contains LayerType.verticalWind.name)
      (Effect.needs (net.dwdHhl w run levels) fun hhl =>
        Seq [Effect.when (variableChosen vars .verticalCloud) (render (net.dwdVerticalCloud w run levels hhl)),
          Effect.when (variableChosen vars .verticalWind) (render (net.dwdVerticalWind w run levels hhl))])]

/-- `Swiss.renderRun` (`src/meteo_swiss/forecast_renderer/icon_ch1_forecast_renderer.rs` 55-94 and 98-200). -/
def Swiss.renderRunNet (net : Net) (m : Libm) (w : World) (s : Service) (cal : Calendar) (dirs : Text → Bool)
    (vars : List Text) (filter : List Nat) (grid : UnstructuredGrid) (vertUrl : Text) (t : Instant) : Effect :=
  let render := fun run first read => renderStepsNet m run dirs first filter read
  Seq [Effect.when (variableChosen vars .cloudPrecip)
      (Effect.need (forecastRun cal t) fun run =>
      Effect.need (steps s t .clct true) fun clct =>
      Effect.need (steps s t .totPrec false) fun totPrec =>
      Effect.need (steps s t .ceiling false) fun ceiling =>
        render run clct (net.swissCloudPrecip w grid clct totPrec ceiling)),
    Effect.when (variableChosen vars .wind10m)
      (Effect.need (forecastRun cal t) fun run =>
      Effect.need (steps s t .u10m false) fun u10m =>
      Effect.need (steps s t .v10m false) fun v10m =>
      Effect.need (steps s t .vmax10m false) fun vmax10m =>
        render run u10m (net.swissWind w grid u10m v10m vmax10m)),
    Effect.when (variableChosen vars .temp2m)
      (Effect.need (forecastRun cal t) fun run =>
      Effect.need (steps s t .t2m false) fun t2m =>
        render run t2m (net.swissTemp w grid t2m)),
    Effect.when (vars.isEmpty || vars.contains LayerType.verticalCloud.name || vars.contains LayerType.verticalWind.name)
      (Effect.needs (net.swissHhl w grid vertUrl) fun hhl =>
        Seq [Effect.when (variableChosen vars .verticalCloud)
            (Effect.need (forecastRun cal t) fun run =>
            Effect.need (steps s t .clc false) fun clc =>
              render run clc (net.swissVerticalCloud w grid hhl clc)),
          Effect.when (variableChosen vars .verticalWind)
            (Effect.need (forecastRun cal t) fun run =>
            Effect.need (steps s t .u false) fun u =>
            Effect.need (steps s t .v false) fun v =>
              render run u (net.swissVerticalWind w grid hhl u v))])]

/-- `main` (`src/main.rs` 27-57) with a network that is not reliable; of the world of `e` only the local files and the
decoder are used. -/
def mainNet (net : Net) (e : Environment) (model : Text) (vars : List Text) (filter : List Nat) : Effect :=
  if model = "icon-ch1".toList then
    Effect.need e.service.assets fun assets =>
    Effect.need (Res.unwrap (Swiss.findAsset assets Swiss.horConstId)) fun hor =>
    Effect.needs (net.swissHorConst e.world hor.href) fun grid =>
    Effect.need (Res.unwrap (Swiss.findAsset assets Swiss.vertConstId)) fun vert =>
    Effect.need e.service.refTimes fun refTimes =>
    Effect.need (SwissSearch.findLatest e.calendar.parse refTimes) fun t =>
      Swiss.renderRunNet net e.libm e.world e.service e.calendar e.dirs vars filter grid vert.href t
  else if model = "icon-d2".toList then
    Effect.need (Dwd.findLatestRun .iconD2 e.today e.now e.available)
      (Dwd.renderRunNet net e.libm e.world e.dirs vars filter)
  else if model = "icon-eu".toList then
    Effect.need (Dwd.findLatestRun .iconEu e.today e.now e.available)
      (Dwd.renderRunNet net e.libm e.world e.dirs vars filter)
  else fun tr o => tr = [] ∧ o = .done

end Verif
