import Verif.Model.Program

/-!
# A disk that can fail

`Verif.Model.Render` takes the disk as perfect.  Here every file can fail: the directory or the file cannot be created, or
less is stored than was written (disk full, device error).  What the code does then:

* `fs::create_dir_all(&path).unwrap()` for the tiles (`src/meteo_chart/forecast_renderer/map_tile_file_helper.rs` 26): panic;
* `let _result = tile.safe_image(&filename)` (line 29): ignored;
* `File::create(&filename).expect(..)` for the data files (`src/metobin/temp_metobin.rs` 31, `precip_metobin.rs` 31,
  `weather_metobin.rs` 33, `wind_metobin.rs` 32, `vertical_cloud_metobin.rs` 35, `vertical_wind_metobin.rs` 35): panic;
* `let _ = file.write_all(&bin_data)` (the line after): ignored, as are errors when the `BufWriter` is dropped;
* `fs::create_dir_all(&path)?` and `file.write_all(&bin_data)?` for the two files of vertical layers
  (`vertical_cloud_metobin.rs` 34 and 37, `vertical_wind_metobin.rs` 34 and 37) return an error, which
  `let _ = ...create_meteobin_file(..)` drops (`src/meteo_chart/forecast_renderer/vertical_clouds_forecast_renderer.rs` 39,
  `vertical_wind_forecast_renderer.rs` 39).

The trace lists the files that the program tries to write; what is left on the disk is `Tree.writeOn`.
-/

namespace Verif

open MapTileRenderer (Outcome Seq ParFor Saved unwrapRes createSingleTile tileRange)

/-- What becomes of a file that is written. -/
inductive Fate where
  /-- It is stored. -/
  | stored
  /-- It is created, but only these bytes are stored. -/
  | cut (left : List UInt8)
  /-- Its directory exists, but the file cannot be created. -/
  | noFile
  /-- Its directory cannot be created. -/
  | noDir
  deriving DecidableEq

/-- What becomes of the files, by path.  (A call writes every file once only, see C54.) -/
abbrev Disk := Text → Fate

/-- Trying to write files one after another. -/
def Tree.writeOn (disk : Disk) (t : Tree) (ws : List Write) : Tree :=
  ws.foldl (fun t w p =>
    if p = w.path then
      match disk p with
      | .stored => some w.content
      | .cut left => some (.bytes left)
      | .noFile => t p
      | .noDir => t p
    else t p) t

/-- Saving a tile (`save_tile_step`, `src/meteo_chart/forecast_renderer/map_tile_file_helper.rs` 11-30). -/
def saveOn (disk : Disk) (path : Text) (d : Drawable) : Res Drawable := if disk path = .noDir then .panic else .ok d

/-- One column of tiles (`runColumn`). -/
def runColumnOn (disk : Disk) (out : Text) (m : Libm) (color : LatLon → Res (Option Color)) (zoom : Nat) (ys : Nat × Nat)
    (x : Nat) : List Saved → Outcome → Prop :=
  ParFor (fun t => do saveOn disk (tilePath out t) (← unwrapRes (createSingleTile m color t id)))
    ((rangeIncl ys.1 ys.2).map fun y => ⟨x, y, zoom⟩)

/-- One zoom level (`runZoom`). -/
def runZoomOn (disk : Disk) (out : Text) (m : Libm) (e : LatLonExtent) (color : LatLon → Res (Option Color)) (zoom : Nat)
    (trace : List Saved) (o : Outcome) : Prop :=
  match tileRange m e zoom with
  | .ok (xs, ys) => Seq ((rangeIncl xs.1 xs.2).map (runColumnOn disk out m color zoom ys)) trace o
  | .err => trace = [] ∧ o = .failed
  | .panic => trace = [] ∧ o = .panicked

/-- The tiles of a step (`runChart`). -/
def runChartOn (disk : Disk) (m : Libm) (run : Run) (step : Nat) : Option Chart → List Write → Outcome → Prop
  | none, tr, o => tr = [] ∧ o = .done
  | some c, tr, o => ∃ saved, tr = tileWrites run step c.layer saved ∧
      Seq ((rangeIncl run.model.zoomRange.1 run.model.zoomRange.2).map
        (runZoomOn disk (outputPath run step c.layer) m c.extent c.color)) saved o

/-- Writing the data files of a step (`writeBins`). -/
def writeBinsOn (disk : Disk) (run : Run) (step : Nat) (dirs : Text → Bool) (written : List Write) :
    List Bin → List Write × Outcome
  | [] => (written, .done)
  | b :: bs =>
    match b.data with
    | .ok data =>
      let next := writeBinsOn disk run step dirs (written ++ [⟨binPath run step b.type, .bytes data⟩]) bs
      if b.mkdir then
        match disk (binPath run step b.type) with
        | .noFile => (written, .panicked)
        | _ => next
      else if dirExists dirs written (outputPath run step b.type.layer) then
        match disk (binPath run step b.type) with
        | .noFile => (written, .panicked)
        | .noDir => (written, .panicked)
        | _ => next
      else (written, .panicked)
    | _ => (written, .panicked)

/-- What happens to a step once it is read (`RunJob`). -/
inductive RunJobOn (disk : Disk) (m : Libm) (run : Run) (dirs : Text → Bool) (step : Nat) (job : Job) :
    List Write → Outcome → Prop
  | panicked {tr : List Write} (h : runChartOn disk m run step job.chart tr .panicked) :
      RunJobOn disk m run dirs step job tr .panicked
  | bins {tr : List Write} {o : Outcome} (h : runChartOn disk m run step job.chart tr o) (ho : o ≠ .panicked) :
      RunJobOn disk m run dirs step job (writeBinsOn disk run step dirs tr job.bins).1
        (writeBinsOn disk run step dirs tr job.bins).2

/-- The closure called for a step (`runStep`). -/
def runStepOn (disk : Disk) (m : Libm) (run : Run) (dirs : Text → Bool) (filter : List Nat) (read : RunStep → Res Layers)
    (s : RunStep) (tr : List Write) (o : Outcome) : Prop :=
  if selected filter s then
    match read s with
    | .ok l => RunJobOn disk m run dirs s.nr l.job tr o
    | .err => tr = [] ∧ o = .failed
    | .panic => tr = [] ∧ o = .panicked
  else tr = [] ∧ o = .done

/-- How the steps of a run are rendered, given how to read a step. -/
abbrev Renderer := Run → List RunStep → (RunStep → Res Layers) → Effect

/-- Rendering with the perfect disk. -/
def perfectly (m : Libm) (dirs : Text → Bool) (filter : List Nat) : Renderer :=
  fun run steps read => renderSteps m run dirs steps filter read

/-- Rendering on a disk (`renderSteps`). -/
def onDisk (disk : Disk) (m : Libm) (dirs : Text → Bool) (filter : List Nat) : Renderer :=
  fun run steps read => ParTry (runStepOn disk m run dirs filter read) steps

/-- `Dwd.renderRun` with any way of rendering the steps. -/
def Dwd.renderRunWith (render : Renderer) (w : World) (vars : List Text) (run : Run) : Effect :=
  Seq [Effect.when (variableChosen vars .cloudPrecip) (Effect.need run.model.forecastDiffSteps fun totPrec =>
      render run run.model.forecastSteps (cloudPrecipLayers w run run.model.forecastSteps totPrec)),
    Effect.when (variableChosen vars .wind10m) (render run run.model.forecastSteps (windLayers w run)),
    Effect.when (variableChosen vars .temp2m) (render run run.model.forecastSteps (tempLayers w run)),
    Effect.when (vars.isEmpty || vars.contains LayerType.verticalCloud.name || vars.contains LayerType.verticalWind.name)
      (Effect.need (readHhl w run run.model.verticalLevels) fun hhl =>
        Seq [Effect.when (variableChosen vars .verticalCloud)
            (render run run.model.forecastSteps (verticalCloudLayers w run run.model.verticalLevels hhl)),
          Effect.when (variableChosen vars .verticalWind)
            (render run run.model.forecastSteps (verticalWindLayers w run run.model.verticalLevels hhl))])]

namespace Swiss

/-- `Swiss.renderCloudPrecip` with any way of rendering the steps. -/
def renderCloudPrecipWith (render : Renderer) (w : World) (s : Service) (cal : Calendar) (grid : UnstructuredGrid)
    (t : Instant) : Effect :=
  Effect.need (forecastRun cal t) fun run =>
  Effect.need (steps s t .clct true) fun clct =>
  Effect.need (steps s t .totPrec false) fun totPrec =>
  Effect.need (steps s t .ceiling false) fun ceiling =>
    render run clct fun step => do
      let l ← readCloudPrecip w grid clct totPrec step
      let ww ← readWeather w grid clct ceiling step
      .ok (.cloudPrecip l ww)

/-- `Swiss.renderWind` with any way of rendering the steps. -/
def renderWindWith (render : Renderer) (w : World) (s : Service) (cal : Calendar) (grid : UnstructuredGrid)
    (t : Instant) : Effect :=
  Effect.need (forecastRun cal t) fun run =>
  Effect.need (steps s t .u10m false) fun u10m =>
  Effect.need (steps s t .v10m false) fun v10m =>
  Effect.need (steps s t .vmax10m false) fun vmax10m =>
    render run u10m fun step => do
      let l ← readWind w grid u10m v10m vmax10m step
      .ok (.wind l)

/-- `Swiss.renderTemp` with any way of rendering the steps. -/
def renderTempWith (render : Renderer) (w : World) (s : Service) (cal : Calendar) (grid : UnstructuredGrid)
    (t : Instant) : Effect :=
  Effect.need (forecastRun cal t) fun run =>
  Effect.need (steps s t .t2m false) fun t2m =>
    render run t2m fun step => do
      let l ← readTemp w grid t2m step
      .ok (.temp l)

/-- `Swiss.renderVerticalCloud` with any way of rendering the steps. -/
def renderVerticalCloudWith (render : Renderer) (w : World) (s : Service) (cal : Calendar) (grid : UnstructuredGrid)
    (t : Instant) (hhl : List (LatLonValueGrid UInt8)) : Effect :=
  Effect.need (forecastRun cal t) fun run =>
  Effect.need (steps s t .clc false) fun clc =>
    render run clc fun step => do
      let l ← readVerticalCloud w grid hhl clc step
      .ok (.verticalCloud l)

/-- `Swiss.renderVerticalWind` with any way of rendering the steps. -/
def renderVerticalWindWith (render : Renderer) (w : World) (s : Service) (cal : Calendar) (grid : UnstructuredGrid)
    (t : Instant) (hhl : List (LatLonValueGrid UInt8)) : Effect :=
  Effect.need (forecastRun cal t) fun run =>
  Effect.need (steps s t .u false) fun u =>
  Effect.need (steps s t .v false) fun v =>
    render run u fun step => do
      let l ← readVerticalWind w grid hhl u v step
      .ok (.verticalWind l)

/-- `Swiss.renderRun` with any way of rendering the steps. -/
def renderRunWith (render : Renderer) (w : World) (s : Service) (cal : Calendar) (vars : List Text)
    (grid : UnstructuredGrid) (vertUrl : Text) (t : Instant) : Effect :=
  Seq [Effect.when (variableChosen vars .cloudPrecip) (renderCloudPrecipWith render w s cal grid t),
    Effect.when (variableChosen vars .wind10m) (renderWindWith render w s cal grid t),
    Effect.when (variableChosen vars .temp2m) (renderTempWith render w s cal grid t),
    Effect.when (vars.isEmpty || vars.contains LayerType.verticalCloud.name || vars.contains LayerType.verticalWind.name)
      (Effect.need (readHhl w grid vertUrl) fun hhl =>
        Seq [Effect.when (variableChosen vars .verticalCloud) (renderVerticalCloudWith render w s cal grid t hhl),
          Effect.when (variableChosen vars .verticalWind) (renderVerticalWindWith render w s cal grid t hhl)])]

/-- `Swiss.renderLatest` with any way of rendering the steps. -/
def renderLatestWith (render : Renderer) (w : World) (s : Service) (cal : Calendar) (vars : List Text) : Effect :=
  Effect.need s.assets fun assets =>
  Effect.need (Res.unwrap (findAsset assets horConstId)) fun hor =>
  Effect.need (readHorConst w hor.href) fun grid =>
  Effect.need (Res.unwrap (findAsset assets vertConstId)) fun vert =>
  Effect.need s.refTimes fun refTimes =>
  Effect.need (SwissSearch.findLatest cal.parse refTimes) fun t =>
    renderRunWith render w s cal vars grid vert.href t

end Swiss

/-- `mainEffect` with any way of rendering the steps. -/
def mainWith (render : Renderer) (e : Environment) (model : Text) (vars : List Text) : Effect :=
  if model = "icon-ch1".toList then Swiss.renderLatestWith render e.world e.service e.calendar vars
  else if model = "icon-d2".toList then
    Effect.need (Dwd.findLatestRun .iconD2 e.today e.now e.available) (Dwd.renderRunWith render e.world vars)
  else if model = "icon-eu".toList then
    Effect.need (Dwd.findLatestRun .iconEu e.today e.now e.available) (Dwd.renderRunWith render e.world vars)
  else fun tr o => tr = [] ∧ o = .done

/-- `main` on a disk that can fail. -/
def mainOn (disk : Disk) (e : Environment) (model : Text) (vars : List Text) (filter : List Nat) : Effect :=
  mainWith (onDisk disk e.libm e.dirs filter) e model vars

/-- With the perfect disk this is `mainEffect`. -/
theorem mainEffect_eq (e : Environment) (model : Text) (vars : List Text) (filter : List Nat) :
    mainEffect e model vars filter = mainWith (perfectly e.libm e.dirs filter) e model vars := rfl

end Verif
