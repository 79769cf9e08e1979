import Verif.Model.Network

/-!
# Requests

`Verif.Model.Network` tells what is written, with any answers to the requests.  Here the requests themselves are
recorded, in one trace with the files written: the order of what happens can be seen from outside.

The definitions are those of `Verif.Model.Network` with requests recorded.  In one respect they are closer to the code:
the levels of DWD are read in parallel (`src/dwd/dwd_file_reader/dwd_icon_clc_reader.rs` 34-47, `dwd_icon_hhl_reader.rs`
33-41, `dwd_icon_u_reader.rs` 39-53, `dwd_icon_v_reader.rs` 35-44), so that their requests come in any order, levels may be
left out after an error, and of several failures any may be the result.  Redirections, which the library follows by itself,
are part of a request.
-/

namespace Verif

open MapTileRenderer (Outcome Seq)

/-- A question to the catalogue of MeteoSwiss: the list of constant files, the newest run, the files of a variable of
the run. -/
inductive Query where
  | assets
  | newest
  | files (x : Swiss.Variable)
  deriving DecidableEq, Repr

/-- What can be seen of the program. -/
inductive Event where
  /-- A HEAD request (`src/dwd/dwd_forecast_renderer/dwd_icon_forecast_run_finder.rs` 38). -/
  | head (url : Text)
  /-- A request to the catalogue (`src/meteo_swiss/data_geo_admin_ch/icon_ch_assets_service.rs` 14,
  `icon_ch_forecast_search_service.rs` 24). -/
  | query (q : Query)
  /-- A download (`src/system/file_helper.rs` 16). -/
  | get (url : Text)
  /-- A file is written. -/
  | write (w : Write)
  deriving DecidableEq

/-- The requests made and results had by a computation that may make requests. -/
def Asking (α : Type) := List Event → Res α → Prop

namespace Asking

/-- No requests. -/
def of {α : Type} (r : Res α) : Asking α := fun ev x => ev = [] ∧ x = r

/-- One request with a given answer. -/
def one {α : Type} (e : Event) (r : Res α) : Asking α := fun ev x => ev = [e] ∧ x = r

/-- `?`: an error or a panic ends the function. -/
def bind {α β : Type} (x : Asking α) (f : α → Asking β) : Asking β := fun ev r =>
  (x ev .err ∧ r = .err) ∨ (x ev .panic ∧ r = .panic) ∨ ∃ a ev₁ ev₂, x ev₁ (.ok a) ∧ f a ev₂ r ∧ ev = ev₁ ++ ev₂

instance : Monad Asking where
  pure a := of (.ok a)
  bind := bind

instance : MonadLift Res Asking where
  monadLift := of

end Asking

/-- `into_par_iter().map(..).collect::<Result<Vec<_>, _>>()`: the items run in any order, interleaved in any way;
`ends i` tells the result of item `i` or that it was not run.  Only after an error or panic an item may be left
out.  The results are collected in the order of the items.  A panic of an item is a panic of the whole. -/
inductive ParMap {α β : Type} (f : α → Asking β) (items : List α) : Asking (List β)
  | mk (tagged : List (Nat × Event)) (ends : Nat → Option (Res β)) (r : Res (List β))
      (tags : ∀ e ∈ tagged, e.1 < items.length)
      (ran : ∀ i (h : i < items.length), ∀ ri, ends i = some ri →
        f items[i] ((tagged.filter fun e => e.1 == i).map Prod.snd) ri)
      (skipped : ∀ i, i < items.length → ends i = none → (tagged.filter fun e => e.1 == i) = [] ∧ ∀ bs, r ≠ .ok bs)
      (collected : ∀ bs, r = .ok bs → bs.length = items.length ∧ ∀ i, i < items.length → ends i = bs[i]?.map .ok)
      (panicked : r = .panic ↔ ∃ i, i < items.length ∧ ends i = some .panic)
      (failed : r = .err ↔ (∃ i, i < items.length ∧ ends i = some .err) ∧ ¬∃ i, i < items.length ∧ ends i = some .panic) :
      ParMap f items (tagged.map Prod.snd) r

/-! ## Reading files -/

namespace Asking

/-- `Net.request` (`src/system/file_helper.rs` 16-20). -/
def request (net : Net) (url : Text) : Asking (List UInt8) := fun ev r => ev = [.get url] ∧ ∃ a, net url a ∧ r = Res.okOr a

/-- `Net.stream` (`src/grib2/converter/file_to_grid_converter.rs` 22-32 and 36-46, `src/system/file_helper.rs` 14-37). -/
def stream (net : Net) (w : World) (name : Text) : Asking (List UInt8) :=
  if Dwd.isUrl name then do
    let body ← request net name
    pure (if Dwd.isBz2 name then w.bunzip body else body)
  else of (Res.okOr (w.file name))

/-- `Net.readSingle` (`src/grib2/converter/file_to_grid_converter.rs` 21-32). -/
def readSingle (net : Net) (w : World) (name : Text) : Asking Grib2.Document := do
  let s ← stream net w name
  let r ← Grib2.readSingleDoc s
  pure r.1

/-- `Net.readMulti` (`src/grib2/converter/file_to_grid_converter.rs` 35-46). -/
def readMulti (net : Net) (w : World) (name : Text) : Asking (List Grib2.Document) := do
  let s ← stream net w name
  Grib2.readMultiDoc s

/-- `Net.readRectangular` (`src/grib2/converter/file_to_grid_converter.rs` 49-69). -/
def readRectangular {T : Type} (net : Net) (w : World) (name : Text) (missing : T) (transform : Fl → T) :
    Asking (LatLonValueGrid T) := do
  let doc ← readSingle net w name
  Grib2.createRegularGrid doc missing transform

/-- `Net.readUnstructured` (`src/grib2/converter/file_to_grid_converter.rs` 72-84). -/
def readUnstructured {T : Type} (net : Net) (w : World) (name : Text) (missing : T) (transform : Fl → T)
    (grid : UnstructuredGrid) : Asking (LatLonValueGrid T) := do
  let doc ← readSingle net w name
  Grib2.convertUnstructured missing transform grid doc

/-- `Net.readMultiUnstructured` (`src/grib2/converter/file_to_grid_converter.rs` 87-114). -/
def readMultiUnstructured {T : Type} (net : Net) (w : World) (name : Text) (missing : T) (transform : Fl → T)
    (grid : UnstructuredGrid) (range : Option (Nat × Nat)) : Asking (List (LatLonValueGrid T)) := do
  let docs ← readMulti net w name
  Grib2.convertMulti docs missing transform grid range

/-! ## DWD -/

/-- `Net.dwdGrid` (e.g. `src/dwd/dwd_file_reader/dwd_icon_ceiling_reader.rs` 21-32). -/
def dwdGrid (net : Net) (w : World) (run : Run) (x : Dwd.SingleVar) (step : RunStep) : Asking (LatLonValueGrid Fl) := do
  let url ← Dwd.fileUrl run (.single x step.nr)
  readRectangular net w url missingF32 id

/-- `Net.dwdWind` (`src/dwd/dwd_file_reader/dwd_icon_wind_10m_reader.rs` 14-25). -/
def dwdWind (net : Net) (w : World) (run : Run) (step : RunStep) : Asking Layers := do
  let u ← dwdGrid net w run .u10m step
  let v ← dwdGrid net w run .v10m step
  let gusts ← dwdGrid net w run .vmax10m step
  let l ← WindLayer.new u v (some gusts)
  pure (.wind l)

/-- `Net.dwdTemp` (`src/dwd/dwd_file_reader/dwd_icon_t_2m_reader.rs` 21-33). -/
def dwdTemp (net : Net) (w : World) (run : Run) (step : RunStep) : Asking Layers := do
  let g ← dwdGrid net w run .t2m step
  pure (.temp ⟨g⟩)

/-- `Net.dwdCloudPrecip` (`src/dwd/dwd_file_reader/dwd_icon_cloud_precip_reader.rs` 13-31,
`src/dwd/dwd_file_reader/dwd_icon_weather_reader.rs` 14-25). -/
def dwdCloudPrecip (net : Net) (w : World) (run : Run) (clct totPrec : List RunStep) (step : RunStep) : Asking Layers := do
  let (c, p0, p1) ← cloudPrecipSteps step clct totPrec
  let clct ← dwdGrid net w run .clctMod c
  let prec0 ← dwdGrid net w run .totPrec p0
  let prec1 ← dwdGrid net w run .totPrec p1
  let l ← CloudPrecipLayer.new clct prec0 prec1
  let clct ← dwdGrid net w run .clctMod step
  let ceiling ← dwdGrid net w run .ceiling step
  let ww ← dwdGrid net w run .ww step
  let ww ← WeatherLayer.new clct ceiling (some ww)
  pure (.cloudPrecip l ww)

/-- The closure called for a level (e.g. `src/dwd/dwd_file_reader/dwd_icon_clc_reader.rs` 36-46). -/
def dwdLevel (net : Net) (w : World) (run : Run) (file : Nat → Dwd.Req) (missing : UInt8) (transform : Fl → UInt8)
    (level : Nat) : Asking (LatLonValueGrid UInt8) := do
  let url ← Dwd.fileUrl run (file level)
  readRectangular net w url missing transform

/-- `Net.dwdHhl` (`src/dwd/dwd_file_reader/dwd_icon_hhl_reader.rs` 25-46). -/
def dwdHhl (net : Net) (w : World) (run : Run) (levels : Nat × Nat) : Asking (List (LatLonValueGrid UInt8)) :=
  ParMap (dwdLevel net w run .hhl 0 hhlByte) (rangeIncl levels.1 levels.2)

/-- `Net.dwdClc` (`src/dwd/dwd_file_reader/dwd_icon_clc_reader.rs` 25-51). -/
def dwdClc (net : Net) (w : World) (run : Run) (step : RunStep) (levels : Nat × Nat) :
    Asking (List (LatLonValueGrid UInt8)) :=
  ParMap (dwdLevel net w run (.level .clc step.nr) 0 clcByte) (rangeIncl levels.1 levels.2)

/-- `Net.dwdUV` (`src/dwd/dwd_file_reader/dwd_icon_u_reader.rs` 25-57, `dwd_icon_v_reader.rs` 26-48). -/
def dwdUV (net : Net) (w : World) (run : Run) (x : Dwd.LevelVar) (step : RunStep) (levels : Nat × Nat) :
    Asking (List (LatLonValueGrid UInt8)) :=
  ParMap (dwdLevel net w run (.level x step.nr) 255 uvByte) (rangeIncl levels.1 levels.2)

/-- `Net.dwdVerticalCloud` (`src/dwd/dwd_forecast_renderer/dwd_icon_forecast_renderer.rs` 142-147). -/
def dwdVerticalCloud (net : Net) (w : World) (run : Run) (levels : Nat × Nat) (hhl : List (LatLonValueGrid UInt8))
    (step : RunStep) : Asking Layers := do
  let clc ← dwdClc net w run step levels
  let l ← VerticalCloudLayer.new hhl clc
  pure (.verticalCloud l)

/-- `Net.dwdVerticalWind` (`src/dwd/dwd_forecast_renderer/dwd_icon_forecast_renderer.rs` 167-173). -/
def dwdVerticalWind (net : Net) (w : World) (run : Run) (levels : Nat × Nat) (hhl : List (LatLonValueGrid UInt8))
    (step : RunStep) : Asking Layers := do
  let u ← dwdUV net w run .u step levels
  let v ← dwdUV net w run .v step levels
  let l ← VerticalWindLayer.new hhl u v
  pure (.verticalWind l)

/-- The HEAD requests for the files of a run (`src/dwd/dwd_forecast_renderer/dwd_icon_forecast_run_finder.rs` 37-52): the
first file that is not there ends the loop. -/
def probe (available : Text → Bool) : List Text → List Event
  | [] => []
  | url :: urls => .head url :: if available url then probe available urls else []

/-- `Dwd.tryRuns` (`src/dwd/dwd_forecast_renderer/dwd_icon_forecast_run_finder.rs` 30-57). -/
def tryRuns (model : FcModel) (today : Date) (available : Text → Bool) : List Text → Asking (Option Run)
  | [] => pure none
  | name :: names => do
    let run : Run := ⟨model, today, name⟩
    let urls ← Dwd.probeUrls run model.stepRange.2
    let found ← (fun ev r => ev = probe available urls ∧ r = .ok (urls.all available) : Asking Bool)
    if found then pure (some run) else tryRuns model today available names

/-- `Dwd.findLatestRun` (`src/dwd/dwd_forecast_renderer/dwd_icon_forecast_run_finder.rs` 25-64). -/
def findLatestRun (model : FcModel) (today now : Date) (available : Text → Bool) : Asking Run := do
  match ← tryRuns model today available Dwd.runNamesReversed with
  | some run => pure run
  | none => pure ⟨.iconD2, now.yesterday, "21".toList⟩

/-! ## MeteoSwiss -/

/-- `Net.swissGrid` (e.g. `src/meteo_swiss/file_reader/icon_ch_ceiling_reader.rs` 13-27). -/
def swissGrid (net : Net) (w : World) (grid : UnstructuredGrid) (transform : Fl → Fl) (step : RunStep) :
    Asking (LatLonValueGrid Fl) := readUnstructured net w step.url missingF32 transform grid

/-- `Net.swissTemp` (`src/meteo_swiss/file_reader/icon_ch_t_2m_reader.rs` 16-28). -/
def swissTemp (net : Net) (w : World) (grid : UnstructuredGrid) (t2m : List RunStep) (step : RunStep) : Asking Layers := do
  let s ← Res.unwrapResult (getStepByNr t2m step.nr)
  let g ← swissGrid net w grid id s
  pure (.temp ⟨g⟩)

/-- `Net.swissWind` (`src/meteo_swiss/file_reader/icon_ch_wind_10m_reader.rs` 14-33). -/
def swissWind (net : Net) (w : World) (grid : UnstructuredGrid) (u10m v10m vmax10m : List RunStep) (step : RunStep) :
    Asking Layers := do
  let us ← getStepByNr u10m step.nr
  let vs ← getStepByNr v10m step.nr
  let gs ← getStepByNr vmax10m step.nr
  let u ← swissGrid net w grid id us
  let v ← swissGrid net w grid id vs
  let gusts ← swissGrid net w grid id gs
  let l ← WindLayer.new u v (some gusts)
  pure (.wind l)

/-- `Net.swissCloudPrecip` (`src/meteo_swiss/file_reader/icon_ch_cloud_precip_reader.rs` 13-31, `icon_ch_ww_reader.rs`
13-31). -/
def swissCloudPrecip (net : Net) (w : World) (grid : UnstructuredGrid) (clct totPrec ceiling : List RunStep)
    (step : RunStep) : Asking Layers := do
  let (c, p0, p1) ← cloudPrecipSteps step clct totPrec
  let cloud ← swissGrid net w grid clctFraction c
  let prec0 ← swissGrid net w grid id p0
  let prec1 ← swissGrid net w grid id p1
  let l ← CloudPrecipLayer.new cloud prec0 prec1
  let cs ← Res.unwrapResult (getStepByNr clct step.nr)
  let es ← Res.unwrapResult (getStepByNr ceiling step.nr)
  let cloud ← swissGrid net w grid clctFraction cs
  let ceil ← swissGrid net w grid id es
  let ww ← WeatherLayer.new cloud ceil none
  pure (.cloudPrecip l ww)

/-- `Net.swissHhl` (`src/meteo_swiss/file_reader/icon_ch_hhl_reader.rs` 17-35). -/
def swissHhl (net : Net) (w : World) (grid : UnstructuredGrid) (url : Text) : Asking (List (LatLonValueGrid UInt8)) :=
  readMultiUnstructured net w url 0 hhlByte grid (some Swiss.levels)

/-- `Net.swissVerticalCloud` (`src/meteo_swiss/file_reader/icon_ch_clc_reader.rs` 19-53). -/
def swissVerticalCloud (net : Net) (w : World) (grid : UnstructuredGrid) (hhl : List (LatLonValueGrid UInt8))
    (clc : List RunStep) (step : RunStep) : Asking Layers := do
  let s ← Res.unwrapResult (getStepByNr clc step.nr)
  let grids ← readMultiUnstructured net w s.url 0 clcByte grid (some Swiss.levels)
  let l ← VerticalCloudLayer.new hhl grids
  pure (.verticalCloud l)

/-- `Net.swissVerticalWind` (`src/meteo_swiss/file_reader/icon_ch_vertical_wind_reader.rs` 15-33). -/
def swissVerticalWind (net : Net) (w : World) (grid : UnstructuredGrid) (hhl : List (LatLonValueGrid UInt8))
    (u v : List RunStep) (step : RunStep) : Asking Layers := do
  let us ← Res.unwrapResult (getStepByNr u step.nr)
  let vs ← Res.unwrapResult (getStepByNr v step.nr)
  let ug ← readMultiUnstructured net w us.url 255 uvByte grid (some Swiss.levels)
  let vg ← readMultiUnstructured net w vs.url 255 uvByte grid (some Swiss.levels)
  let l ← VerticalWindLayer.new hhl ug vg
  pure (.verticalWind l)

/-- `Net.swissHorConst` (`src/meteo_swiss/file_reader/icon_ch_hor_const_reader.rs` 21-34). -/
def swissHorConst (net : Net) (w : World) (url : Text) : Asking UnstructuredGrid := do
  let docs ← readMulti net w url
  let clat ← Res.index docs 4
  let clon ← Res.index docs 3
  let ext ← Swiss.gridExtent
  let coordinates ← Grib2.getLatLonValues clat clon
  let g ← UnstructuredGrid.new Swiss.gridDims ext coordinates
  g.calcCoordDistLookupMap Swiss.maxDist

/-- `Swiss.steps` (`src/meteo_swiss/forecast_renderer/icon_ch1_forecast_renderer.rs` 214-234). -/
def swissSteps (s : Swiss.Service) (t : Instant) (x : Swiss.Variable) (skipFirst : Bool) : Asking (List RunStep) :=
  one (.query (.files x)) (Swiss.steps s t x skipFirst)

end Asking

/-! ## The program -/

/-- What the program does: requests and writes in their order, and how it ends. -/
abbrev Deed := List Event → Outcome → Prop

/-- `let x = r?; ...` (`Effect.needs`). -/
def Deed.need {α : Type} (x : Asking α) (f : α → Deed) : Deed := fun ev o =>
  (x ev .err ∧ o = .failed) ∨ (x ev .panic ∧ o = .panicked) ∨ ∃ a ev₁ ev₂, x ev₁ (.ok a) ∧ f a ev₂ o ∧ ev = ev₁ ++ ev₂

/-- `if c { ...?; }` (`Effect.when`). -/
def Deed.when (c : Bool) (d : Deed) : Deed := if c then d else fun ev o => ev = [] ∧ o = .done

/-- Writing files. -/
def Deed.of (e : Effect) : Deed := fun ev o => ∃ tr, e tr o ∧ ev = tr.map .write

/-- The closure called for a step (`runStepNet`, e.g. `src/meteo_chart/forecast_renderer/cloud_precip_forecast_renderer.rs`
28-44). -/
def runStepAsks (m : Libm) (run : Run) (dirs : Text → Bool) (filter : List Nat) (read : RunStep → Asking Layers)
    (s : RunStep) : Deed :=
  if selected filter s then Deed.need (read s) fun l => Deed.of (RunJob m run dirs s.nr l.job)
  else fun ev o => ev = [] ∧ o = .done

/-- `renderStepsNet` (`src/meteo_chart/forecast_renderer/cloud_precip_forecast_renderer.rs` 17-45 and the others). -/
def renderStepsAsks (m : Libm) (run : Run) (dirs : Text → Bool) (steps : List RunStep) (filter : List Nat)
    (read : RunStep → Asking Layers) : Deed :=
  ParTry (runStepAsks m run dirs filter read) steps

/-- `Dwd.renderRunNet` (`src/dwd/dwd_forecast_renderer/dwd_icon_forecast_renderer.rs` 42-77). -/
def Dwd.renderRunAsks (net : Net) (m : Libm) (w : World) (dirs : Text → Bool) (vars : List Text) (filter : List Nat)
    (run : Run) : Deed :=
  let render := renderStepsAsks m run dirs run.model.forecastSteps filter
  let levels := run.model.verticalLevels
  Seq [Deed.when (variableChosen vars .cloudPrecip) (Deed.need (Asking.of run.model.forecastDiffSteps) fun totPrec =>
      render (Asking.dwdCloudPrecip net w run run.model.forecastSteps totPrec)),
    Deed.when (variableChosen vars .wind10m) (render (Asking.dwdWind net w run)),
    Deed.when (variableChosen vars .temp2m) (render (Asking.dwdTemp net w run)),
    Deed.when (vars.isEmpty || vars.contains LayerType.verticalCloud.name || vars.contains LayerType.verticalWind.name)
      (Deed.need (Asking.dwdHhl net w run levels) fun hhl =>
        Seq [Deed.when (variableChosen vars .verticalCloud) (render (Asking.dwdVerticalCloud net w run levels hhl)),
          Deed.when (variableChosen vars .verticalWind) (render (Asking.dwdVerticalWind net w run levels hhl))])]

/-- `Swiss.renderRunNet` (`src/meteo_swiss/forecast_renderer/icon_ch1_forecast_renderer.rs` 55-94 and 98-200). -/
def Swiss.renderRunAsks (net : Net) (m : Libm) (w : World) (s : Service) (cal : Calendar) (dirs : Text → Bool)
    (vars : List Text) (filter : List Nat) (grid : UnstructuredGrid) (vertUrl : Text) (t : Instant) : Deed :=
  let render := fun run first read => renderStepsAsks m run dirs first filter read
  Seq [Deed.when (variableChosen vars .cloudPrecip)
      (Deed.need (Asking.of (forecastRun cal t)) fun run =>
      Deed.need (Asking.swissSteps s t .clct true) fun clct =>
      Deed.need (Asking.swissSteps s t .totPrec false) fun totPrec =>
      Deed.need (Asking.swissSteps s t .ceiling false) fun ceiling =>
        render run clct (Asking.swissCloudPrecip net w grid clct totPrec ceiling)),
    Deed.when (variableChosen vars .wind10m)
      (Deed.need (Asking.of (forecastRun cal t)) fun run =>
      Deed.need (Asking.swissSteps s t .u10m false) fun u10m =>
      Deed.need (Asking.swissSteps s t .v10m false) fun v10m =>
      Deed.need (Asking.swissSteps s t .vmax10m false) fun vmax10m =>
        render run u10m (Asking.swissWind net w grid u10m v10m vmax10m)),
    Deed.when (variableChosen vars .temp2m)
      (Deed.need (Asking.of (forecastRun cal t)) fun run =>
      Deed.need (Asking.swissSteps s t .t2m false) fun t2m =>
        render run t2m (Asking.swissTemp net w grid t2m)),
    Deed.when (vars.isEmpty || vars.contains LayerType.verticalCloud.name || vars.contains LayerType.verticalWind.name)
      (Deed.need (Asking.swissHhl net w grid vertUrl) fun hhl =>
        Seq [Deed.when (variableChosen vars .verticalCloud)
            (Deed.need (Asking.of (forecastRun cal t)) fun run =>
            Deed.need (Asking.swissSteps s t .clc false) fun clc =>
              render run clc (Asking.swissVerticalCloud net w grid hhl clc)),
          Deed.when (variableChosen vars .verticalWind)
            (Deed.need (Asking.of (forecastRun cal t)) fun run =>
            Deed.need (Asking.swissSteps s t .u false) fun u =>
            Deed.need (Asking.swissSteps s t .v false) fun v =>
              render run u (Asking.swissVerticalWind net w grid hhl u v))])]

/-- `main` (`src/main.rs` 27-57) with the requests that it makes. -/
def mainAsks (net : Net) (e : Environment) (model : Text) (vars : List Text) (filter : List Nat) : Deed :=
  if model = "icon-ch1".toList then
    Deed.need (Asking.one (.query .assets) e.service.assets) fun assets =>
    Deed.need (Asking.of (Res.unwrap (Swiss.findAsset assets Swiss.horConstId))) fun hor =>
    Deed.need (Asking.swissHorConst net e.world hor.href) fun grid =>
    Deed.need (Asking.of (Res.unwrap (Swiss.findAsset assets Swiss.vertConstId))) fun vert =>
    Deed.need (Asking.one (.query .newest) e.service.refTimes) fun refTimes =>
    Deed.need (Asking.of (SwissSearch.findLatest e.calendar.parse refTimes)) fun t =>
      Swiss.renderRunAsks net e.libm e.world e.service e.calendar e.dirs vars filter grid vert.href t
  else if model = "icon-d2".toList then
    Deed.need (Asking.findLatestRun .iconD2 e.today e.now e.available)
      (Dwd.renderRunAsks net e.libm e.world e.dirs vars filter)
  else if model = "icon-eu".toList then
    Deed.need (Asking.findLatestRun .iconEu e.today e.now e.available)
      (Dwd.renderRunAsks net e.libm e.world e.dirs vars filter)
  else fun ev o => ev = [] ∧ o = .done

end Verif
