import Verif.Model.Colors
import Verif.Model.Forecast
import Verif.Model.Layer
import Verif.Model.MapTile
import Verif.Model.Metobin

/-!
# Rendering the steps of a forecast

`src/meteo_chart/forecast_renderer/*.rs` and the file output of `src/metobin/*.rs`.

The files written are recorded as a trace of writes.  A step runs in parallel with others, so that the traces
of the steps are interleaved in any way.  The disk does not fail: creating a directory and writing a file
succeed if the directory exists.
-/

namespace Verif

open MapTileRenderer (Outcome Seq runAllTiles)

/-- What is written to a file. -/
inductive Content where
  | picture (d : Drawable)
  | bytes (b : List UInt8)
  deriving DecidableEq

/-- One file being written. -/
structure Write where
  path : Text
  content : Content
  deriving DecidableEq

/-- The files on disk: content by path. -/
abbrev Tree := Text → Option Content

/-- Writing files one after another. -/
def Tree.write (t : Tree) (ws : List Write) : Tree :=
  ws.foldl (fun t w p => if p = w.path then some w.content else t p) t

/-- The arguments of `create_all_tiles` in `render_map_tiles`; value lookup and colour are one function here. -/
structure Chart where
  layer : LayerType
  extent : LatLonExtent
  color : LatLon → Res (Option Color)

/-- A call of `create_meteobin_file`: the data, and whether the directory is created. -/
structure Bin where
  type : BinType
  data : Res (List UInt8)
  mkdir : Bool

/-- What is done with the layers of a step once they are read. -/
structure Job where
  chart : Option Chart
  bins : List Bin

/-- The layers read for a step, by forecast renderer. -/
inductive Layers where
  | cloudPrecip (l : CloudPrecipLayer) (w : WeatherLayer)
  | wind (l : WindLayer)
  | temp (l : TempLayer)
  | verticalCloud (l : VerticalCloudLayer)
  | verticalWind (l : VerticalWindLayer)

/-- `render_map_tiles` of the cloud and precipitation chart
(`src/meteo_chart/forecast_renderer/cloud_precip_chart_renderer.rs` 27-46). -/
def cloudPrecipChart (l : CloudPrecipLayer) : Chart where
  layer := .cloudPrecip
  extent := l.cloud.grid.extent
  color p := do
    match ← l.getCloudAndPrecipByLatLon p with
    | some v => .ok (some (← Colors.cloudPrecipColor v))
    | none => .ok none

/-- `render_map_tiles` of the wind chart (`src/meteo_chart/forecast_renderer/wind_10m_chart_renderer.rs` 30-49). -/
def windChart (l : WindLayer) : Chart where
  layer := .wind10m
  extent := l.zonal.grid.extent
  color p := do
    match ← l.getSpeedByLatLon p with
    | some v => .ok (some (Colors.windColor v))
    | none => .ok none

/-- `render_map_tiles` of the temperature chart
(`src/meteo_chart/forecast_renderer/temp_2m_chart_renderer.rs` 28-47). -/
def tempChart (l : TempLayer) : Chart where
  layer := .temp2m
  extent := l.temp.grid.extent
  color p := do
    match ← l.getTempByLatLon p with
    | some v => .ok (some (Colors.tempColor v))
    | none => .ok none

/-- The calls after reading the layers of a step, in their order
(`src/meteo_chart/forecast_renderer/cloud_precip_forecast_renderer.rs` 36-41,
`wind_10m_forecast_renderer.rs` 34-38 and 78-82, `temp_2m_forecast_renderer.rs` 35-39,
`vertical_clouds_forecast_renderer.rs` 38-39, `vertical_wind_forecast_renderer.rs` 38-39).  Only the two
meteobin files of vertical layers create their directory
(`src/metobin/vertical_cloud_metobin.rs` 34, `vertical_wind_metobin.rs` 34). -/
def Layers.job : Layers → Job
  | .cloudPrecip l w =>
    ⟨some (cloudPrecipChart l), [⟨.precip, Metobin.precipBin l, false⟩, ⟨.weather, Metobin.weatherBin w, false⟩]⟩
  | .wind l => ⟨some (windChart l), [⟨.wind10m, Metobin.windBin l, false⟩]⟩
  | .temp l => ⟨some (tempChart l), [⟨.temp2m, Metobin.tempBin l, false⟩]⟩
  | .verticalCloud l => ⟨none, [⟨.verticalClouds, Metobin.verticalCloudBin l, true⟩]⟩
  | .verticalWind l => ⟨none, [⟨.verticalWind, Metobin.verticalWindBin l, true⟩]⟩

/-- A directory exists if it existed before or a file has been written below it. -/
def dirExists (dirs : Text → Bool) (written : List Write) (path : Text) : Bool :=
  dirs path || written.any fun w => path.isPrefixOf w.path

/-- Writing the meteobin files of a step (`create_meteobin_file`, `src/metobin/precip_metobin.rs` 17-33,
`temp_metobin.rs` 17-33, `wind_metobin.rs` 18-34, `weather_metobin.rs` 19-35, `vertical_cloud_metobin.rs` 19-40,
`vertical_wind_metobin.rs` 19-40): computing the
data may panic; without its directory creating the file panics.  (Directories created by other steps
are not taken into account; they are others.) -/
def writeBins (run : Run) (step : Nat) (dirs : Text → Bool) (written : List Write) : List Bin → List Write × Outcome
  | [] => (written, .done)
  | b :: bs =>
    match b.data with
    | .ok data =>
      if b.mkdir || dirExists dirs written (outputPath run step b.type.layer) then
        writeBins run step dirs (written ++ [⟨binPath run step b.type, .bytes data⟩]) bs
      else (written, .panicked)
    | _ => (written, .panicked)

/-- The writes of saved tiles (`src/meteo_chart/forecast_renderer/map_tile_file_helper.rs` 11-30). -/
def tileWrites (run : Run) (step : Nat) (l : LayerType) (saved : List MapTileRenderer.Saved) : List Write :=
  saved.map fun s => ⟨tilePath (outputPath run step l) s.tile, .picture s.picture⟩

/-- The tiles of a step, if it has any. -/
def runChart (m : Libm) (run : Run) (step : Nat) : Option Chart → List Write → Outcome → Prop
  | none, tr, o => tr = [] ∧ o = .done
  | some c, tr, o => ∃ saved, tr = tileWrites run step c.layer saved ∧
      runAllTiles m c.extent run.model.zoomRange c.color id saved o

/-- What happens to a step once it is read: an error of the tiles is ignored, a panic is not. -/
inductive RunJob (m : Libm) (run : Run) (dirs : Text → Bool) (step : Nat) (job : Job) : List Write → Outcome → Prop
  | panicked {tr : List Write} (h : runChart m run step job.chart tr .panicked) : RunJob m run dirs step job tr .panicked
  | bins {tr : List Write} {o : Outcome} (h : runChart m run step job.chart tr o) (ho : o ≠ .panicked) :
      RunJob m run dirs step job (writeBins run step dirs tr job.bins).1 (writeBins run step dirs tr job.bins).2

/-- Whether the step filter selects a step (e.g.
`src/meteo_chart/forecast_renderer/cloud_precip_forecast_renderer.rs` 29). -/
def selected (filter : List Nat) (s : RunStep) : Bool := filter.isEmpty || filter.contains s.nr

/-- The closure called for a step (e.g. `src/meteo_chart/forecast_renderer/cloud_precip_forecast_renderer.rs`
28-44). -/
def runStep (m : Libm) (run : Run) (dirs : Text → Bool) (filter : List Nat) (read : RunStep → Res Layers)
    (s : RunStep) (tr : List Write) (o : Outcome) : Prop :=
  if selected filter s then
    match read s with
    | .ok l => RunJob m run dirs s.nr l.job tr o
    | .err => tr = [] ∧ o = .failed
    | .panic => tr = [] ∧ o = .panicked
  else tr = [] ∧ o = .done

/-- A parallel loop that stops at errors (`par_iter().try_for_each`).  The items run in any order, interleaved in
any way; `ends i` tells how item `i` ended or that it was not run.  Only after an error or panic an item may
be left out.  The loop panics if an item panicked, otherwise it fails if an item failed.  (`with_max_len`
changes the distribution of the work, not these possibilities.) -/
inductive ParTry {α β : Type} (work : α → List β → Outcome → Prop) (items : List α) : List β → Outcome → Prop
  | mk (tagged : List (Nat × β)) (ends : Nat → Option Outcome) (o : Outcome)
      (tags : ∀ e ∈ tagged, e.1 < items.length)
      (ran : ∀ i (h : i < items.length), ∀ oi, ends i = some oi →
        work items[i] ((tagged.filter fun e => e.1 == i).map Prod.snd) oi)
      (skipped : ∀ i, i < items.length → ends i = none → (tagged.filter fun e => e.1 == i) = [] ∧ o ≠ .done)
      (panicked : o = .panicked ↔ ∃ i, i < items.length ∧ ends i = some .panicked)
      (failed : o = .failed ↔ (∃ i, i < items.length ∧ ends i = some .failed) ∧
        ¬∃ i, i < items.length ∧ ends i = some .panicked) :
      ParTry work items (tagged.map Prod.snd) o

/-- `render` of the forecast renderers (`src/meteo_chart/forecast_renderer/cloud_precip_forecast_renderer.rs`
17-45, `wind_10m_forecast_renderer.rs` 15-42 and 46-85, `temp_2m_forecast_renderer.rs` 16-43,
`vertical_clouds_forecast_renderer.rs` 18-43, `vertical_wind_forecast_renderer.rs` 18-43). -/
def renderSteps (m : Libm) (run : Run) (dirs : Text → Bool) (steps : List RunStep) (filter : List Nat)
    (read : RunStep → Res Layers) : List Write → Outcome → Prop :=
  ParTry (runStep m run dirs filter read) steps

end Verif
