import Verif.Model.Program

/-!
# What a call reports while it works

The messages of `render_latest_forecasts` (`src/dwd/dwd_forecast_renderer/dwd_icon_forecast_renderer.rs` 31-78,
`src/meteo_swiss/forecast_renderer/icon_ch1_forecast_renderer.rs` 38-95), in their order among the files that are written; they are
shown if the environment asks for them (`env_logger::init`, `src/main.rs` 28). The messages of the functions called for single
steps and files come from several threads and are left out.
-/

namespace Verif

open MapTileRenderer (Outcome Seq)

/-- A message: a text, or what has been found, in the notation of `{:?}`. -/
inductive Message where
  | text (t : Text)
  | runFound (run : Run)
  | timeFound (t : Instant)
  deriving DecidableEq, Repr

/-- What happens during a call. -/
inductive Happening where
  | said (m : Message)
  | wrote (w : Write)

/-- Messages and files in their order, and how the call ends. -/
abbrev Story := List Happening → Outcome → Prop

namespace Story

/-- `info!(...)`. -/
def said (m : Message) : Story := fun tr o => tr = [.said m] ∧ o = .done

/-- Work without messages. -/
def of (e : Effect) : Story := fun tr o => ∃ ws, e ws o ∧ tr = ws.map .wrote

/-- `let x = r?; ...`. -/
def need {α : Type} (r : Res α) (f : α → Story) : Story :=
  match r with
  | .ok a => f a
  | .err => fun tr o => tr = [] ∧ o = .failed
  | .panic => fun tr o => tr = [] ∧ o = .panicked

/-- `if c { ...?; }`. -/
def when (c : Bool) (d : Story) : Story := if c then d else fun tr o => tr = [] ∧ o = .done

/-- `info!(first); ...?; info!(last);`. -/
def around (first last : Text) (e : Effect) : Story := Seq [said (.text first), of e, said (.text last)]

end Story

/-- The part after the run has been found (`src/dwd/dwd_forecast_renderer/dwd_icon_forecast_renderer.rs` 40-77). -/
def Dwd.runStory (m : Libm) (w : World) (dirs : Text → Bool) (vars : List Text) (filter : List Nat) (run : Run) : Story :=
  Seq [Story.said (.runFound run),
    Story.when (variableChosen vars .cloudPrecip) (Story.around "rendering cloud & precipitation forecast...".toList
      "finished rendering cloud & precipitation forecast".toList (renderCloudPrecip m w dirs filter run)),
    Story.when (variableChosen vars .wind10m) (Story.around "rendering wind 10m forecast...".toList
      "finished rendering wind 10m forecast".toList (renderWind m w dirs filter run)),
    Story.when (variableChosen vars .temp2m) (Story.around "rendering temperature 2m forecast...".toList
      "finished rendering temperature 2m forecast".toList (renderTemp m w dirs filter run)),
    Story.when (vars.isEmpty || vars.contains LayerType.verticalCloud.name || vars.contains LayerType.verticalWind.name)
      (Story.need (readHhl w run run.model.verticalLevels) fun hhl =>
        Seq [Story.when (variableChosen vars .verticalCloud) (Story.around "rendering vertical cloud forecast...".toList
            "finished rendering vertical cloud forecast".toList (renderVerticalCloud m w dirs filter run hhl)),
          Story.when (variableChosen vars .verticalWind) (Story.around "rendering vertical wind forecast...".toList
            "finished rendering vertical cloud forecast".toList (renderVerticalWind m w dirs filter run hhl))])]

/-- `DwdIconForecastRenderer::render_latest_forecasts`
(`src/dwd/dwd_forecast_renderer/dwd_icon_forecast_renderer.rs` 31-78). -/
def Dwd.latestStory (m : Libm) (w : World) (dirs : Text → Bool) (today now : Date) (available : Text → Bool)
    (model : FcModel) (vars : List Text) (filter : List Nat) : Story :=
  Seq [Story.said (.text ("creating latest dwd forecasts for model ".toList ++ model.name ++ "...".toList)),
    Story.said (.text "search available forecasts...".toList),
    Story.need (findLatestRun model today now available) (runStory m w dirs vars filter)]

/-- The part after the reference time is known
(`src/meteo_swiss/forecast_renderer/icon_ch1_forecast_renderer.rs` 53-94). -/
def Swiss.runStory (m : Libm) (w : World) (s : Service) (cal : Calendar) (dirs : Text → Bool) (vars : List Text)
    (filter : List Nat) (grid : UnstructuredGrid) (vertUrl : Text) (t : Instant) : Story :=
  Seq [Story.said (.timeFound t),
    Story.when (variableChosen vars .cloudPrecip) (Story.around "rendering cloud & precipitation forecast...".toList
      "finished rendering cloud & precipitation forecast".toList (renderCloudPrecip m w s cal dirs filter grid t)),
    Story.when (variableChosen vars .wind10m) (Story.around "rendering wind 10m forecast...".toList
      "finished rendering wind 10m forecast".toList (renderWind m w s cal dirs filter grid t)),
    Story.when (variableChosen vars .temp2m) (Story.around "rendering temperature 2m forecast...".toList
      "finished rendering temperature 2m forecast".toList (renderTemp m w s cal dirs filter grid t)),
    Story.when (vars.isEmpty || vars.contains LayerType.verticalCloud.name || vars.contains LayerType.verticalWind.name)
      (Seq [Story.said (.text "reading hhl grids...".toList),
        Story.need (readHhl w grid vertUrl) fun hhl =>
          Seq [Story.said (.text "finished reading hhl grids".toList),
            Story.when (variableChosen vars .verticalCloud) (Story.around "rendering vertical cloud forecast...".toList
              "finished rendering vertical cloud forecast".toList (renderVerticalCloud m w s cal dirs filter grid t hhl)),
            Story.when (variableChosen vars .verticalWind) (Story.around "rendering vertical wind forecast...".toList
              "finished rendering vertical cloud forecast".toList (renderVerticalWind m w s cal dirs filter grid t hhl))]])]

/-- `IconCh1ForecastRenderer::render_latest_forecasts`
(`src/meteo_swiss/forecast_renderer/icon_ch1_forecast_renderer.rs` 38-95). -/
def Swiss.latestStory (m : Libm) (w : World) (s : Service) (cal : Calendar) (dirs : Text → Bool) (vars : List Text)
    (filter : List Nat) : Story :=
  Seq [Story.said (.text "rendering latest icon ch1 forecasts...".toList),
    Story.said (.text "reading horizontal/vertical constants...".toList),
    Story.need s.assets fun assets =>
    Story.need (Res.unwrap (findAsset assets horConstId)) fun hor =>
    Story.need (readHorConst w hor.href) fun grid =>
    Story.need (Res.unwrap (findAsset assets vertConstId)) fun vert =>
      Seq [Story.said (.text "finished reading horizontal/vertical constants".toList),
        Story.said (.text "search latest available forecast...".toList),
        Story.need s.refTimes fun refTimes =>
        Story.need (SwissSearch.findLatest cal.parse refTimes) fun t =>
          runStory m w s cal dirs vars filter grid vert.href t]]

/-- `main` (`src/main.rs` 27-57), with the messages and the files of a call. -/
def mainStory (e : Environment) (model : Text) (vars : List Text) (filter : List Nat) : Story :=
  if model = "icon-ch1".toList then Swiss.latestStory e.libm e.world e.service e.calendar e.dirs vars filter
  else if model = "icon-d2".toList then
    Dwd.latestStory e.libm e.world e.dirs e.today e.now e.available .iconD2 vars filter
  else if model = "icon-eu".toList then
    Dwd.latestStory e.libm e.world e.dirs e.today e.now e.available .iconEu vars filter
  else fun tr o => tr = [] ∧ o = .done

end Verif
