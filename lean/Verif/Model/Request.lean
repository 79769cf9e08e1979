import Verif.Model.Calendar

/-!
# Requests to the web service

`src/meteo_swiss/data_geo_admin_ch/icon_ch_forecast_request.rs`, `icon_ch_forecast_endpoint.rs`,
`icon_ch_assets_service.rs`, the parts of `icon_ch_forecast_search_service.rs` that build and send requests, and the
names of variables and models.  A request is the JSON value that is sent; writing JSON as text, sending it and decoding
the text of the answer are not modelled.
-/

namespace Verif

/-- The JSON values that occur in requests. -/
inductive Json where
  | str (t : Text)
  | bool (b : Bool)
  | strings (l : List Text)
  deriving DecidableEq, Repr

/-- A JSON object, as the list of its members. -/
abbrev Json.Object := List (Text × Json)

namespace Swiss

/-- `IconChForecastVariable::get_name` (`src/meteo_swiss/forecast_run/icon_ch_forecast_variable.rs` 18-32; `Hhl` is
not searched for). -/
def Variable.name : Variable → Text
  | .ceiling => "CEILING".toList
  | .clc => "CLC".toList
  | .clct => "CLCT".toList
  | .t2m => "T_2M".toList
  | .totPrec => "TOT_PREC".toList
  | .u => "U".toList
  | .u10m => "U_10M".toList
  | .v => "V".toList
  | .v10m => "V_10M".toList
  | .vmax10m => "VMAX_10M".toList

/-- `IconChForecastModel` (`src/meteo_swiss/forecast_run/icon_ch_forecast_model.rs` 1-5). -/
inductive ChModel where
  | iconCh1
  | iconCh2
  deriving DecidableEq, Repr

/-- `get_search_request_name` (`src/meteo_swiss/forecast_run/icon_ch_forecast_model.rs` 17-22). -/
def ChModel.searchName : ChModel → Text
  | .iconCh1 => "ch.meteoschweiz.ogd-forecasting-icon-ch1".toList
  | .iconCh2 => "ch.meteoschweiz.ogd-forecasting-icon-ch2".toList

/-- `get_search_endpoint_url` (`src/meteo_swiss/data_geo_admin_ch/icon_ch_forecast_endpoint.rs` 1, 9-11). -/
def searchUrl : Text := "https://data.geo.admin.ch/api/stac/v1/search".toList

/-- `get_assets_endpoint_url` (`src/meteo_swiss/data_geo_admin_ch/icon_ch_forecast_endpoint.rs` 2, 13). -/
def assetsUrl : Text :=
  "https://data.geo.admin.ch/api/stac/v1/collections/ch.meteoschweiz.ogd-forecasting-icon-ch1/assets".toList

/-- `IconChForecastRequest` (`src/meteo_swiss/data_geo_admin_ch/icon_ch_forecast_request.rs` 10-27). -/
structure Request where
  collections : List Text
  refTime : Option Text
  horizon : Option Text
  var : Option Text
  perturbed : Bool
  deriving DecidableEq, Repr

/-- A member that is left out if it has no value (`skip_serializing_if`). -/
def optionalMember (key : Text) : Option Text → Json.Object
  | none => []
  | some t => [(key, .str t)]

/-- `serde_json::json!(request)` (`src/meteo_swiss/data_geo_admin_ch/icon_ch_forecast_search_service.rs` 21), with the
names of the members (`icon_ch_forecast_request.rs` 11-26). -/
def Request.toJson (r : Request) : Json.Object :=
  ("collections".toList, .strings r.collections) :: (optionalMember "forecast:reference_datetime".toList r.refTime ++
    optionalMember "forecast:horizon".toList r.horizon ++ optionalMember "forecast:variable".toList r.var ++
    [("forecast:perturbed".toList, .bool r.perturbed)])

/-- `IconChForecastRequestBuilder` (`src/meteo_swiss/data_geo_admin_ch/icon_ch_forecast_request.rs` 53-59). -/
structure Builder where
  model : Option ChModel := none
  refTime : Option Text := none
  horizon : Option Text := none
  var : Option Text := none
  perturbed : Bool := false
  deriving DecidableEq, Repr

namespace Builder

/-- `new` (`src/meteo_swiss/data_geo_admin_ch/icon_ch_forecast_request.rs` 63-71). -/
def new : Builder := {}

/-- `with_model` (`src/meteo_swiss/data_geo_admin_ch/icon_ch_forecast_request.rs` 74-77). -/
def withModel (b : Builder) (m : ChModel) : Builder := { b with model := some m }

/-- `with_forecast_reference_datetime` (`src/meteo_swiss/data_geo_admin_ch/icon_ch_forecast_request.rs` 80-83). -/
def withRefTime (b : Builder) (t : Instant) : Builder := { b with refTime := some (RefTime.getName t) }

/-- `with_forecast_horizon` (`src/meteo_swiss/data_geo_admin_ch/icon_ch_forecast_request.rs` 86-89). -/
def withHorizon (b : Builder) (h : Horizon) : Builder := { b with horizon := some h.getName }

/-- `with_forecast_variable` (`src/meteo_swiss/data_geo_admin_ch/icon_ch_forecast_request.rs` 92-95). -/
def withVariable (b : Builder) (x : Variable) : Builder := { b with var := some x.name }

/-- `with_forecast_perturbed` (`src/meteo_swiss/data_geo_admin_ch/icon_ch_forecast_request.rs` 98-101). -/
def withPerturbed (b : Builder) (p : Bool) : Builder := { b with perturbed := p }

/-- `build` (`src/meteo_swiss/data_geo_admin_ch/icon_ch_forecast_request.rs` 104-116). -/
def build (b : Builder) : Res Request :=
  match b.model with
  | none => .err
  | some m => .ok ⟨[m.searchName], b.refTime, b.horizon, b.var, b.perturbed⟩

end Builder

/-- `ForecastResponseFeature` (`src/meteo_swiss/data_geo_admin_ch/icon_ch_forecast_response.rs` 13-45), without the
fields that are not used; the links of the assets in the order in which the hash map is iterated. -/
structure Entry where
  title : Text
  refTime : Text
  horizon : Text
  hrefs : List Text
  deriving DecidableEq, Repr

/-- The web: the answers to requests with and without a body. -/
structure Web where
  get : Text → Res (List Asset)
  post : Text → Json.Object → Res (List Entry)

/-- `search` (`src/meteo_swiss/data_geo_admin_ch/icon_ch_forecast_search_service.rs` 17-31). -/
def Web.search (web : Web) (r : Request) : Res (List Entry) := web.post searchUrl r.toJson

/-- The request of `find_latest_ref_datetime`
(`src/meteo_swiss/data_geo_admin_ch/icon_ch_forecast_search_service.rs` 37-44). -/
def latestRequest (m : ChModel) : Res Request :=
  ((((Builder.new.withModel m).withVariable .t2m).withHorizon ⟨0, 0⟩).withPerturbed false).build

/-- The request of `find_forecast_file_urls`
(`src/meteo_swiss/data_geo_admin_ch/icon_ch_forecast_search_service.rs` 64-69). -/
def filesRequest (m : ChModel) (x : Variable) (t : Instant) : Res Request :=
  ((((Builder.new.withModel m).withVariable x).withRefTime t).withPerturbed false).build

/-- The answers that the program gets for its requests: `IconChAssetsService::get`
(`src/meteo_swiss/data_geo_admin_ch/icon_ch_assets_service.rs` 10-21) and the searches
(`icon_ch_forecast_search_service.rs` 37-46 and 64-71), for the model ICON-CH1
(`src/meteo_swiss/forecast_renderer/icon_ch1_forecast_renderer.rs` 34). -/
def Web.service (web : Web) : Service where
  assets := web.get assetsUrl
  refTimes := do
    let r ← latestRequest .iconCh1
    let entries ← web.search r
    .ok (entries.map (·.refTime))
  search x t := do
    let r ← filesRequest .iconCh1 x t
    let entries ← web.search r
    .ok (entries.map fun e => ⟨e.title, e.horizon, e.hrefs⟩)

end Swiss

end Verif
