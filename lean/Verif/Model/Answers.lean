import Verif.Model.Request

/-!
# Answers of the web service

`src/meteo_swiss/data_geo_admin_ch/icon_ch_assets_response.rs`, `icon_ch_forecast_response.rs` and the calls of
`read_json` in `icon_ch_assets_service.rs` and `icon_ch_forecast_search_service.rs`.

The `Deserialize` implementations are derived; they are modelled as serde documents them, on JSON values.  Turning the
text of an answer into a JSON value is not modelled (an answer that is not JSON is no value), nor are the limits of the
libraries: 128 nested levels, 10 MB for an answer.  The derived code decodes a member when it comes upon it, here the
members are collected first; this only changes which of several errors is reported.
-/

namespace Verif.Swiss

/-- A JSON value; members of objects in the order of the text.  Of a number only matters whether it fits in a float: 1e999
does not. -/
inductive Value where
  | null
  | bool (b : Bool)
  | num (fits : Bool)
  | str (t : Text)
  | arr (items : List Value)
  | obj (members : List (Text × Value))

mutual
/-- A value can be buffered (`serde::__private::de::Content`): all of its numbers fit in floats. -/
def Value.fits : Value → Bool
  | .null => true
  | .bool _ => true
  | .num b => b
  | .str _ => true
  | .arr l => Value.allFit l
  | .obj ms => Value.membersFit ms

def Value.allFit : List Value → Bool
  | [] => true
  | v :: l => v.fits && Value.allFit l

def Value.membersFit : List (Text × Value) → Bool
  | [] => true
  | (_, v) :: l => v.fits && Value.membersFit l
end

namespace Answer

/-- `visit_map` of a derived implementation: unknown members are skipped, a known one must not occur twice. -/
def collect (keys : List Text) : List (Text × Value) → List (Text × Value) → Res (List (Text × Value))
  | seen, [] => .ok seen
  | seen, (k, v) :: ms =>
    if k ∈ keys then
      if k ∈ seen.map Prod.fst then .err else collect keys (seen ++ [(k, v)]) ms
    else collect keys seen ms

/-- `deserialize_struct`: an object, or an array with the fields in the order of the struct. -/
def fields (keys : List Text) : Value → Res (List (Text × Value))
  | .obj ms => collect keys [] ms
  | .arr l => if l.length = keys.length then .ok (keys.zip l) else .err
  | _ => .err

/-- A field of a struct; an error if it is missing. -/
def field (fs : List (Text × Value)) (key : Text) : Res Value :=
  Res.okOr ((fs.find? fun m => m.1 == key).map Prod.snd)

/-- `String`. -/
def string : Value → Res Text
  | .str t => .ok t
  | _ => .err

/-- `Vec<T>`. -/
def vec {α : Type} (f : Value → Res α) : Value → Res (List α)
  | .arr l => Res.mapM f l
  | _ => .err

/-- A field with a text. -/
def text (fs : List (Text × Value)) (key : Text) : Res Text := do
  let v ← field fs key
  string v

/-- `IconChAsset` (`src/meteo_swiss/data_geo_admin_ch/icon_ch_assets_response.rs` 31-36). -/
def asset (v : Value) : Res Asset := do
  let fs ← fields ["id".toList, "title".toList, "href".toList] v
  let id ← text fs "id".toList
  let title ← text fs "title".toList
  let href ← text fs "href".toList
  .ok ⟨id, title, href⟩

/-- `IconChAssetsResponse` (`src/meteo_swiss/data_geo_admin_ch/icon_ch_assets_response.rs` 4-7). -/
def assets (v : Value) : Res (List Asset) := do
  let fs ← fields ["assets".toList] v
  let l ← field fs "assets".toList
  vec asset l

/-- `ForecastResponseAssetProperties` (`src/meteo_swiss/data_geo_admin_ch/icon_ch_forecast_response.rs` 42-45). -/
structure Link where
  title : Text
  href : Text
  deriving DecidableEq, Repr

/-- The derived decoder of a link. -/
def link (v : Value) : Res Link := do
  let fs ← fields ["title".toList, "href".toList] v
  let title ← text fs "title".toList
  let href ← text fs "href".toList
  .ok ⟨title, href⟩

/-- `HashMap::insert`: the last of several values of a key stays. -/
def insert (m : List (Text × Link)) (x : Text × Link) : List (Text × Link) :=
  (m.filter fun y => y.1 != x.1) ++ [x]

/-- `ForecastResponseAssets` (`src/meteo_swiss/data_geo_admin_ch/icon_ch_forecast_response.rs` 35-38): the members of an
object, buffered because of `flatten`.  The hash map is given by its pairs. -/
def links (v : Value) : Res (List (Text × Link)) :=
  match v with
  | .obj ms => if Value.membersFit ms then do
      let l ← Res.mapM (fun m => do
        let x ← link m.2
        .ok (m.1, x)) ms
      .ok (l.foldl insert [])
    else .err
  | _ => .err

/-- `ForecastResponseProperties` (`src/meteo_swiss/data_geo_admin_ch/icon_ch_forecast_response.rs` 21-31). -/
structure Properties where
  datetime : Text
  title : Text
  refTime : Text
  horizon : Text
  var : Text
  deriving DecidableEq, Repr

/-- The derived decoder of the properties. -/
def properties (v : Value) : Res Properties := do
  let fs ← fields ["datetime".toList, "title".toList, "forecast:reference_datetime".toList, "forecast:horizon".toList,
    "forecast:variable".toList] v
  let datetime ← text fs "datetime".toList
  let title ← text fs "title".toList
  let refTime ← text fs "forecast:reference_datetime".toList
  let horizon ← text fs "forecast:horizon".toList
  let var ← text fs "forecast:variable".toList
  .ok ⟨datetime, title, refTime, horizon, var⟩

/-- `ForecastResponseFeature` (`src/meteo_swiss/data_geo_admin_ch/icon_ch_forecast_response.rs` 13-18). -/
structure Feature where
  id : Text
  properties : Properties
  assets : List (Text × Link)
  deriving DecidableEq, Repr

/-- The derived decoder of a feature. -/
def feature (v : Value) : Res Feature := do
  let fs ← fields ["id".toList, "properties".toList, "assets".toList] v
  let id ← text fs "id".toList
  let p ← field fs "properties".toList
  let p ← properties p
  let a ← field fs "assets".toList
  let a ← links a
  .ok ⟨id, p, a⟩

/-- `IconChForecastResponse` (`src/meteo_swiss/data_geo_admin_ch/icon_ch_forecast_response.rs` 5-10). -/
def response (v : Value) : Res (List Feature) := do
  let fs ← fields ["timeStamp".toList, "features".toList] v
  let _ ← text fs "timeStamp".toList
  let l ← field fs "features".toList
  vec feature l

/-- An entry for a feature: the hash map is iterated in some order. -/
def Reads (f : Feature) (e : Entry) : Prop :=
  e.title = f.properties.title ∧ e.refTime = f.properties.refTime ∧ e.horizon = f.properties.horizon ∧
    e.hrefs.Perm (f.assets.map fun x => x.2.href)

end Answer

/-- The servers: the JSON values of the answers to requests without and with a body; nothing if the request fails or the
answer is not JSON. -/
structure Net where
  get : Text → Option Value
  post : Text → Json.Object → Option Value

/-- What the program gets from the servers: `read_json`
(`src/meteo_swiss/data_geo_admin_ch/icon_ch_assets_service.rs` 14-17, `icon_ch_forecast_search_service.rs` 24-27).  As
hash maps are iterated in any order, there are several possibilities. -/
structure Net.Gives (net : Net) (web : Web) : Prop where
  get : ∀ url, web.get url = (Res.okOr (net.get url) >>= Answer.assets)
  ok : ∀ url body features, (Res.okOr (net.post url body) >>= Answer.response) = .ok features →
    ∃ entries, web.post url body = .ok entries ∧ List.Forall₂ Answer.Reads features entries
  err : ∀ url body, (Res.okOr (net.post url body) >>= Answer.response) = .err → web.post url body = .err
  panic : ∀ url body, (Res.okOr (net.post url body) >>= Answer.response) = .panic → web.post url body = .panic

end Verif.Swiss
