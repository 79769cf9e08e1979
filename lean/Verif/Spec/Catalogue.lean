import Verif.Model.Request
import Verif.Spec.Time

/-!
# The catalogue of forecast files, and a web service that searches it
-/

namespace Verif.Spec

/-- The variables by the names under which MeteoSwiss publishes them. -/
def published : Swiss.Variable → Text
  | .clct => ['C', 'L', 'C', 'T']
  | .totPrec => ['T', 'O', 'T', '_', 'P', 'R', 'E', 'C']
  | .ceiling => ['C', 'E', 'I', 'L', 'I', 'N', 'G']
  | .u10m => ['U', '_', '1', '0', 'M']
  | .v10m => ['V', '_', '1', '0', 'M']
  | .vmax10m => ['V', 'M', 'A', 'X', '_', '1', '0', 'M']
  | .t2m => ['T', '_', '2', 'M']
  | .clc => ['C', 'L', 'C']
  | .u => ['U']
  | .v => ['V']

/-- The collection of the forecasts of ICON-CH1. -/
def ch1 : Text := "ch.meteoschweiz.ogd-forecasting-icon-ch1".toList

/-- A file of a forecast: of a model, started at a reference time, of a variable, so many hours ahead; of the ensemble or
not.  `refText` and `horizonText` are the texts by which the service denotes reference time and horizon. -/
structure Item where
  collection : Text
  refTime : Instant
  refText : Text
  hours : Nat
  horizonText : Text
  var : Text
  perturbed : Bool
  title : Text
  href : Text

/-- The texts denote the times: RFC 3339 in UTC; days and hours as in `P1DT09H00M00S`. -/
structure Item.WellFormed (i : Item) : Prop where
  refText : Rfc3339.parse i.refText = .ok ⟨i.refTime, 0⟩
  runTime : i.refTime.sec < 86400 ∧ i.refTime.sec % 10800 = 0 ∧ i.refTime.nano = 0
  hours : i.hours < 256
  horizonText : i.horizonText = 'P' :: (dec (i.hours / 24) ++ "DT".toList ++ decPad 2 (i.hours % 24) ++ "H00M00S".toList)

/-- A text denotes a time: RFC 3339. -/
def denotes (text : Text) (t : Instant) : Bool :=
  match Rfc3339.parse text with
  | .ok o => o.toUtc == t
  | _ => false

/-- The meaning of a member of a request (STAC API with the forecast extension); unknown members match nothing. -/
def memberMatches (i : Item) (m : Text × Json) : Bool :=
  match m.2 with
  | .strings l => m.1 == "collections".toList && l.contains i.collection
  | .bool b => m.1 == "forecast:perturbed".toList && b == i.perturbed
  | .str s => m.1 == "forecast:reference_datetime".toList && denotes s i.refTime ||
      m.1 == "forecast:horizon".toList && s == i.horizonText || m.1 == "forecast:variable".toList && s == i.var

/-- The entry of an answer for a file. -/
def Item.entry (i : Item) : Swiss.Entry := ⟨i.title, i.refText, i.horizonText, [i.href]⟩

/-- The web answers a search with exactly the files of the catalogue that match all members, in the order of the
catalogue. -/
def Searches (web : Swiss.Web) (catalogue : List Item) : Prop :=
  ∀ r : Json.Object, web.post "https://data.geo.admin.ch/api/stac/v1/search".toList r =
    .ok ((catalogue.filter fun i => r.all (memberMatches i)).map Item.entry)

/-- The files of a variable of the run of ICON-CH1 with a reference time, without the ensemble. -/
def filesOf (catalogue : List Item) (x : Swiss.Variable) (t : Instant) : List Item :=
  catalogue.filter fun i =>
    decide (i.collection = ch1 ∧ i.var = published x ∧ i.refTime = t ∧ i.perturbed = false)

/-- The files by which runs are looked for: the temperatures of the hour 0. -/
def runMarkers (catalogue : List Item) : List Item :=
  catalogue.filter fun i => decide (i.collection = ch1 ∧ i.var = published .t2m ∧ i.hours = 0 ∧ i.perturbed = false)

/-- The newest run of which the temperature file of the hour 0 is published. -/
def NewestRun (catalogue : List Item) (t : Instant) : Prop :=
  (∃ i ∈ runMarkers catalogue, i.refTime = t) ∧ ∀ i ∈ runMarkers catalogue, NotAfter i.refTime t

end Verif.Spec
