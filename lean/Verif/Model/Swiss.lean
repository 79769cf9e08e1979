import Verif.Model.Forecast
import Mathlib.Data.List.Sort

/-!
# MeteoSwiss forecasts

`src/meteo_swiss/forecast_run/*.rs`, `src/meteo_swiss/data_geo_admin_ch/*.rs` and the parts of
`src/meteo_swiss/forecast_renderer/icon_ch1_forecast_renderer.rs` that choose run and steps.  The answer of
the web service is a parameter; sending the request and decoding JSON are not modelled.
-/

namespace Verif

/-- `str::split(char)`. -/
def splitChar (c : Char) : Text → List Text
  | [] => [[]]
  | x :: xs =>
    if x = c then [] :: splitChar c xs
    else match splitChar c xs with
      | [] => [[x]]
      | h :: t => (x :: h) :: t

/-- `str::trim_end_matches(char)`. -/
def trimEnd (c : Char) (t : Text) : Text := (t.reverse.dropWhile (· == c)).reverse

/-- The value of a decimal digit. -/
def digitValue (c : Char) : Nat := c.toNat - '0'.toNat

/-- The text without a leading plus sign, unless it is the only character. -/
def stripPlus : Text → Text
  | '+' :: d :: ds => d :: ds
  | t => t

/-- `str::parse::<u8>`: an optional plus sign and at least one decimal digit, at most 255. -/
def parseU8 (t : Text) : Option UInt8 :=
  let digits := stripPlus t
  if digits ≠ [] ∧ digits.all Char.isDigit then
    let v := digits.foldl (fun v c => 10 * v + digitValue c) 0
    if v < 256 then some (UInt8.ofNat v) else none
  else none

/-- `u8` arithmetic with overflow check. -/
def ckU8 (n : Nat) : Res UInt8 := if n < 256 then .ok (UInt8.ofNat n) else .panic

/-- `IconChForecastHorizon` (`src/meteo_swiss/forecast_run/icon_ch_forecast_horizon.rs` 4-7). -/
structure Horizon where
  days : UInt8
  hours : UInt8
  deriving DecidableEq, Repr

namespace Horizon

/-- `from_str` (`src/meteo_swiss/forecast_run/icon_ch_forecast_horizon.rs` 21-49). -/
def fromStr (t : Text) : Res Horizon :=
  if !(t.head? == some 'P') || !t.contains 'D' || !t.contains 'T' || !t.contains 'H' then .err
  else match splitChar 'T' (t.drop 1) with
    | [dayPart, timePart] => do
      let days ← Res.okOr (parseU8 (trimEnd 'D' dayPart))
      let hoursStr ← Res.okOr (splitChar 'H' timePart).head?
      let hours ← Res.okOr (parseU8 hoursStr)
      .ok ⟨days, hours⟩
    | _ => .err

/-- `from_step` (`src/meteo_swiss/forecast_run/icon_ch_forecast_horizon.rs` 52-56). -/
def fromStep (step : UInt8) : Horizon := ⟨step / 24, step % 24⟩

/-- `get_step` (`src/meteo_swiss/forecast_run/icon_ch_forecast_horizon.rs` 59-61). -/
def getStep (h : Horizon) : Res UInt8 := do
  let d ← ckU8 (h.days.toNat * 24)
  ckU8 (d.toNat + h.hours.toNat)

/-- `get_name` (`src/meteo_swiss/forecast_run/icon_ch_forecast_horizon.rs` 64-67). -/
def getName (h : Horizon) : Text :=
  'P' :: (dec h.days.toNat ++ "DT".toList ++ decPad 2 h.hours.toNat ++ "H00M00S".toList)

end Horizon

/-- A point in time in UTC (`chrono::DateTime<Utc>`): day, second of the day, nanosecond.  Nanoseconds from
10^9 on represent leap seconds.  The order of chrono is the lexicographic one. -/
structure Instant where
  day : Int
  sec : Nat
  nano : Nat
  deriving DecidableEq, Repr

namespace Instant

def Valid (t : Instant) : Prop := t.sec < 86400 ∧ t.nano < 2000000000

def hour (t : Instant) : Nat := t.sec / 3600
def minute (t : Instant) : Nat := t.sec / 60 % 60
def second (t : Instant) : Nat := t.sec % 60

/-- `with_hour`, `with_minute`, `with_second`, `with_nanosecond` of chrono: `None` if out of range. -/
def withHour (t : Instant) (h : Nat) : Option Instant :=
  if h < 24 then some { t with sec := h * 3600 + t.sec % 3600 } else none
def withMinute (t : Instant) (m : Nat) : Option Instant :=
  if m < 60 then some { t with sec := t.sec / 3600 * 3600 + m * 60 + t.sec % 60 } else none
def withSecond (t : Instant) (s : Nat) : Option Instant :=
  if s < 60 then some { t with sec := t.sec / 60 * 60 + s } else none
def withNano (t : Instant) (n : Nat) : Option Instant :=
  if n < 2000000000 then some { t with nano := n } else none

end Instant

/-- A date and time with an offset to UTC in seconds (`chrono::DateTime<FixedOffset>`), by its local
fields. -/
structure OffsetTime where
  loc : Instant
  offset : Int
  deriving DecidableEq, Repr

namespace OffsetTime

/-- `with_timezone(&Utc)`. -/
def toUtc (t : OffsetTime) : Instant :=
  let s : Int := t.loc.day * 86400 + t.loc.sec - t.offset
  ⟨s / 86400, (s % 86400).toNat, t.loc.nano⟩

end OffsetTime

namespace RefTime

/-- `IconChForecastReferenceDateTime::get_latest`
(`src/meteo_swiss/forecast_run/icon_ch_forecast_reference_datetime.rs` 12-25). -/
def getLatest (t : Instant) : Res Instant := do
  let hour := t.hour - t.hour % 3
  let t ← Res.unwrap (t.withHour hour)
  let t ← Res.unwrap (t.withMinute 0)
  let t ← Res.unwrap (t.withSecond 0)
  Res.unwrap (t.withNano 0)

/-- `IconChForecastReferenceDateTime::from_str`
(`src/meteo_swiss/forecast_run/icon_ch_forecast_reference_datetime.rs` 28-38).  `parsed` is the result of
`parse_from_rfc3339`. -/
def fromParsed (parsed : Res OffsetTime) : Res Instant := do
  let t ← parsed
  if t.loc.minute ≠ 0 ∨ t.loc.second ≠ 0 ∨ t.loc.hour % 3 ≠ 0 then .err else .ok t.toUtc

/-- `IconChForecastRunName::create_from_datetime` and `get_name`
(`src/meteo_swiss/forecast_run/icon_ch_forecast_run_name.rs` 19-47). -/
def runName (t : Instant) : Res Text :=
  match t.hour with
  | 0 => .ok "00".toList
  | 3 => .ok "03".toList
  | 6 => .ok "06".toList
  | 9 => .ok "09".toList
  | 12 => .ok "12".toList
  | 15 => .ok "15".toList
  | 18 => .ok "18".toList
  | 21 => .ok "21".toList
  | _ => .err

end RefTime

namespace SwissSearch

/-- `ForecastResponseFeature` (`src/meteo_swiss/data_geo_admin_ch/icon_ch_forecast_response.rs`): title,
horizon text and the links of the assets in the order in which the hash map is iterated. -/
structure Feature where
  title : Text
  horizon : Text
  hrefs : List Text
  deriving DecidableEq, Repr

/-- `IconChForecastStep` (`src/meteo_swiss/forecast_run/icon_ch_forecast_step.rs` 5-9). -/
structure Step where
  title : Text
  horizon : Horizon
  href : Text
  deriving DecidableEq, Repr

/-- `extract_href_from_assets` (`src/meteo_swiss/data_geo_admin_ch/icon_ch_forecast_search_service.rs`
96-102). -/
def extractHref (hrefs : List Text) : Res Text := Res.okOr hrefs.head?

/-- `create_step_from_feature` (`src/meteo_swiss/data_geo_admin_ch/icon_ch_forecast_search_service.rs`
86-93). -/
def createStep (f : Feature) : Res Step := do
  let h ← Horizon.fromStr f.horizon
  let href ← extractHref f.hrefs
  .ok ⟨f.title, h, href⟩

/-- The key of a step, for lists in which no key panics. -/
def key (s : Step) : Nat := s.horizon.days.toNat * 24 + s.horizon.hours.toNat

/-- `sort_by_key(|s| s.horizon.get_step())`: a stable sort.  With fewer than two steps the key function is
not called; otherwise it is called for every step, and its panic ends the sort. -/
def sortSteps (steps : List Step) : Res (List Step) :=
  if 2 ≤ steps.length ∧ steps.any (fun s => s.horizon.getStep == .panic) then .panic
  else .ok (steps.insertionSort fun a b => key a ≤ key b)

/-- `find_forecast_file_urls` from the response on
(`src/meteo_swiss/data_geo_admin_ch/icon_ch_forecast_search_service.rs` 73-82).  Collecting stops at the
first error. -/
def findFiles (features : List Feature) : Res (List Step) := do
  let steps ← Res.mapM createStep features
  sortSteps steps

/-- `find_latest_ref_datetime` from the response on (the texts of the reference times, parsed with
`parse`); `src/meteo_swiss/data_geo_admin_ch/icon_ch_forecast_search_service.rs` 46-55. -/
def findLatest (parse : Text → Res OffsetTime) (refTimes : List Text) : Res Instant :=
  match refTimes.getLast? with
  | none => .err
  | some t => RefTime.fromParsed (parse t)

/-- `get_forecast_run_steps` (`src/meteo_swiss/forecast_renderer/icon_ch1_forecast_renderer.rs` 226-233). -/
def runSteps (steps : List Step) (skipFirst : Bool) : List RunStep :=
  ((steps.zipIdx).filter fun p => !skipFirst || decide (1 ≤ p.2)).map fun p => ⟨p.2, p.1.href⟩

end SwissSearch

/-- The lookups of the cloud and precipitation reader, the same in both readers
(`src/meteo_swiss/file_reader/icon_ch_cloud_precip_reader.rs` 19-22,
`src/dwd/dwd_file_reader/dwd_icon_cloud_precip_reader.rs` 19-22): `unwrap()` turns a missing step into a
panic, `step_nr - 1` panics for step 0. -/
def cloudPrecipSteps (step : RunStep) (clct totPrec : List RunStep) : Res (RunStep × RunStep × RunStep) := do
  let c ← Res.unwrapResult (getStepByNr clct step.nr)
  if step.nr = 0 then .panic
  else do
    let p0 ← Res.unwrapResult (getStepByNr totPrec (step.nr - 1))
    let p1 ← Res.unwrapResult (getStepByNr totPrec step.nr)
    .ok (c, p0, p1)

end Verif
