import Verif.Model.Program

/-!
# Calendar and RFC 3339 texts

The functions of the library chrono (version 0.4.41) that `src/meteo_swiss/forecast_run/icon_ch_forecast_reference_datetime.rs`
calls: `date_naive` (line 49), `to_rfc3339_opts(Secs, true)` (line 44) and `parse_from_rfc3339` (line 29).  The source of
chrono is not part of the repository; its documented behaviour is written down here.  Its limit of about ±262000 years
is dropped.
-/

namespace Verif

namespace Date

/-- The day after. -/
def tomorrow (d : Date) : Date :=
  if d.day < daysIn d.year d.month then ⟨d.year, d.month, d.day + 1⟩
  else if d.month < 12 then ⟨d.year, d.month + 1, 1⟩
  else ⟨d.year + 1, 1, 1⟩

/-- 1 January 1970. -/
def epoch : Date := ⟨1970, 1, 1⟩

/-- The date of a day, counted from 1 January 1970: `date_naive`. -/
def ofDay : Int → Date
  | .ofNat n => tomorrow^[n] epoch
  | .negSucc n => yesterday^[n + 1] epoch

/-- Days between 1 January of year 1 and 1 January of the year. -/
def daysBeforeYear (y : Int) : Int := 365 * (y - 1) + (y - 1) / 4 - (y - 1) / 100 + (y - 1) / 400

/-- Days of the year before the month. -/
def daysBeforeMonth (y : Int) (m : Nat) : Nat := ((List.range (m - 1)).map fun k => daysIn y (k + 1)).sum

/-- The day of a date, counted from 1 January 1970 (719162 days after 1 January of year 1). -/
def toDay (d : Date) : Int := daysBeforeYear d.year + daysBeforeMonth d.year d.month + d.day - 1 - 719162

end Date

namespace Rfc3339

/-- Exactly `k` decimal digits. -/
def digits (k : Nat) (t : Text) : Option (Nat × Text) :=
  if (t.take k).length = k ∧ (t.take k).all Char.isDigit then
    some ((t.take k).foldl (fun v c => 10 * v + digitValue c) 0, t.drop k)
  else none

/-- A given character. -/
def char (p : Char → Bool) : Text → Option Text
  | [] => none
  | c :: t => if p c then some t else none

/-- The fraction of a second in nanoseconds: at least one digit after a point; digits after the ninth are dropped. -/
def fraction (t : Text) : Option (Nat × Text) :=
  match t with
  | '.' :: t =>
    let ds := t.takeWhile Char.isDigit
    if ds = [] then none
    else some ((ds.take 9).foldl (fun v c => 10 * v + digitValue c) 0 * 10 ^ (9 - (ds.take 9).length),
      t.dropWhile Char.isDigit)
  | t => some (0, t)

/-- Hours and minutes after the sign of an offset. -/
def offsetDigits (t : Text) : Option (Nat × Text) := do
  let (h, t) ← digits 2 t
  let t ← char (· == ':') t
  let (m, t) ← digits 2 t
  if m < 60 then some (h * 3600 + m * 60, t) else none

/-- The offset to UTC in seconds. -/
def offset : Text → Option (Int × Text)
  | [] => none
  | c :: t =>
    if c = 'Z' ∨ c = 'z' then some (0, t)
    else if c = '+' then (offsetDigits t).map fun p => ((p.1 : Int), p.2)
    else if c = '-' ∨ c = '−' then (offsetDigits t).map fun p => (-(p.1 : Int), p.2)
    else none

/-- `parse_from_rfc3339`.  Second 60 is the leap second after second 59. -/
def parseOpt (t : Text) : Option OffsetTime := do
  let (year, t) ← digits 4 t
  let t ← char (· == '-') t
  let (month, t) ← digits 2 t
  let t ← char (· == '-') t
  let (day, t) ← digits 2 t
  let t ← char (fun c => c == 'T' || c == 't' || c == ' ') t
  let (hour, t) ← digits 2 t
  let t ← char (· == ':') t
  let (minute, t) ← digits 2 t
  let t ← char (· == ':') t
  let (second, t) ← digits 2 t
  let (nano, t) ← fraction t
  let (off, t) ← offset t
  let date : Date := ⟨year, month, day⟩
  if t = [] ∧ date.Valid ∧ hour < 24 ∧ minute < 60 ∧ second ≤ 60 ∧ -86400 < off ∧ off < 86400 then
    some ⟨⟨date.toDay, hour * 3600 + minute * 60 + min second 59, if second = 60 then nano + 1000000000 else nano⟩, off⟩
  else none

/-- `parse_from_rfc3339` with its errors. -/
def parse (t : Text) : Res OffsetTime := Res.okOr (parseOpt t)

/-- `to_rfc3339_opts(SecondsFormat::Secs, true)` for UTC. -/
def fmt (t : Instant) : Text :=
  let d := Date.ofDay t.day
  Date.fmtYear d.year ++ '-' :: decPad 2 d.month ++ '-' :: decPad 2 d.day ++ 'T' :: decPad 2 t.hour ++
    ':' :: decPad 2 t.minute ++ ':' :: decPad 2 (if t.nano < 1000000000 then t.second else t.second + 1) ++ ['Z']

end Rfc3339

namespace RefTime

/-- `IconChForecastReferenceDateTime::from_str`
(`src/meteo_swiss/forecast_run/icon_ch_forecast_reference_datetime.rs` 28-38). -/
def fromStr (t : Text) : Res Instant := fromParsed (Rfc3339.parse t)

/-- `IconChForecastReferenceDateTime::get_name`
(`src/meteo_swiss/forecast_run/icon_ch_forecast_reference_datetime.rs` 42-45). -/
def getName (t : Instant) : Text := Rfc3339.fmt t

/-- `IconChForecastReferenceDateTime::get_date`
(`src/meteo_swiss/forecast_run/icon_ch_forecast_reference_datetime.rs` 48-50). -/
def getDate (t : Instant) : Date := Date.ofDay t.day

end RefTime

/-- The calendar that the program uses. -/
def Swiss.chrono : Swiss.Calendar := ⟨Rfc3339.parse, RefTime.getDate⟩

end Verif
