import Verif.Model.Forecast

/-!
# DWD forecasts

`src/dwd/dwd_file_reader/*.rs` (the URLs of the files), `src/dwd/dwd_forecast_renderer/dwd_icon_forecast_run_finder.rs`,
`src/system/file_helper.rs`.
-/

namespace Verif

namespace Dwd

/-- The variables with one value per cell, one reader in `src/dwd/dwd_file_reader` each (see
`singlePrefixSuffix`). -/
inductive SingleVar where
  | clctMod | totPrec | ceiling | ww | u10m | v10m | vmax10m | t2m
  deriving DecidableEq, Repr

/-- The variables with a file per level. -/
inductive LevelVar where
  | clc | u | v
  deriving DecidableEq, Repr

/-- File prefix and suffix of a variable: the constants and `get_file_prefix_suffix`
(`src/dwd/dwd_file_reader/dwd_icon_clct_mod_reader.rs` 14-17 and 46-52, `dwd_icon_tot_prec_reader.rs` 14-17 and 50-56,
`dwd_icon_ceiling_reader.rs` 13-16 and 50-56, `dwd_icon_ww_reader.rs` 14-17 and 50-56,
`dwd_icon_u_10m_reader.rs` 14-17 and 51-57, `dwd_icon_v_10m_reader.rs` 14-17 and 50-56,
`dwd_icon_vmax_10m_reader.rs` 14-17 and 50-56, `dwd_icon_t_2m_reader.rs` 14-17 and 51-57). -/
def singlePrefixSuffix : FcModel → SingleVar → Res (Text × Text)
  | .iconD2, .clctMod => .ok ("/clct_mod/icon-d2_germany_regular-lat-lon_single-level_".toList, "_2d_clct_mod.grib2.bz2".toList)
  | .iconD2, .totPrec => .ok ("/tot_prec/icon-d2_germany_regular-lat-lon_single-level_".toList, "_2d_tot_prec.grib2.bz2".toList)
  | .iconD2, .ceiling => .ok ("/ceiling/icon-d2_germany_regular-lat-lon_single-level_".toList, "_2d_ceiling.grib2.bz2".toList)
  | .iconD2, .ww => .ok ("/ww/icon-d2_germany_regular-lat-lon_single-level_".toList, "_2d_ww.grib2.bz2".toList)
  | .iconD2, .u10m => .ok ("/u_10m/icon-d2_germany_regular-lat-lon_single-level_".toList, "_2d_u_10m.grib2.bz2".toList)
  | .iconD2, .v10m => .ok ("/v_10m/icon-d2_germany_regular-lat-lon_single-level_".toList, "_2d_v_10m.grib2.bz2".toList)
  | .iconD2, .vmax10m => .ok ("/vmax_10m/icon-d2_germany_regular-lat-lon_single-level_".toList, "_2d_vmax_10m.grib2.bz2".toList)
  | .iconD2, .t2m => .ok ("/t_2m/icon-d2_germany_regular-lat-lon_single-level_".toList, "_2d_t_2m.grib2.bz2".toList)
  | .iconEu, .clctMod => .ok ("/clct_mod/icon-eu_europe_regular-lat-lon_single-level_".toList, "_CLCT_MOD.grib2.bz2".toList)
  | .iconEu, .totPrec => .ok ("/tot_prec/icon-eu_europe_regular-lat-lon_single-level_".toList, "_TOT_PREC.grib2.bz2".toList)
  | .iconEu, .ceiling => .ok ("/ceiling/icon-eu_europe_regular-lat-lon_single-level_".toList, "_CEILING.grib2.bz2".toList)
  | .iconEu, .ww => .ok ("/ww/icon-eu_europe_regular-lat-lon_single-level_".toList, "_WW.grib2.bz2".toList)
  | .iconEu, .u10m => .ok ("/u_10m/icon-eu_europe_regular-lat-lon_single-level_".toList, "_U_10M.grib2.bz2".toList)
  | .iconEu, .v10m => .ok ("/v_10m/icon-eu_europe_regular-lat-lon_single-level_".toList, "_V_10M.grib2.bz2".toList)
  | .iconEu, .vmax10m => .ok ("/vmax_10m/icon-eu_europe_regular-lat-lon_single-level_".toList, "_VMAX_10M.grib2.bz2".toList)
  | .iconEu, .t2m => .ok ("/t_2m/icon-eu_europe_regular-lat-lon_single-level_".toList, "_T_2M.grib2.bz2".toList)
  | _, _ => .panic

/-- File prefix and suffix of a variable with levels: the constants and `get_file_prefix_suffix`
(`src/dwd/dwd_file_reader/dwd_icon_clc_reader.rs` 18-21 and 71-77, `dwd_icon_u_reader.rs` 18-21 and 77-83,
`dwd_icon_v_reader.rs` 19-22 and 68-74). -/
def levelPrefixSuffix : FcModel → LevelVar → Res (Text × Text)
  | .iconD2, .clc => .ok ("/clc/icon-d2_germany_regular-lat-lon_model-level_".toList, "_clc.grib2.bz2".toList)
  | .iconD2, .u => .ok ("/u/icon-d2_germany_regular-lat-lon_model-level_".toList, "_u.grib2.bz2".toList)
  | .iconD2, .v => .ok ("/v/icon-d2_germany_regular-lat-lon_model-level_".toList, "_v.grib2.bz2".toList)
  | .iconEu, .clc => .ok ("/clc/icon-eu_europe_regular-lat-lon_model-level_".toList, "_CLC.grib2.bz2".toList)
  | .iconEu, .u => .ok ("/u/icon-eu_europe_regular-lat-lon_model-level_".toList, "_U.grib2.bz2".toList)
  | .iconEu, .v => .ok ("/v/icon-eu_europe_regular-lat-lon_model-level_".toList, "_V.grib2.bz2".toList)
  | _, _ => .panic

/-- File prefix and suffix of the level heights (`src/dwd/dwd_file_reader/dwd_icon_hhl_reader.rs` 18-67). -/
def hhlPrefixSuffix : FcModel → Res (Text × Text)
  | .iconD2 => .ok ("/hhl/icon-d2_germany_regular-lat-lon_time-invariant_".toList, "_hhl.grib2.bz2".toList)
  | .iconEu => .ok ("/hhl/icon-eu_europe_regular-lat-lon_time-invariant_".toList, "_HHL.grib2.bz2".toList)
  | _ => .panic

/-- `get_base_url` (`src/dwd/dwd_file_reader/dwd_icon_file.rs` 8-9, 94-100). -/
def baseUrl : FcModel → Res Text
  | .iconD2 => .ok "https://opendata.dwd.de/weather/nwp/icon-d2/grib/".toList
  | .iconEu => .ok "https://opendata.dwd.de/weather/nwp/icon-eu/grib/".toList
  | _ => .panic

/-- `get_single_level_file_url` (`src/dwd/dwd_file_reader/dwd_icon_file.rs` 14-35). -/
def singleLevelUrl (pre suf : Text) (run : Run) (step : Nat) : Res Text := do
  let base ← baseUrl run.model
  .ok (base ++ run.name ++ pre ++ run.date.fmt ++ run.name ++ ['_'] ++ decPad 3 step ++ suf)

/-- `get_multi_level_file_url` (`src/dwd/dwd_file_reader/dwd_icon_file.rs` 38-61). -/
def multiLevelUrl (pre suf : Text) (level : Nat) (run : Run) (step : Nat) : Res Text := do
  let base ← baseUrl run.model
  .ok (base ++ run.name ++ pre ++ run.date.fmt ++ run.name ++ ['_'] ++ decPad 3 step ++ ['_'] ++ dec level ++ suf)

/-- The step part of the URL of a file that does not depend on time
(`src/dwd/dwd_file_reader/dwd_icon_file.rs` 73-77). -/
def invariantStep : FcModel → Res Text
  | .iconD2 => .ok "000_".toList
  | .iconEu => .ok []
  | _ => .panic

/-- `get_multi_level_time_invariant_file_url` (`src/dwd/dwd_file_reader/dwd_icon_file.rs` 64-91). -/
def invariantUrl (pre suf : Text) (level : Nat) (run : Run) : Res Text := do
  let base ← baseUrl run.model
  let step ← invariantStep run.model
  .ok (base ++ run.name ++ pre ++ run.date.fmt ++ run.name ++ ['_'] ++ step ++ dec level ++ suf)

/-- A file that a reader asks for. -/
inductive Req where
  | single (x : SingleVar) (step : Nat)
  | level (x : LevelVar) (step level : Nat)
  | hhl (level : Nat)
  deriving DecidableEq, Repr

/-- `get_file_url` of the readers (e.g. `src/dwd/dwd_file_reader/dwd_icon_clct_mod_reader.rs` 35-43,
`dwd_icon_clc_reader.rs` 54-68, `dwd_icon_hhl_reader.rs` 49-58). -/
def fileUrl (run : Run) : Req → Res Text
  | .single x step => do
    let ps ← singlePrefixSuffix run.model x
    singleLevelUrl ps.1 ps.2 run step
  | .level x step level => do
    let ps ← levelPrefixSuffix run.model x
    multiLevelUrl ps.1 ps.2 level run step
  | .hhl level => do
    let ps ← hhlPrefixSuffix run.model
    invariantUrl ps.1 ps.2 level run

/-- `is_url` (`src/grib2/converter/file_to_grid_converter.rs` 117-119). -/
def isUrl (t : Text) : Bool := "http://".toList.isPrefixOf t || "https://".toList.isPrefixOf t

/-- Whether a downloaded file is unpacked (`src/system/file_helper.rs` 10, 30). -/
def isBz2 (t : Text) : Bool := ".bz2".toList.isSuffixOf t

/-- `IconD2EUForecastRunName::get_all_reversed` and `get_name`
(`src/dwd/forecast_run/icon_d2_eu_forecast_run_name.rs` 15-48). -/
def runNamesReversed : List Text :=
  ["00".toList, "03".toList, "06".toList, "09".toList, "12".toList, "15".toList, "18".toList, "21".toList].reverse

/-- `get_probe_file_names` (`src/dwd/dwd_forecast_renderer/dwd_icon_forecast_run_finder.rs` 67-80). -/
def probeUrls (run : Run) (step : Nat) : Res (List Text) :=
  Res.mapM (fileUrl run) [.single .clctMod step, .single .totPrec step, .single .ceiling step, .single .ww step,
    .single .u10m step, .single .v10m step, .single .vmax10m step, .single .t2m step, .level .clc step 65,
    .level .u step 65]

/-- The loop over the runs (`src/dwd/dwd_forecast_renderer/dwd_icon_forecast_run_finder.rs` 30-57);
`available` tells whether a HEAD request is answered with status 200. -/
def tryRuns (model : FcModel) (today : Date) (available : Text → Bool) : List Text → Res (Option Run)
  | [] => .ok none
  | name :: names => do
    let run : Run := ⟨model, today, name⟩
    let urls ← probeUrls run model.stepRange.2
    if urls.all available then .ok (some run) else tryRuns model today available names

/-- `find_latest_forecast_run` (`src/dwd/dwd_forecast_renderer/dwd_icon_forecast_run_finder.rs` 25-64).  The
clock is read at the start (`today`) and again before the fallback (`now`). -/
def findLatestRun (model : FcModel) (today now : Date) (available : Text → Bool) : Res Run := do
  match ← tryRuns model today available runNamesReversed with
  | some run => .ok run
  | none => .ok ⟨.iconD2, now.yesterday, "21".toList⟩

end Dwd

end Verif
