import Verif.Lemmas.Calendar
import Verif.Model.Request
import Verif.Model.Metobin
import Verif.Model.Dwd

/-!
# The project's own unit tests, replayed: forecasts and binary files

Every `example` is one test of the project, with its inputs and its expected results (see `Verif/Conformance/Geo.lean`).
Tests that ask the web service (`icon_ch_assets_service.rs`, `icon_ch_forecast_search_service.rs`,
`icon_ch1_forecast_renderer.rs`, `main.rs`) have no fixed expected result and are left out.
-/

namespace Verif.Conformance.Forecast

open Verif

/-! ## `src/dwd/dwd_file_reader` -/

/-- `dwd_icon_file.rs`: `it_creates_the_correct_single_level_icon_d2_file_url` -/
example : Dwd.singleLevelUrl "/t_2m/icon-d2_germany_regular-lat-lon_single-level_".toList "_2d_t_2m.grib2.bz2".toList
      ⟨.iconD2, ⟨2025, 11, 20⟩, "06".toList⟩ 13 = .ok
    "https://opendata.dwd.de/weather/nwp/icon-d2/grib/06/t_2m/icon-d2_germany_regular-lat-lon_single-level_2025112006_013_2d_t_2m.grib2.bz2".toList := by
  decide +kernel

/-- `dwd_icon_file.rs`: `it_creates_the_correct_multi_level_icon_eu_file_url` -/
example : Dwd.multiLevelUrl "/clc/icon-eu_europe_regular-lat-lon_model-level_".toList "_CLC.grib2.bz2".toList 32
      ⟨.iconEu, ⟨2025, 12, 1⟩, "06".toList⟩ 0 = .ok
    "https://opendata.dwd.de/weather/nwp/icon-eu/grib/06/clc/icon-eu_europe_regular-lat-lon_model-level_2025120106_000_32_CLC.grib2.bz2".toList := by
  decide +kernel

/-- `dwd_icon_file.rs`: `it_creates_the_correct_multi_level_time_invariant_icon_d2_file_url` -/
example : Dwd.invariantUrl "/hhl/icon-d2_germany_icosahedral_time-invariant_".toList "_hhl.grib2.bz2".toList 66
      ⟨.iconD2, ⟨2025, 11, 20⟩, "06".toList⟩ = .ok
    "https://opendata.dwd.de/weather/nwp/icon-d2/grib/06/hhl/icon-d2_germany_icosahedral_time-invariant_2025112006_000_66_hhl.grib2.bz2".toList := by
  decide +kernel

/-- `dwd_icon_ceiling_reader.rs`: `it_creates_the_correct_icon_d2_file_url` -/
example : Dwd.fileUrl ⟨.iconD2, ⟨2025, 11, 20⟩, "06".toList⟩ (.single .ceiling 25) = .ok
    "https://opendata.dwd.de/weather/nwp/icon-d2/grib/06/ceiling/icon-d2_germany_regular-lat-lon_single-level_2025112006_025_2d_ceiling.grib2.bz2".toList := by
  decide +kernel

/-- `dwd_icon_ceiling_reader.rs`: `it_creates_the_correct_icon_eu_file_url` -/
example : Dwd.fileUrl ⟨.iconEu, ⟨2025, 12, 1⟩, "06".toList⟩ (.single .ceiling 19) = .ok
    "https://opendata.dwd.de/weather/nwp/icon-eu/grib/06/ceiling/icon-eu_europe_regular-lat-lon_single-level_2025120106_019_CEILING.grib2.bz2".toList := by
  decide +kernel

/-- `dwd_icon_clc_reader.rs`: `it_creates_the_correct_icon_d2_file_url` -/
example : Dwd.fileUrl ⟨.iconD2, ⟨2022, 12, 22⟩, "00".toList⟩ (.level .clc 0 65) = .ok
    "https://opendata.dwd.de/weather/nwp/icon-d2/grib/00/clc/icon-d2_germany_regular-lat-lon_model-level_2022122200_000_65_clc.grib2.bz2".toList := by
  decide +kernel

/-- `dwd_icon_clc_reader.rs`: `it_creates_the_correct_icon_eu_file_url` -/
example : Dwd.fileUrl ⟨.iconEu, ⟨2025, 12, 1⟩, "06".toList⟩ (.level .clc 4 32) = .ok
    "https://opendata.dwd.de/weather/nwp/icon-eu/grib/06/clc/icon-eu_europe_regular-lat-lon_model-level_2025120106_004_32_CLC.grib2.bz2".toList := by
  decide +kernel

/-- `dwd_icon_clct_mod_reader.rs`: `it_creates_the_correct_icon_d2_file_url` -/
example : Dwd.fileUrl ⟨.iconD2, ⟨2022, 6, 19⟩, "00".toList⟩ (.single .clctMod 0) = .ok
    "https://opendata.dwd.de/weather/nwp/icon-d2/grib/00/clct_mod/icon-d2_germany_regular-lat-lon_single-level_2022061900_000_2d_clct_mod.grib2.bz2".toList := by
  decide +kernel

/-- `dwd_icon_clct_mod_reader.rs`: `it_creates_the_correct_icon_eu_file_url` -/
example : Dwd.fileUrl ⟨.iconEu, ⟨2025, 12, 1⟩, "06".toList⟩ (.single .clctMod 25) = .ok
    "https://opendata.dwd.de/weather/nwp/icon-eu/grib/06/clct_mod/icon-eu_europe_regular-lat-lon_single-level_2025120106_025_CLCT_MOD.grib2.bz2".toList := by
  decide +kernel

/-- `dwd_icon_hhl_reader.rs`: `it_creates_the_correct_icon_dw_file_url` -/
example : Dwd.fileUrl ⟨.iconD2, ⟨2022, 12, 22⟩, "00".toList⟩ (.hhl 10) = .ok
    "https://opendata.dwd.de/weather/nwp/icon-d2/grib/00/hhl/icon-d2_germany_regular-lat-lon_time-invariant_2022122200_000_10_hhl.grib2.bz2".toList := by
  decide +kernel

/-- `dwd_icon_hhl_reader.rs`: `it_creates_the_correct_icon_eu_file_url` -/
example : Dwd.fileUrl ⟨.iconEu, ⟨2025, 12, 1⟩, "06".toList⟩ (.hhl 9) = .ok
    "https://opendata.dwd.de/weather/nwp/icon-eu/grib/06/hhl/icon-eu_europe_regular-lat-lon_time-invariant_2025120106_9_HHL.grib2.bz2".toList := by
  decide +kernel

/-- `dwd_icon_t_2m_reader.rs`: `it_creates_the_correct_icon_d2_file_url` -/
example : Dwd.fileUrl ⟨.iconD2, ⟨2023, 8, 6⟩, "00".toList⟩ (.single .t2m 0) = .ok
    "https://opendata.dwd.de/weather/nwp/icon-d2/grib/00/t_2m/icon-d2_germany_regular-lat-lon_single-level_2023080600_000_2d_t_2m.grib2.bz2".toList := by
  decide +kernel

/-- `dwd_icon_t_2m_reader.rs`: `it_creates_the_correct_icon_eu_file_url` -/
example : Dwd.fileUrl ⟨.iconEu, ⟨2025, 12, 1⟩, "06".toList⟩ (.single .t2m 75) = .ok
    "https://opendata.dwd.de/weather/nwp/icon-eu/grib/06/t_2m/icon-eu_europe_regular-lat-lon_single-level_2025120106_075_T_2M.grib2.bz2".toList := by
  decide +kernel

/-- `dwd_icon_tot_prec_reader.rs`: `it_creates_the_correct_icon_d2_file_url` -/
example : Dwd.fileUrl ⟨.iconD2, ⟨2022, 6, 19⟩, "00".toList⟩ (.single .totPrec 0) = .ok
    "https://opendata.dwd.de/weather/nwp/icon-d2/grib/00/tot_prec/icon-d2_germany_regular-lat-lon_single-level_2022061900_000_2d_tot_prec.grib2.bz2".toList := by
  decide +kernel

/-- `dwd_icon_tot_prec_reader.rs`: `it_creates_the_correct_icon_eu_file_url` -/
example : Dwd.fileUrl ⟨.iconEu, ⟨2025, 12, 1⟩, "06".toList⟩ (.single .totPrec 54) = .ok
    "https://opendata.dwd.de/weather/nwp/icon-eu/grib/06/tot_prec/icon-eu_europe_regular-lat-lon_single-level_2025120106_054_TOT_PREC.grib2.bz2".toList := by
  decide +kernel

/-- `dwd_icon_u_10m_reader.rs`: `it_creates_the_correct_icon_d2_file_url` -/
example : Dwd.fileUrl ⟨.iconD2, ⟨2022, 6, 19⟩, "00".toList⟩ (.single .u10m 0) = .ok
    "https://opendata.dwd.de/weather/nwp/icon-d2/grib/00/u_10m/icon-d2_germany_regular-lat-lon_single-level_2022061900_000_2d_u_10m.grib2.bz2".toList := by
  decide +kernel

/-- `dwd_icon_u_10m_reader.rs`: `it_creates_the_correct_icon_eu_file_url` -/
example : Dwd.fileUrl ⟨.iconEu, ⟨2025, 12, 1⟩, "06".toList⟩ (.single .u10m 20) = .ok
    "https://opendata.dwd.de/weather/nwp/icon-eu/grib/06/u_10m/icon-eu_europe_regular-lat-lon_single-level_2025120106_020_U_10M.grib2.bz2".toList := by
  decide +kernel

/-- `dwd_icon_u_reader.rs`: `it_creates_the_correct_icon_d2_file_url` -/
example : Dwd.fileUrl ⟨.iconD2, ⟨2023, 3, 21⟩, "00".toList⟩ (.level .u 4 11) = .ok
    "https://opendata.dwd.de/weather/nwp/icon-d2/grib/00/u/icon-d2_germany_regular-lat-lon_model-level_2023032100_004_11_u.grib2.bz2".toList := by
  decide +kernel

/-- `dwd_icon_u_reader.rs`: `it_creates_the_correct_icon_eu_file_url` -/
example : Dwd.fileUrl ⟨.iconEu, ⟨2025, 12, 1⟩, "06".toList⟩ (.level .u 3 19) = .ok
    "https://opendata.dwd.de/weather/nwp/icon-eu/grib/06/u/icon-eu_europe_regular-lat-lon_model-level_2025120106_003_19_U.grib2.bz2".toList := by
  decide +kernel

/-- `dwd_icon_v_10m_reader.rs`: `it_creates_the_correct_icon_d2_file_url` -/
example : Dwd.fileUrl ⟨.iconD2, ⟨2022, 6, 19⟩, "00".toList⟩ (.single .v10m 0) = .ok
    "https://opendata.dwd.de/weather/nwp/icon-d2/grib/00/v_10m/icon-d2_germany_regular-lat-lon_single-level_2022061900_000_2d_v_10m.grib2.bz2".toList := by
  decide +kernel

/-- `dwd_icon_v_10m_reader.rs`: `it_creates_the_correct_icon_eu_file_url` -/
example : Dwd.fileUrl ⟨.iconEu, ⟨2025, 12, 1⟩, "06".toList⟩ (.single .v10m 16) = .ok
    "https://opendata.dwd.de/weather/nwp/icon-eu/grib/06/v_10m/icon-eu_europe_regular-lat-lon_single-level_2025120106_016_V_10M.grib2.bz2".toList := by
  decide +kernel

/-- `dwd_icon_v_reader.rs`: `it_creates_the_correct_icon_d2_file_url` -/
example : Dwd.fileUrl ⟨.iconD2, ⟨2023, 3, 21⟩, "00".toList⟩ (.level .v 43 48) = .ok
    "https://opendata.dwd.de/weather/nwp/icon-d2/grib/00/v/icon-d2_germany_regular-lat-lon_model-level_2023032100_043_48_v.grib2.bz2".toList := by
  decide +kernel

/-- `dwd_icon_v_reader.rs`: `it_creates_the_correct_icon_eu_file_url` -/
example : Dwd.fileUrl ⟨.iconEu, ⟨2025, 12, 1⟩, "06".toList⟩ (.level .v 2 18) = .ok
    "https://opendata.dwd.de/weather/nwp/icon-eu/grib/06/v/icon-eu_europe_regular-lat-lon_model-level_2025120106_002_18_V.grib2.bz2".toList := by
  decide +kernel

/-- `dwd_icon_vmax_10m_reader.rs`: `it_creates_the_correct_icon_d2_file_url` -/
example : Dwd.fileUrl ⟨.iconD2, ⟨2022, 6, 19⟩, "00".toList⟩ (.single .vmax10m 0) = .ok
    "https://opendata.dwd.de/weather/nwp/icon-d2/grib/00/vmax_10m/icon-d2_germany_regular-lat-lon_single-level_2022061900_000_2d_vmax_10m.grib2.bz2".toList := by
  decide +kernel

/-- `dwd_icon_vmax_10m_reader.rs`: `it_creates_the_correct_icon_eu_file_url` -/
example : Dwd.fileUrl ⟨.iconEu, ⟨2025, 12, 1⟩, "06".toList⟩ (.single .vmax10m 44) = .ok
    "https://opendata.dwd.de/weather/nwp/icon-eu/grib/06/vmax_10m/icon-eu_europe_regular-lat-lon_single-level_2025120106_044_VMAX_10M.grib2.bz2".toList := by
  decide +kernel

/-- `dwd_icon_ww_reader.rs`: `it_creates_the_correct_icon_d2_file_url` -/
example : Dwd.fileUrl ⟨.iconD2, ⟨2022, 6, 19⟩, "00".toList⟩ (.single .ww 1) = .ok
    "https://opendata.dwd.de/weather/nwp/icon-d2/grib/00/ww/icon-d2_germany_regular-lat-lon_single-level_2022061900_001_2d_ww.grib2.bz2".toList := by
  decide +kernel

/-- `dwd_icon_ww_reader.rs`: `it_creates_the_correct_icon_eu_file_url` -/
example : Dwd.fileUrl ⟨.iconEu, ⟨2025, 12, 1⟩, "06".toList⟩ (.single .ww 63) = .ok
    "https://opendata.dwd.de/weather/nwp/icon-eu/grib/06/ww/icon-eu_europe_regular-lat-lon_single-level_2025120106_063_WW.grib2.bz2".toList := by
  decide +kernel

/-! ## `src/dwd/forecast_run/icon_d2_eu_forecast_run_name.rs` -/

/-- `it_gets_the_correct_name`, `it_gets_the_full_list`, `it_gets_the_reversed_list` (a run is represented by its name) -/
example : "12".toList ∈ Dwd.runNamesReversed ∧ Dwd.runNamesReversed.length = 8 ∧
    Dwd.runNamesReversed.head? = some "21".toList ∧ Dwd.runNamesReversed.getLast? = some "00".toList := by
  decide +kernel

/-! ## `src/meteo_common/meteo_forecast_run_step.rs`, `src/meteo_chart/meteo_layer/weather_interpretation.rs` -/

/-- `test_it_gets_the_correct_step_by_nr_in_a_list` -/
example : getStepByNr [⟨0, "url1".toList⟩, ⟨3, "url2".toList⟩, ⟨6, "url3".toList⟩] 3 = .ok ⟨3, "url2".toList⟩ := by
  decide +kernel

/-- `it_converts_from_a_byte_value`, `it_converts_to_a_byte_value` -/
example : Weather.fromValue 45 = .ok .fog ∧ Weather.snowGrains.toValue = 77 := by decide +kernel

/-! ## `src/meteo_swiss/data_geo_admin_ch/icon_ch_forecast_request.rs` -/

/-- The instant of the tests. -/
def noon : Instant := ⟨20325, 43200, 0⟩

theorem fromStr_noon : RefTime.fromStr "2025-08-25T12:00:00Z".toList = .ok noon := by decide +kernel

theorem date_noon : Date.ofDay noon.day = ⟨2025, 8, 25⟩ := by
  have h : (⟨2025, 8, 25⟩ : Date).toDay = noon.day := by decide +kernel
  rw [← h]
  exact Date.ofDay_toDay (by decide +kernel)

theorem name_noon : RefTime.getName noon = "2025-08-25T12:00:00Z".toList := by
  simp only [RefTime.getName, Rfc3339.fmt, date_noon]
  decide +kernel

/-- `it_builds_a_forecast_request` -/
example : (RefTime.fromStr "2025-08-25T12:00:00Z".toList).bind (fun t =>
      (((((Swiss.Builder.new.withModel .iconCh1).withVariable .t2m).withRefTime t).withHorizon ⟨1, 6⟩).withPerturbed
        false).build) =
    .ok ⟨[Swiss.ChModel.iconCh1.searchName], some "2025-08-25T12:00:00Z".toList, some (Horizon.getName ⟨1, 6⟩),
      some (Swiss.Variable.name .t2m), false⟩ := by
  rw [fromStr_noon]
  simp only [Res.bind, Swiss.Builder.withRefTime, name_noon]
  decide +kernel

/-- `it_fails_to_build_a_forecast_request_without_model` -/
example : (((Swiss.Builder.new.withHorizon ⟨0, 0⟩).withVariable .t2m).withPerturbed false).build = .err := by
  decide +kernel

/-! ## `src/meteo_swiss/forecast_run/icon_ch_forecast_horizon.rs` -/

/-- `it_builds_a_zero_instance`, `it_builds_a_custom_instance` (the constructor of the structure) -/
example : (Horizon.mk 0 0).days = 0 ∧ (Horizon.mk 0 0).hours = 0 ∧ (Horizon.mk 1 6).days = 1 ∧
    (Horizon.mk 1 6).hours = 6 := by decide +kernel

/-- `it_parses_a_horizon_from_string` -/
example : Horizon.fromStr "P1DT06H00M00S".toList = .ok ⟨1, 6⟩ := by decide +kernel

/-- `it_converts_a_step_to_a_horizon`, `it_converts_a_horizon_to_a_step` -/
example : Horizon.fromStep 30 = ⟨1, 6⟩ ∧ Horizon.getStep ⟨1, 6⟩ = .ok 30 := by decide +kernel

/-- `it_gets_the_name_of_a_horizon` -/
example : Horizon.getName ⟨1, 6⟩ = "P1DT06H00M00S".toList := by decide +kernel

/-! ## `src/meteo_swiss/forecast_run/icon_ch_forecast_reference_datetime.rs` -/

/-- `it_creates_an_instance_from_a_str`: the instant is that of the parsed time -/
example : (RefTime.fromStr "2025-08-25T12:00:00Z".toList) =
    (Rfc3339.parse "2025-08-25T12:00:00Z".toList).bind (fun t => .ok t.toUtc) := by decide +kernel

/-- `it_gets_the_name_of_an_instance`, `it_gets_the_date_of_an_instance` -/
example : (RefTime.fromStr "2025-08-25T12:00:00Z".toList).bind (fun t => .ok (RefTime.getName t, RefTime.getDate t)) =
    .ok ("2025-08-25T12:00:00Z".toList, ⟨2025, 8, 25⟩) := by
  rw [fromStr_noon]
  simp only [Res.bind, name_noon, RefTime.getDate, date_noon]

/-- `it_only_allows_three_hour_steps` -/
example : (RefTime.fromStr "2025-08-25T12:00:00Z".toList).bind (fun _ => .ok true) = .ok true ∧
    RefTime.fromStr "2025-08-25T13:00:00Z".toList = .err := by decide +kernel

/-- `it_gets_the_latest_reference_datetime` -/
example : (Rfc3339.parse "2025-08-25T14:37:22Z".toList).bind (fun t => (RefTime.getLatest t.toUtc).bind fun r =>
      .ok (r.hour, r.minute, r.second)) = .ok (12, 0, 0) := by decide +kernel

/-! ## `src/metobin` -/

/-- `precip_metobin.rs`: `it_calculates_the_correct_precip_meteobin_values` -/
example : [some (0, 0), some (0, 1), some (0, 0.2), some (0, 0.5), some (0, 0.74), some (0, 0.75), some (0, 35.8),
      some (0, 127), none].map (fun v : Option (Rat × Rat) =>
        Metobin.precipByte (v.map fun p => (lit p.1, lit p.2))) = [0, 2, 1, 1, 1, 2, 72, 254, 0xFF] := by
  decide +kernel

/-- `temp_metobin.rs`: `it_calculates_the_correct_precip_meteobin_values` -/
example : [some 273.15, some 274.15, some 272.15, some 273.65, some 272.65, some 314.65, some 243.4, some 336.15,
      some 209.15, none].map (fun v : Option Rat => Metobin.tempByte (v.map lit)) =
    [128, 130, 126, 129, 127, 211, 68, 254, 0, 0xFF] := by decide +kernel

/-- `wind_metobin.rs`: `it_calculates_the_bin_value_for_3kt`, `it_limits_the_max_bin_value_to_plus127`,
`it_limits_the_min_bin_value_to_neg128` -/
example : [3, 150, -200].map (fun kt : Rat => Metobin.speedByte (Physics.knotsToMps (lit kt))) =
    [3 + 128, 254, 0] := by decide +kernel

end Verif.Conformance.Forecast
