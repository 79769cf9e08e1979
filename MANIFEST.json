{
 "claims": [
  {
   "property": "C01",
   "status": "proved",
   "theorems": [
    "Verif.Props.C01_round_trip",
    "Verif.Props.C01_encode_injective"
   ],
   "note": "Proved for all well-formed messages; unknown product templates with coordinate values are excluded by hypothesis and treated in C59."
  },
  {
   "property": "C02",
   "status": "proved",
   "theorems": [
    "Verif.Props.C02_multi",
    "Verif.Props.C02_first_unreadable",
    "Verif.Props.C02_never_empty",
    "Verif.Props.C02_step"
   ],
   "note": "Proved for the model, for all inputs in the stated range."
  },
  {
   "property": "C03",
   "status": "proved",
   "theorems": [
    "Verif.Props.C03_truncated",
    "Verif.Props.C03_truncated_encoding"
   ],
   "note": "Proved for the model, for all inputs in the stated range."
  },
  {
   "property": "C04",
   "status": "proved",
   "theorems": [
    "Verif.Props.C04_framing"
   ],
   "note": "Proved for the model, for all inputs in the stated range."
  },
  {
   "property": "C05",
   "status": "partial",
   "theorems": [
    "Verif.Props.C05_counterexample",
    "Verif.Props.C05_cause",
    "Verif.Props.C05_no_panic_partial",
    "Verif.Props.C05_not_grib_partial",
    "Verif.Props.C05_truncated_message_partial"
   ],
   "note": "False for the code: a section length below the fixed part of the section, or an impossible reference date, panics (witness). C05_cause characterises the crashes completely; the _partial theorems give the inputs that never crash."
  },
  {
   "property": "C06",
   "status": "proved",
   "theorems": [
    "Verif.Props.C06_bitmap",
    "Verif.Props.C06_no_bitmap"
   ],
   "note": "Proved for the model, for all inputs in the stated range."
  },
  {
   "property": "C07",
   "status": "proved",
   "theorems": [
    "Verif.Props.C07_monotone",
    "Verif.Props.C07_formula"
   ],
   "note": "Proved for the model, for all inputs in the stated range."
  },
  {
   "property": "C08",
   "status": "proved",
   "theorems": [
    "Verif.Props.C08_safe_iff",
    "Verif.Props.C08_other_template"
   ],
   "note": "Proved for the model, for all inputs in the stated range."
  },
  {
   "property": "C09",
   "status": "partial",
   "theorems": [
    "Verif.Props.C09_counterexample",
    "Verif.Props.C09_empty_data_partial"
   ],
   "note": "False for the code: constant fields decode to the missing value (witness). The _partial theorem says what an empty data section decodes to."
  },
  {
   "property": "C10",
   "status": "partial",
   "theorems": [
    "Verif.Props.C10_always",
    "Verif.Props.C10_counterexample",
    "Verif.Props.C10_width16_partial"
   ],
   "note": "False for the code: always 16 bits per value (witness). Proved for 16-bit data."
  },
  {
   "property": "C11",
   "status": "proved",
   "theorems": [
    "Verif.Props.C11_decode",
    "Verif.Props.C11_round_trip",
    "Verif.Props.C11_stream"
   ],
   "note": "Proved for the model, for all inputs in the stated range."
  },
  {
   "property": "C12",
   "status": "partial",
   "theorems": [
    "Verif.Props.C12_counterexample",
    "Verif.Props.C12_nonnegative_partial",
    "Verif.Props.C12_negative_always_wrong"
   ],
   "note": "False for the code for every negative angle (C12_negative_always_wrong); proved for non-negative angles."
  },
  {
   "property": "C13",
   "status": "proved",
   "theorems": [
    "Verif.Props.C13_shape",
    "Verif.Props.C13_cells",
    "Verif.Props.C13_defined",
    "Verif.Props.C13_other_template"
   ],
   "note": "Proved for the model, for all inputs in the stated range."
  },
  {
   "property": "C14",
   "status": "proved",
   "theorems": [
    "Verif.Props.C14_selection",
    "Verif.Props.C14_result",
    "Verif.Props.C14_failure"
   ],
   "note": "Proved for the model, for all inputs in the stated range."
  },
  {
   "property": "C15",
   "status": "proved",
   "theorems": [
    "Verif.Props.C15_normalise",
    "Verif.Props.C15_unchanged",
    "Verif.Props.C15_shift",
    "Verif.Props.C15_idempotent",
    "Verif.Props.C15_nonfinite"
   ],
   "note": "Proved for the model, for all inputs in the stated range."
  },
  {
   "property": "C16",
   "status": "proved",
   "theorems": [
    "Verif.Props.C16_half_open",
    "Verif.Props.C16_nan",
    "Verif.Props.C16_adjacent_disjoint",
    "Verif.Props.C16_split",
    "Verif.Props.C16_new"
   ],
   "note": "Proved for the model, for all inputs in the stated range."
  },
  {
   "property": "C17",
   "status": "proved",
   "theorems": [
    "Verif.Props.C17_bounding",
    "Verif.Props.C17_empty"
   ],
   "note": "Proved for the model, for all inputs in the stated range."
  },
  {
   "property": "C18",
   "status": "proved",
   "theorems": [
    "Verif.Props.C18_defined",
    "Verif.Props.C18_injective",
    "Verif.Props.C18_surjective"
   ],
   "note": "Proved for the model, for all inputs in the stated range. Grids of up to 2^64 cells (more do not fit the index type)."
  },
  {
   "property": "C19",
   "status": "proved",
   "theorems": [
    "Verif.Props.C19_lookup"
   ],
   "note": "Proved for the model, for all inputs in the stated range. Grids of up to 2^64 cells (more do not fit the index type)."
  },
  {
   "property": "C20",
   "status": "proved",
   "theorems": [
    "Verif.Props.C20_nearest_cell",
    "Verif.Props.C20_outside",
    "Verif.Props.C20_inside",
    "Verif.Props.C20_rounding"
   ],
   "note": "Proved for the model, for all inputs in the stated range. Grids of up to 2^64 cells (more do not fit the index type)."
  },
  {
   "property": "C21",
   "status": "proved",
   "theorems": [
    "Verif.Props.C21_outside",
    "Verif.Props.C21_missing",
    "Verif.Props.C21_node"
   ],
   "note": "Proved for the model, for all inputs in the stated range. Grids of up to 2^24 cells on a side. C21_missing is about positions off the grid lines, C21_node about grid points; positions on exactly one grid line are the subject of C22."
  },
  {
   "property": "C22",
   "status": "partial",
   "theorems": [
    "Verif.Props.C22_grid_line_counterexample",
    "Verif.Props.C22_bilinear",
    "Verif.Props.C22_between"
   ],
   "note": "Interpolated values stay between the corners (up to stated binary32 error) and follow the bilinear formula off the grid lines; the grid line clause is refuted by a witness."
  },
  {
   "property": "C23",
   "status": "proved",
   "theorems": [
    "Verif.Props.C23_nearest",
    "Verif.Props.C23_nearest_geometric"
   ],
   "note": "Proved for the model, for all inputs in the stated range. Finite coordinates and a target grid with at least one cell; C23_nearest_geometric replaces the search window by the plain distance for coordinates that keep the maximum distance from the date line."
  },
  {
   "property": "C24",
   "status": "partial",
   "theorems": [
    "Verif.Props.C24_date_line",
    "Verif.Props.C24_window_partial",
    "Verif.Props.C24_counterexample",
    "Verif.Props.C24_counterexample_map"
   ],
   "note": "False at the date line (witness, also for the finished lookup map; C24_date_line: on every grid around the earth of reasonable resolution no cell is searched); proved for grids of reasonable resolution and coordinates away from the date line."
  },
  {
   "property": "C25",
   "status": "proved",
   "theorems": [
    "Verif.Props.C25_regrid"
   ],
   "note": "Proved for the model, for all inputs in the stated range. The lookup map has one entry for each cell (WellSized), which C23_nearest establishes for every grid that is built."
  },
  {
   "property": "C26",
   "status": "proved",
   "theorems": [
    "Verif.Props.C26_three_nearest",
    "Verif.Props.C26_cell"
   ],
   "note": "Proved for the model, for all inputs in the stated range. Distances are numbers (not NaN)."
  },
  {
   "property": "C27",
   "status": "partial",
   "theorems": [
    "Verif.Props.C27_counterexample",
    "Verif.Props.C27_single_at_centre",
    "Verif.Props.C27_always",
    "Verif.Props.C27_far_dominates"
   ],
   "note": "False for the code, for all inputs: a farther kept coordinate never contributes less than a nearer one (C27_always), and it supplies at least half of its value when the nearer one is 0 (C27_far_dominates); witness in the counterexample."
  },
  {
   "property": "C28",
   "status": "proved",
   "theorems": [
    "Verif.Props.C28_round_trip",
    "Verif.Props.C28_truncated",
    "Verif.Props.C28_magic",
    "Verif.Props.C28_encode_injective"
   ],
   "note": "Proved for the model, for all inputs in the stated range."
  },
  {
   "property": "C29",
   "status": "proved",
   "theorems": [
    "Verif.Props.C29_data",
    "Verif.Props.C29_missing",
    "Verif.Props.C29_document",
    "Verif.Props.C29_document_missing"
   ],
   "note": "Proved for the model, for all inputs in the stated range."
  },
  {
   "property": "C30",
   "status": "partial",
   "theorems": [
    "Verif.Props.C30_always",
    "Verif.Props.C30_counterexample",
    "Verif.Props.C30_cause",
    "Verif.Props.C30_data_partial",
    "Verif.Props.C30_document_partial",
    "Verif.Props.C30_truncated_partial"
   ],
   "note": "False for the code: an unknown type number panics (witness). C30_cause shows that this is the only cause; reading data never panics; files with a well-formed header, cut off anywhere, never panic. Allocation failure for huge counts is not modelled."
  },
  {
   "property": "C31",
   "status": "proved",
   "theorems": [
    "Verif.Props.C31_round_trip",
    "Verif.Props.C31_monotone"
   ],
   "note": "Proved for the model, for all inputs in the stated range."
  },
  {
   "property": "C32",
   "status": "proved",
   "theorems": [
    "Verif.Props.C32_exactly_once",
    "Verif.Props.C32_no_wrong_tile",
    "Verif.Props.C32_paths",
    "Verif.Props.C32_files",
    "Verif.Props.C32_exists"
   ],
   "note": "Proved for the model, for all inputs in the stated range."
  },
  {
   "property": "C33",
   "status": "proved",
   "theorems": [
    "Verif.Props.C33_tile",
    "Verif.Props.C33_longitude"
   ],
   "note": "Proved for the model, for all inputs in the stated range. Zoom levels up to 31 (C33_tile) and 10 (C33_longitude)."
  },
  {
   "property": "C34",
   "status": "proved",
   "theorems": [
    "Verif.Props.C34_draw_point",
    "Verif.Props.C34_outside",
    "Verif.Props.C34_create"
   ],
   "note": "Proved for the model, for all inputs in the stated range."
  },
  {
   "property": "C35",
   "status": "proved",
   "theorems": [
    "Verif.Props.C35_line",
    "Verif.Props.C35_ends"
   ],
   "note": "Proved for the model, for all inputs in the stated range."
  },
  {
   "property": "C36",
   "status": "partial",
   "theorems": [
    "Verif.Props.C36_count_partial",
    "Verif.Props.C36_counterexample"
   ],
   "note": "The claim as stated is false for the code; the negation is proved with a witness, and the part that holds is proved in the _partial theorems."
  },
  {
   "property": "C37",
   "status": "partial",
   "theorems": [
    "Verif.Props.C37_outside",
    "Verif.Props.C37_file",
    "Verif.Props.C37_monotone",
    "Verif.Props.C37_counterexample"
   ],
   "note": "The claim as stated is false for the code; the negation is proved with a witness. The remaining theorems say what does hold."
  },
  {
   "property": "C38",
   "status": "partial",
   "theorems": [
    "Verif.Props.C38_missing",
    "Verif.Props.C38_file_partial",
    "Verif.Props.C38_counterexample"
   ],
   "note": "The claim as stated is false for the code; the negation is proved with a witness, and the part that holds is proved in the _partial theorems."
  },
  {
   "property": "C39",
   "status": "proved",
   "theorems": [
    "Verif.Props.C39_file",
    "Verif.Props.C39_encoding"
   ],
   "note": "Proved for the model, for all inputs in the stated range."
  },
  {
   "property": "C40",
   "status": "proved",
   "theorems": [
    "Verif.Props.C40_file"
   ],
   "note": "Proved for the model, for all inputs in the stated range."
  },
  {
   "property": "C41",
   "status": "partial",
   "theorems": [
    "Verif.Props.C41_round_trip_partial",
    "Verif.Props.C41_counterexample"
   ],
   "note": "The claim as stated is false for the code; the negation is proved with a witness, and the part that holds is proved in the _partial theorems."
  },
  {
   "property": "C42",
   "status": "proved",
   "theorems": [
    "Verif.Props.C42_clouds",
    "Verif.Props.C42_wind"
   ],
   "note": "Proved for the model, for all inputs in the stated range. The grids of the layer have one value for each cell and the same size."
  },
  {
   "property": "C43",
   "status": "partial",
   "theorems": [
    "Verif.Props.C43_cloud_precip",
    "Verif.Props.C43_wind",
    "Verif.Props.C43_weather_partial",
    "Verif.Props.C43_counterexample"
   ],
   "note": "The claim as stated is false for the code; the negation is proved with a witness, and the part that holds is proved in the _partial theorems."
  },
  {
   "property": "C44",
   "status": "proved",
   "theorems": [
    "Verif.Props.C44_presence",
    "Verif.Props.C44_presence_position",
    "Verif.Props.C44_speed",
    "Verif.Props.C44_nonneg"
   ],
   "note": "Proved for the model, for all inputs in the stated range."
  },
  {
   "property": "C45",
   "status": "proved",
   "theorems": [
    "Verif.Props.C45_chart"
   ],
   "note": "Proved for the model, for all inputs in the stated range. Pictures of less than 2^30 pixels (more overflow the size computation)."
  },
  {
   "property": "C46",
   "status": "proved",
   "theorems": [
    "Verif.Props.C46_rain",
    "Verif.Props.C46_cloud",
    "Verif.Props.C46_wind",
    "Verif.Props.C46_temperature",
    "Verif.Props.C46_ordered",
    "Verif.Props.C46_composite",
    "Verif.Props.C46_temperature_chart"
   ],
   "note": "Proved for the model, for all inputs in the stated range."
  },
  {
   "property": "C47",
   "status": "proved",
   "theorems": [
    "Verif.C47_parse",
    "Verif.C47_text",
    "Verif.C47_step",
    "Verif.C47_get_step",
    "Verif.C47_panics"
   ],
   "note": "Proved for the model, for all inputs in the stated range."
  },
  {
   "property": "C48",
   "status": "proved",
   "theorems": [
    "Verif.C48_latest"
   ],
   "note": "Proved for the model, for all inputs in the stated range."
  },
  {
   "property": "C49",
   "status": "partial",
   "theorems": [
    "Verif.Props.C49_panics",
    "Verif.SwissSearch.C49_files",
    "Verif.SwissSearch.C49_error",
    "Verif.SwissSearch.C49_counterexample"
   ],
   "note": "Partial because the code violates the claim: C49_panics says exactly when the search panics; otherwise the claim is proved."
  },
  {
   "property": "C50",
   "status": "partial",
   "theorems": [
    "Verif.Props.C50_exact",
    "Verif.SwissSearch.C50_counterexample",
    "Verif.SwissSearch.C50_numbers_partial"
   ],
   "note": "The claim as stated is false for the code; the negation is proved with a witness, and the part that holds is proved in the _partial theorems."
  },
  {
   "property": "C51",
   "status": "partial",
   "theorems": [
    "Verif.Dwd.C51_newest",
    "Verif.Dwd.C51_cases",
    "Verif.Dwd.C51_fallback_partial",
    "Verif.Dwd.C51_counterexample",
    "Verif.Dwd.C51_yesterday"
   ],
   "note": "The claim as stated is false for the code; the negation is proved with a witness, and the part that holds is proved in the _partial theorems."
  },
  {
   "property": "C52",
   "status": "proved",
   "theorems": [
    "Verif.Dwd.C52_injective",
    "Verif.Dwd.C52_download",
    "Verif.Dwd.C52_three_digits",
    "Verif.Dwd.C52_step_written"
   ],
   "note": "Proved for the model, for all inputs in the stated range."
  },
  {
   "property": "C53",
   "status": "proved",
   "theorems": [
    "Verif.Props.C53_only_chosen",
    "Verif.Props.C53_files",
    "Verif.Props.C53_schedule",
    "Verif.Props.C53_fails_iff",
    "Verif.Props.C53_succeeds_iff",
    "Verif.Props.C53_dwd_numbered",
    "Verif.Props.C53_swiss_numbered"
   ],
   "note": "Proved for the model, for all inputs in the stated range."
  },
  {
   "property": "C54",
   "status": "proved",
   "theorems": [
    "Verif.Props.C54_same_run",
    "Verif.Props.C54_paths"
   ],
   "note": "Proved for the model, for all inputs in the stated range."
  },
  {
   "property": "C55",
   "status": "proved",
   "theorems": [
    "Verif.Props.C55_dwd"
   ],
   "note": "Proved for the model, for all inputs in the stated range."
  },
  {
   "property": "C56",
   "status": "proved",
   "theorems": [
    "Verif.Props.C56_total",
    "Verif.Props.C56_inside",
    "Verif.Props.C56_outside"
   ],
   "note": "Proved for the model, for all inputs in the stated range."
  },
  {
   "property": "C57",
   "status": "proved",
   "theorems": [
    "Verif.Props.C57_monotone",
    "Verif.Props.C57_scale_accuracy",
    "Verif.Props.C57_scale_inverse",
    "Verif.Props.C57_temperature"
   ],
   "note": "Proved for the model, for all inputs in the stated range."
  },
  {
   "property": "C58",
   "status": "proved",
   "theorems": [
    "Verif.Props.C58_scale",
    "Verif.Props.C58_add",
    "Verif.Props.C58_sum"
   ],
   "note": "Proved for the model, for all inputs in the stated range."
  },
  {
   "property": "C59",
   "status": "partial",
   "theorems": [
    "Verif.Props.C59_never",
    "Verif.Props.C59_counterexample",
    "Verif.Props.C59_unknown_template_partial"
   ],
   "note": "The claim as stated is false for the code; the negation is proved with a witness, and the part that holds is proved in the _partial theorems."
  },
  {
   "property": "C60",
   "status": "partial",
   "theorems": [
    "Verif.Props.C60_counterexample",
    "Verif.Props.C60_first_message_partial"
   ],
   "note": "The claim as stated is false for the code; the negation is proved with a witness, and the part that holds is proved in the _partial theorems."
  },
  {
   "property": "C61",
   "status": "partial",
   "theorems": [
    "Verif.Props.C61_counterexample",
    "Verif.Props.C61_always"
   ],
   "note": "The claim as stated is false for the code; the negation is proved with a witness. The remaining theorems say what does hold."
  },
  {
   "property": "C62",
   "status": "proved",
   "theorems": [
    "Verif.Props.C62_cell_round_trip"
   ],
   "note": "Proved for the model, for all inputs in the stated range."
  },
  {
   "property": "C63",
   "status": "partial",
   "theorems": [
    "Verif.Props.C63_two_equally_near",
    "Verif.Props.C63_counterexample",
    "Verif.Props.C63_partial"
   ],
   "note": "False for the code: C63_two_equally_near says exactly what happens with two equally near coordinates (panic for 255 and 255). For values up to 254 it is proved for all sizes and coordinates (C63_partial)."
  },
  {
   "property": "C64",
   "status": "partial",
   "theorems": [
    "Verif.Props.C64_counterexample",
    "Verif.Props.C64_always"
   ],
   "note": "False for the code: messages with any number of points are converted (C64_always); too few points lead to a panic of a later lookup."
  },
  {
   "property": "C65",
   "status": "partial",
   "theorems": [
    "Verif.Props.C65_counterexample",
    "Verif.Props.C65_always"
   ],
   "note": "False for the code: a NaN coordinate takes over every cell not assigned later (C65_always)."
  },
  {
   "property": "C66",
   "status": "partial",
   "theorems": [
    "Verif.Props.C66_counterexample_padding",
    "Verif.Props.C66_counterexample_records",
    "Verif.Props.C66_records_ignored",
    "Verif.Props.C66_count_partial",
    "Verif.NetCdf.C66_read_partial"
   ],
   "note": "False for the code: padding bytes are returned as values and record variables yield their first record only (witnesses). C66_read_partial says how many values come without record dimension."
  },
  {
   "property": "C67",
   "status": "partial",
   "theorems": [
    "Verif.Props.C67_always",
    "Verif.Props.C67_counterexample",
    "Verif.Props.C67_absent_accepted"
   ],
   "note": "The claim as stated is false for the code; the negation is proved with a witness. The remaining theorems say what does hold."
  },
  {
   "property": "C68",
   "status": "proved",
   "theorems": [
    "Verif.Props.C68_degrees",
    "Verif.Props.C68_positions",
    "Verif.Props.C68_rejected",
    "Verif.Props.C68_counterexample_float"
   ],
   "note": "Accuracy proved against the real number pi. Coordinates stored in another type than double make the conversion panic (C68_counterexample_float), which the claim does not cover."
  },
  {
   "property": "C69",
   "status": "proved",
   "theorems": [
    "Verif.Props.C69_from_data",
    "Verif.Props.C69_panics"
   ],
   "note": "Proved for the model, for all inputs in the stated range. Pictures of less than 2^30 pixels (more overflow the size computation)."
  },
  {
   "property": "C70",
   "status": "partial",
   "theorems": [
    "Verif.Props.C70_second_pixel",
    "Verif.Props.C70_counterexample",
    "Verif.Props.C70_distance_partial"
   ],
   "note": "Partial because the code violates the claim, for all lines of slope between 1/2 and 1 (C70_second_pixel); within one pixel is proved for all lines."
  },
  {
   "property": "C71",
   "status": "partial",
   "theorems": [
    "Verif.Props.C71_wraps",
    "Verif.Props.C71_outside_partial",
    "Verif.Props.C71_counterexample"
   ],
   "note": "The claim as stated is false for the code; the negation is proved with a witness, and the part that holds is proved in the _partial theorems."
  },
  {
   "property": "C72",
   "status": "partial",
   "theorems": [
    "Verif.Props.C72_cause_column",
    "Verif.Props.C72_counterexample",
    "Verif.Props.C72_cause"
   ],
   "note": "Partial because the code violates the claim: C72_cause and C72_cause_column say so for every picture, along rows and along columns."
  },
  {
   "property": "C73",
   "status": "partial",
   "theorems": [
    "Verif.Props.C73_left",
    "Verif.Props.C73_right",
    "Verif.Props.C73_counterexample"
   ],
   "note": "False for the code: for all pictures a shift of less than a pixel to the left leaves the border pixel unchanged (C73_left), and half a pixel to the right loses at least half of the opacity (C73_right)."
  },
  {
   "property": "C74",
   "status": "partial",
   "theorems": [
    "Verif.Props.C74_white",
    "Verif.Props.C74_counterexample",
    "Verif.Props.C74_between_partial",
    "Verif.Props.C74_kept",
    "Verif.Props.C74_lost",
    "Verif.Props.C74_two",
    "Verif.Props.C74_uniform"
   ],
   "note": "Partial because the code violates the claim: C74_uniform says exactly which values survive (zero and the powers of two), C74_lost where every other value loses a unit; at most two units too small is proved in general, and C74_two shows that the two are needed."
  },
  {
   "property": "C75",
   "status": "partial",
   "theorems": [
    "Verif.Props.C75_greenwich",
    "Verif.Props.C75_date_line",
    "Verif.Props.C75_counterexample",
    "Verif.Props.C75_column_partial"
   ],
   "note": "Partial because the code violates the claim: C75_greenwich and C75_date_line say so for all zoom levels in use; the column or its eastern neighbour is proved."
  },
  {
   "property": "C76",
   "status": "partial",
   "theorems": [
    "Verif.Props.C76_partial",
    "Verif.Props.C76_counterexample"
   ],
   "note": "False for extents that end at 180 degrees east (witness); proved for all extents that end at least 2^-14 degrees before it (C76_partial)."
  },
  {
   "property": "C77",
   "status": "partial",
   "theorems": [
    "Verif.Props.C77_counterexample",
    "Verif.Props.C77_close_partial"
   ],
   "note": "The claim as stated is false for the code; the negation is proved with a witness, and the part that holds is proved in the _partial theorems."
  },
  {
   "property": "C78",
   "status": "partial",
   "theorems": [
    "Verif.Props.C78_counterexample",
    "Verif.Props.C78_no_rain_partial",
    "Verif.Props.C78_exact"
   ],
   "note": "The claim as stated is false for the code; the negation is proved with a witness, and the part that holds is proved in the _partial theorems."
  },
  {
   "property": "C79",
   "status": "partial",
   "theorems": [
    "Verif.Props.C79_counterexample",
    "Verif.Props.C79_distinct_partial",
    "Verif.Props.C79_exact"
   ],
   "note": "The claim as stated is false for the code; the negation is proved with a witness, and the part that holds is proved in the _partial theorems."
  },
  {
   "property": "C80",
   "status": "partial",
   "theorems": [
    "Verif.Props.C80_iff",
    "Verif.C80_counterexample",
    "Verif.C80_run_name_partial"
   ],
   "note": "The claim as stated is false for the code; the negation is proved with a witness, and the part that holds is proved in the _partial theorems."
  },
  {
   "property": "C81",
   "status": "partial",
   "theorems": [
    "Verif.C81_counterexample",
    "Verif.C81_ignored"
   ],
   "note": "The claim as stated is false for the code; the negation is proved with a witness. The remaining theorems say what does hold."
  },
  {
   "property": "C82",
   "status": "partial",
   "theorems": [
    "Verif.SwissSearch.C82_any_order",
    "Verif.SwissSearch.C82_counterexample",
    "Verif.SwissSearch.C82_newest_partial"
   ],
   "note": "Partial because the code violates the claim: C82_any_order says so for every response with two runs of different times; proved for responses ordered from old to new."
  },
  {
   "property": "C83",
   "status": "partial",
   "theorems": [
    "Verif.Dwd.C83_counterexample",
    "Verif.Dwd.C83_probed_only",
    "Verif.Dwd.C83_unprobed",
    "Verif.Dwd.C83_bare",
    "Verif.Dwd.C83_partial"
   ],
   "note": "Partial because the code violates the claim: C83_unprobed and C83_bare say so for every server; the single-level files are proved to be there if the steps are published in order."
  },
  {
   "property": "C84",
   "status": "partial",
   "theorems": [
    "Verif.Props.C84_steps_partial",
    "Verif.Props.C84_counterexample"
   ],
   "note": "The claim as stated is false for the code; the negation is proved with a witness, and the part that holds is proved in the _partial theorems."
  },
  {
   "property": "C85",
   "status": "proved",
   "theorems": [
    "Verif.Props.C85_directories"
   ],
   "note": "Proved for the model, for all inputs in the stated range."
  },
  {
   "property": "C86",
   "status": "proved",
   "theorems": [
    "Verif.Props.C86_temp",
    "Verif.Props.C86_wind",
    "Verif.Props.C86_cloud_precip",
    "Verif.Props.C86_vertical_clouds",
    "Verif.Props.C86_vertical_wind"
   ],
   "note": "Proved for the model, for all inputs in the stated range."
  },
  {
   "property": "C87",
   "status": "proved",
   "theorems": [
    "Verif.Props.C87_dwd_only",
    "Verif.Props.C87_dwd_files",
    "Verif.Props.C87_swiss_only",
    "Verif.Props.C87_swiss_files",
    "Verif.Props.C87_main"
   ],
   "note": "Proved for the model, for all inputs in the stated range."
  },
  {
   "property": "C88",
   "status": "partial",
   "theorems": [
    "Verif.Props.C88_never",
    "Verif.Props.C88_ignored_dwd",
    "Verif.Props.C88_ignored_swiss",
    "Verif.Props.C88_counterexample"
   ],
   "note": "False for the code: C88_counterexample (a filter of \"weather\", the name of a layer, does nothing and succeeds); C88_ignored_* prove that such names are ignored for every model."
  },
  {
   "property": "C89",
   "status": "proved",
   "theorems": [
    "Verif.Props.C89_temperature"
   ],
   "note": "Proved for the model, for all inputs in the stated range."
  },
  {
   "property": "C90",
   "status": "proved",
   "theorems": [
    "Verif.Props.C90_dwd",
    "Verif.Props.C90_dwd_iff",
    "Verif.Props.C90_swiss"
   ],
   "note": "Proved for the model, for all inputs in the stated range."
  },
  {
   "property": "C91",
   "status": "partial",
   "theorems": [
    "Verif.Props.C91_counterexample"
   ],
   "note": "False for the code: C91_counterexample (without network the selected files are not written and the exit status is 0)."
  },
  {
   "property": "C92",
   "status": "proved",
   "theorems": [
    "Verif.Props.C92_dwd"
   ],
   "note": "Proved for the model, for all inputs in the stated range."
  },
  {
   "property": "C93",
   "status": "proved",
   "theorems": [
    "Verif.Props.C93_precipitation"
   ],
   "note": "Proved for the model, for all inputs in the stated range."
  },
  {
   "property": "C94",
   "status": "partial",
   "theorems": [
    "Verif.Props.C94_wind_partial",
    "Verif.Props.C94_counterexample"
   ],
   "note": "C94_wind_partial proves the claim except for components within 0.001 of -1 m/s; C94_counterexample proves that exactly -1 m/s is written as missing."
  },
  {
   "property": "C95",
   "status": "partial",
   "theorems": [
    "Verif.Props.C95_clouds_partial",
    "Verif.Props.C95_counterexample"
   ],
   "note": "C95_clouds_partial proves the claim for covers of 1.001 to 254 percent and that clear sky is written as 255; C95_counterexample is a successful run where a published clear sky is written as missing."
  },
  {
   "property": "C96",
   "status": "partial",
   "theorems": [
    "Verif.Props.C96_heights_partial",
    "Verif.Props.C96_counterexample"
   ],
   "note": "C96_heights_partial proves the claim for heights of 100.1 to 25499 feet; C96_counterexample is a successful run where a published height is written as missing."
  },
  {
   "property": "C97",
   "status": "proved",
   "theorems": [
    "Verif.Props.C97_wind"
   ],
   "note": "Proved for the model, for all inputs in the stated range."
  },
  {
   "property": "C98",
   "status": "proved",
   "theorems": [
    "Verif.Props.C98_temperature"
   ],
   "note": "Proved for the model, for all inputs in the stated range."
  },
  {
   "property": "C99",
   "status": "proved",
   "theorems": [
    "Verif.Props.C99_precipitation"
   ],
   "note": "Proved for the model, for all inputs in the stated range."
  },
  {
   "property": "C100",
   "status": "partial",
   "theorems": [
    "Verif.Props.C100_wind_partial",
    "Verif.Props.C100_counterexample"
   ],
   "note": "C100_wind_partial proves the claim except for components within 0.001 of -1 m/s; C100_counterexample is a successful run where a component of exactly -1 m/s is written as missing."
  },
  {
   "property": "C101",
   "status": "partial",
   "theorems": [
    "Verif.Props.C101_clouds_partial",
    "Verif.Props.C101_counterexample"
   ],
   "note": "C101_clouds_partial proves the claim for covers of 1.001 to 254 percent and heights of 100.1 to 25499 feet, and that clear sky is written as 255; C101_counterexample is a successful run where a published clear sky is written as missing."
  },
  {
   "property": "C102",
   "status": "proved",
   "theorems": [
    "Verif.Props.C102_wind"
   ],
   "note": "Proved for the model, for all inputs in the stated range."
  },
  {
   "property": "C103",
   "status": "proved",
   "theorems": [
    "Verif.Props.C103_row",
    "Verif.Props.C103_exact"
   ],
   "note": "Proved for the model, for all inputs in the stated range."
  },
  {
   "property": "C104",
   "status": "proved",
   "theorems": [
    "Verif.Props.C104_run",
    "Verif.Props.C104_main"
   ],
   "note": "Proved for libraries with relative errors up to a millionth in tan, cos and ln (AccurateRow)."
  },
  {
   "property": "C105",
   "status": "proved",
   "theorems": [
    "Verif.Props.C105_run",
    "Verif.Props.C105_main"
   ],
   "note": "Proved for libraries with relative errors up to a millionth in tan, cos and ln (AccurateRow) and areas from the equator to 75 degrees north, from 180 degrees west to 179.9 degrees east."
  },
  {
   "property": "C106",
   "status": "proved",
   "theorems": [
    "Verif.Props.C106_weather"
   ],
   "note": "Proved for the model, for all inputs in the stated range."
  },
  {
   "property": "C107",
   "status": "proved",
   "theorems": [
    "Verif.Props.C107_weather"
   ],
   "note": "Proved for the model, for all inputs in the stated range."
  },
  {
   "property": "C108",
   "status": "proved",
   "theorems": [
    "Verif.Props.C108_parse",
    "Verif.Props.C108_text",
    "Verif.Props.C108_round_trip",
    "Verif.Props.C108_order"
   ],
   "note": "Proved for the model, for all inputs in the stated range."
  },
  {
   "property": "C109",
   "status": "proved",
   "theorems": [
    "Verif.Props.C109_calendar",
    "Verif.Props.C109_run",
    "Verif.Props.C109_directories",
    "Verif.Props.C109_order"
   ],
   "note": "Proved for the model, for all inputs in the stated range."
  },
  {
   "property": "C110",
   "status": "partial",
   "theorems": [
    "Verif.Props.C110_name_partial",
    "Verif.Props.C110_counterexample_fraction",
    "Verif.Props.C110_counterexample_offset"
   ],
   "note": "False: fractions of seconds are accepted and dropped in the name; times accepted in their own offset may be refused by their name. Proved for texts without fraction and with offsets of multiples of three hours."
  },
  {
   "property": "C111",
   "status": "proved",
   "theorems": [
    "Verif.Props.C111_files",
    "Verif.Props.C111_runs",
    "Verif.Props.C111_newest",
    "Verif.Props.C111_requests"
   ],
   "note": "Proved for the model, for all inputs in the stated range."
  },
  {
   "property": "C112",
   "status": "proved",
   "theorems": [
    "Verif.Props.C112_steps"
   ],
   "note": "Proved for the model, for all inputs in the stated range."
  },
  {
   "property": "C113",
   "status": "proved",
   "theorems": [
    "Verif.Props.C113_success"
   ],
   "note": "Proved for libraries with relative errors up to a millionth in tan, cos and ln (AccurateRow)."
  },
  {
   "property": "C114",
   "status": "proved",
   "theorems": [
    "Verif.Props.C114_temperature",
    "Verif.Props.C114_precipitation",
    "Verif.Props.C114_vertical_wind"
   ],
   "note": "Proved for the model, for all inputs in the stated range."
  },
  {
   "property": "C115",
   "status": "partial",
   "theorems": [
    "Verif.Props.C115_exact",
    "Verif.Props.C115_first_hour",
    "Verif.Props.C115_counterexample"
   ],
   "note": "False: while only the first file of the next run is published, a call for clouds succeeds and writes nothing, although the run before is complete."
  },
  {
   "property": "C116",
   "status": "proved",
   "theorems": [
    "Verif.Props.C116_coordinates",
    "Verif.Props.C116_rejected",
    "Verif.Props.C116_nearest"
   ],
   "note": "Proved for the model, for all inputs in the stated range."
  },
  {
   "property": "C117",
   "status": "partial",
   "theorems": [
    "Verif.Props.C117_displacement",
    "Verif.Props.C117_partial",
    "Verif.Props.C117_neighbour",
    "Verif.Props.C117_counterexample"
   ],
   "note": "False for the code: LatLonGrid::new divides by the number of points instead of intervals, so positions are looked up up to one cell too far east and north (C117_displacement, C117_neighbour); proved for the first two fifths of the grid (C117_partial)."
  },
  {
   "property": "C118",
   "status": "partial",
   "theorems": [
    "Verif.Props.C118_never_transparent",
    "Verif.Props.C118_transparent_partial",
    "Verif.Props.C118_counterexample"
   ],
   "note": "False for the code: no pixel of any cloud and precipitation tile is transparent (C118_never_transparent; witness in the counterexample). Proved for temperature and wind tiles (C118_transparent_partial)."
  },
  {
   "property": "C119",
   "status": "proved",
   "theorems": [
    "Verif.Props.C119_temperature_tiles"
   ],
   "note": "Proved for the model, for all inputs in the stated range."
  },
  {
   "property": "C120",
   "status": "partial",
   "theorems": [
    "Verif.Props.C120_wind_tiles_partial",
    "Verif.Props.C120_counterexample"
   ],
   "note": "False for components of -1 m/s, the marker of missing values (C120_counterexample); proved for all others (C120_wind_tiles_partial)."
  },
  {
   "property": "C121",
   "status": "partial",
   "theorems": [
    "Verif.Props.C121_cloud_precip_tiles_partial",
    "Verif.Props.C121_counterexample"
   ],
   "note": "False where the interpolation has no value: missing data, and the last row and column, are drawn as a clear sky (C121_counterexample); on grid lines only one point counts. C121_cloud_precip_tiles_partial describes every pixel."
  },
  {
   "property": "C122",
   "status": "proved",
   "theorems": [
    "Verif.Props.C122_place"
   ],
   "note": "Proved for the model, for all inputs in the stated range."
  },
  {
   "property": "C123",
   "status": "proved",
   "theorems": [
    "Verif.NetCdf.C123_accepted_iff",
    "Verif.NetCdf.C123_names",
    "Verif.NetCdf.C123_data_iff"
   ],
   "note": "Proved for the model, for all inputs in the stated range."
  },
  {
   "property": "C124",
   "status": "partial",
   "theorems": [
    "Verif.Grib2.C124_accepted_iff",
    "Verif.Grib2.C124_strict_partial",
    "Verif.Grib2.C124_counterexample"
   ],
   "note": "False for the code: declared lengths of sections 3, 4 and 5 are read and not checked, and an odd length of section 7 is rounded down (C124_counterexample: every message is also accepted with any other length of section 3). C124_accepted_iff says exactly which byte sequences are accepted and as which document; C124_strict_partial: with right lengths they are the encodings of C01, up to the sign of zero scale factors."
  },
  {
   "property": "C125",
   "status": "partial",
   "theorems": [
    "Verif.Props.C125_lookup_partial",
    "Verif.Props.C125_counterexample"
   ],
   "note": "False for the code: cells get the point nearest to their centre, but positions are looked up as if the number of a cell belonged to its south-western corner (C125_counterexample: 0.0085 degrees north-east of a point nothing is shown, 0.0198 degrees south-west of it its value). C125_lookup_partial: the value is that of the point shown in a cell with its centre up to one cell further north-east, at most 0.026 degrees away."
  },
  {
   "property": "C126",
   "status": "proved",
   "theorems": [
    "Verif.Props.C126_temperature_tiles"
   ],
   "note": "Proved for the model, for all inputs in the stated range."
  },
  {
   "property": "C127",
   "status": "partial",
   "theorems": [
    "Verif.Props.C127_wind_tiles_partial",
    "Verif.Props.C127_counterexample"
   ],
   "note": "False for the code: components of -1 m/s are taken for missing (C127_counterexample: all pixels transparent). C127_wind_tiles_partial: holds for components further than 0.001 from -1."
  },
  {
   "property": "C128",
   "status": "partial",
   "theorems": [
    "Verif.Props.C128_cloud_precip_tiles_partial",
    "Verif.Props.C128_counterexample"
   ],
   "note": "False for the code: places without data are drawn as a clear sky (C128_counterexample). C128_cloud_precip_tiles_partial: what is shown elsewhere."
  },
  {
   "property": "C129",
   "status": "proved",
   "theorems": [
    "Verif.Props.C129_run",
    "Verif.Props.C129_only_needed"
   ],
   "note": "Proved for the model, for all inputs in the stated range."
  },
  {
   "property": "C130",
   "status": "proved",
   "theorems": [
    "Verif.Props.C130_run",
    "Verif.Props.C130_main"
   ],
   "note": "Proved for the model, for all inputs in the stated range."
  },
  {
   "property": "C131",
   "status": "partial",
   "theorems": [
    "Verif.Props.C131_run_partial",
    "Verif.Props.C131_main_partial",
    "Verif.Props.C131_counterexample_assets",
    "Verif.Props.C131_counterexample_constants",
    "Verif.Props.C131_counterexample_levels"
   ],
   "note": "Partial because the code violates the claim. Proved: no panic if both constants are listed, the positions and each file are complete or lost from the first message on. Proved to panic: a constants file that is not listed (counterexample_assets), a positions file cut after one to four complete messages (counterexample_constants), a level file cut at a message before the eightieth (counterexample_levels)."
  },
  {
   "property": "C132",
   "status": "proved",
   "theorems": [
    "Verif.Props.C132_accepted_iff",
    "Verif.Props.C132_no_panic"
   ],
   "note": "Proved for the model, for all inputs in the stated range."
  },
  {
   "property": "C133",
   "status": "partial",
   "theorems": [
    "Verif.Props.C133_grids",
    "Verif.Props.C133_wind",
    "Verif.Props.C133_weather_partial",
    "Verif.Props.C133_counterexample_weather"
   ],
   "note": "Proved for wind layers, for grids that fit in general, and for cloud cover and ceiling. False for the weather of a weather layer, whose grid is not checked by the constructor (counterexample_weather); it holds if that grid fits (weather_partial)."
  },
  {
   "property": "C134",
   "status": "proved",
   "theorems": [
    "Verif.Props.C134_polar"
   ],
   "note": "Proved for the model, for all inputs in the stated range."
  },
  {
   "property": "C135",
   "status": "partial",
   "theorems": [
    "Verif.Props.C135_described_partial",
    "Verif.Props.C135_counterexample_steps",
    "Verif.Props.C135_counterexample_runs"
   ],
   "note": "Partial because the code violates the claim: the last rendered step (48 or 78) is not described, and ICON-EU runs at 03, 09, 15 and 21 h are looked for but not described. Everything else agrees (described_partial)."
  },
  {
   "property": "C136",
   "status": "partial",
   "theorems": [
    "Verif.Grib2.Release.C136_same",
    "Verif.Grib2.Release.C136_panics",
    "Verif.Grib2.Release.C136_accepted_iff",
    "Verif.Grib2.Release.C136_accepted",
    "Verif.Grib2.Release.C136_counterexample"
   ],
   "note": "Partial because the code violates the claim: messages whose sections 4 or 5 declare less than 9 or 11 bytes are accepted without overflow checks and make the reader panic with them (counterexample). Everything that is read or refused with checks is read or refused alike without (same); the accepted messages are described exactly (accepted_iff), and these two lengths are the only difference (accepted)."
  },
  {
   "property": "C137",
   "status": "partial",
   "theorems": [
    "Verif.Props.C137_error",
    "Verif.Props.C137_files",
    "Verif.Props.C137_sorted_partial",
    "Verif.Props.C137_counterexample"
   ],
   "note": "Partial because the code violates the claim: hours are reduced modulo 256, so that 256 h is sorted before 1 h (counterexample). Proved for horizons below 256 h (sorted_partial); the errors, the absence of panics and the actual order are proved in general."
  },
  {
   "property": "C138",
   "status": "proved",
   "theorems": [
    "Verif.Props.C138_keeps",
    "Verif.Props.C138_same",
    "Verif.Props.C138_dwd",
    "Verif.Props.C138_swiss"
   ],
   "note": "Proved for the model, for all inputs in the stated range."
  },
  {
   "property": "C139",
   "status": "proved",
   "theorems": [
    "Verif.Props.C139_cells",
    "Verif.Props.C139_dwd",
    "Verif.Props.C139_swiss",
    "Verif.Props.C139_others"
   ],
   "note": "Proved for the model, for all inputs in the stated range."
  },
  {
   "property": "C140",
   "status": "partial",
   "theorems": [
    "Verif.Props.C140_beyond",
    "Verif.Props.C140_create",
    "Verif.Props.C140_draw_point",
    "Verif.Props.C140_counterexample"
   ],
   "note": "Partial because the code violates the claim for pictures of 2^30 points and more (counterexample: 32769 x 32768). Proved for all smaller ones, which includes all tiles."
  },
  {
   "property": "C141",
   "status": "proved",
   "theorems": [
    "Verif.Props.C141_same",
    "Verif.Props.C141_repeat"
   ],
   "note": "Proved for the model, for all inputs in the stated range."
  },
  {
   "property": "C142",
   "status": "proved",
   "theorems": [
    "Verif.Props.C142_steps",
    "Verif.Props.C142_variables",
    "Verif.Props.C142_narrower",
    "Verif.Props.C142_steps_possible",
    "Verif.Props.C142_variables_possible"
   ],
   "note": "Proved for the model, for all inputs in the stated range."
  },
  {
   "property": "C143",
   "status": "proved",
   "theorems": [
    "Verif.Props.C143_resume",
    "Verif.Props.C143_final",
    "Verif.Props.C143_after"
   ],
   "note": "Proved for the model, for all inputs in the stated range."
  },
  {
   "property": "C144",
   "status": "proved",
   "theorems": [
    "Verif.Props.C144_assets",
    "Verif.Props.C144_search_sound",
    "Verif.Props.C144_search_complete",
    "Verif.Props.C144_no_panic"
   ],
   "note": "Proved for JSON values; turning text into values (serde_json) is not modelled. The derived decoders are modelled as serde documents them."
  },
  {
   "property": "C145",
   "status": "proved",
   "theorems": [
    "Verif.Props.C145_asset",
    "Verif.Props.C145_assets",
    "Verif.Props.C145_link",
    "Verif.Props.C145_properties",
    "Verif.Props.C145_feature",
    "Verif.Props.C145_response",
    "Verif.Props.C145_links"
   ],
   "note": "Proved for the model, for all inputs in the stated range."
  },
  {
   "property": "C146",
   "status": "partial",
   "theorems": [
    "Verif.Props.C146_partial",
    "Verif.Props.C146_counterexample"
   ],
   "note": "False for the code: a file with two different links is found by the first link of a hash map, which may be either of the two in each call (C146_counterexample). C146_partial: true if every file has one link, or several to the same place."
  },
  {
   "property": "C147",
   "status": "proved",
   "theorems": [
    "Verif.Props.C147_searches",
    "Verif.Props.C147_files",
    "Verif.Props.C147_newest",
    "Verif.Props.C147_assets"
   ],
   "note": "Proved for the model, for all inputs in the stated range."
  },
  {
   "property": "C148",
   "status": "partial",
   "theorems": [
    "Verif.Props.C148_partial",
    "Verif.Props.C148_nothing",
    "Verif.Props.C148_counterexample"
   ],
   "note": "False for the code: the whole answer is refused as soon as a single entry lacks something, also a member that the program never uses, such as a datetime of null, which STAC allows (C148_counterexample). C148_partial: when an answer is understood; C148_nothing: if this happens in the search for the newest run, nothing is written."
  },
  {
   "property": "C149",
   "status": "partial",
   "theorems": [
    "Verif.Props.C149_page",
    "Verif.Props.C149_partial",
    "Verif.Props.C149_counterexample"
   ],
   "note": "False for the code: links to the next page are not followed; for every page size below 256 there is a catalogue of which the file of the last hour is not found (C149_counterexample). C149_partial: true if all files fit on the first page; C149_page: exactly the first page is used."
  },
  {
   "property": "C150",
   "status": "proved",
   "theorems": [
    "Verif.Props.C150_weather",
    "Verif.Props.C150_temperature_tiles"
   ],
   "note": "Proved for the model, for all inputs in the stated range."
  },
  {
   "property": "C151",
   "status": "partial",
   "theorems": [
    "Verif.Props.C151_wind_partial",
    "Verif.Props.C151_wind_tiles_partial",
    "Verif.Props.C151_counterexample"
   ],
   "note": "False for the code: components of -1 m/s are taken for missing values (C151_counterexample). C151_wind_partial, C151_wind_tiles_partial: what is written otherwise."
  },
  {
   "property": "C152",
   "status": "partial",
   "theorems": [
    "Verif.Props.C152_vertical_clouds_partial",
    "Verif.Props.C152_cloud_precip_tiles_partial",
    "Verif.Props.C152_counterexample"
   ],
   "note": "False for the code: a published cloud cover of 0 is written as missing (C152_counterexample), and places without data are drawn as a clear sky (C128_counterexample). C152_vertical_clouds_partial, C152_cloud_precip_tiles_partial: what is written otherwise."
  },
  {
   "property": "C153",
   "status": "partial",
   "theorems": [
    "Verif.Props.C153_one_run",
    "Verif.Props.C153_model_partial",
    "Verif.Props.C153_fallback",
    "Verif.Props.C153_counterexample"
   ],
   "note": "False for the code: while no run of today is complete, a call for icon-eu writes only files of ICON-D2, in the directory of ICON-D2 (C153_counterexample, C153_fallback for all environments). C153_one_run: one run in every case; C153_model_partial: the model asked for in all other cases."
  },
  {
   "property": "C154",
   "status": "proved",
   "theorems": [
    "Verif.Props.C154_run",
    "Verif.Props.C154_temperature",
    "Verif.Props.C154_precipitation",
    "Verif.Props.C154_weather",
    "Verif.Props.C154_vertical_wind",
    "Verif.Props.C154_temperature_tiles"
   ],
   "note": "Proved for the model, for all inputs in the stated range."
  },
  {
   "property": "C155",
   "status": "partial",
   "theorems": [
    "Verif.Props.C155_nearest_partial",
    "Verif.Props.C155_three_partial",
    "Verif.Props.C155_counterexample"
   ],
   "note": "False for the code: the unstructured grid gives the missing value of a point as if it were data (C155_counterexample). C155_nearest_partial and C155_three_partial: apart from that the two agree at every position."
  },
  {
   "property": "C156",
   "status": "partial",
   "theorems": [
    "Verif.Props.C156_missing_as_zero",
    "Verif.Props.C156_average_partial",
    "Verif.Props.C156_none_always",
    "Verif.Props.C156_counterexample"
   ],
   "note": "False for the code: neighbours without value count as zero (C156_missing_as_zero, with an error bound, in all cases), and a cell whose neighbours all have no value shows 0 (C156_none_always); C156_counterexample. C156_average_partial: if all neighbours have a value the claim holds."
  },
  {
   "property": "C157",
   "status": "proved",
   "theorems": [
    "Verif.Props.C157_midpoint",
    "Verif.Props.C157_not_inside"
   ],
   "note": "C157_not_inside: because of rounding the middle can be the far corner, which does not count as inside."
  },
  {
   "property": "C158",
   "status": "proved",
   "theorems": [
    "Verif.Props.C158_accepted_iff",
    "Verif.Props.C158_no_panic"
   ],
   "note": "Loose forms such as P+1T09HD are accepted, see the example."
  },
  {
   "property": "C159",
   "status": "proved",
   "theorems": [
    "Verif.Props.C159_parent",
    "Verif.Props.C159_corner",
    "Verif.Props.C159_pyramid"
   ],
   "note": "Tile numbers that saturate at 2^32 - 1 are excluded (positions far outside the map at high zoom levels); the corners need columns up to 2^23 and rows up to 2^22, beyond which the numbers are no longer exact in f32."
  },
  {
   "property": "C160",
   "status": "proved",
   "theorems": [
    "Verif.Props.C160_accepted_iff",
    "Verif.Props.C160_same_values",
    "Verif.Props.C160_question_iff",
    "Verif.Props.C160_call",
    "Verif.Props.C160_one_meaning"
   ],
   "note": "About the parser that clap 4.5 derives from Args, whose source is not in the repository: the model follows its documentation (see the trusted base)."
  },
  {
   "property": "C161",
   "status": "proved",
   "theorems": [
    "Verif.Props.C161_sets",
    "Verif.Props.C161_lines"
   ],
   "note": "Proved for the model, for all inputs in the stated range."
  },
  {
   "property": "C162",
   "status": "partial",
   "theorems": [
    "Verif.Props.C162_counterexample",
    "Verif.Props.C162_beside_partial"
   ],
   "note": "Negation proved (C162_counterexample) in every environment; C162_beside_partial is what holds. The claim as stated is false for this code."
  },
  {
   "property": "C163",
   "status": "proved",
   "theorems": [
    "Verif.Props.C163_below",
    "Verif.Props.C163_others"
   ],
   "note": "Paths as texts; symbolic links below the output directory are not modelled."
  },
  {
   "property": "C164",
   "status": "proved",
   "theorems": [
    "Verif.Props.C164_only_dwd"
   ],
   "note": "SameDwd: all addresses that begin with https://opendata.dwd.de/weather/nwp/ answer the same."
  },
  {
   "property": "C165",
   "status": "partial",
   "theorems": [
    "Verif.Props.C165_web_partial",
    "Verif.Props.C165_counterexample"
   ],
   "note": "Negation proved (C165_counterexample); C165_web_partial is what holds. The claim as stated is false for this code."
  },
  {
   "property": "C166",
   "status": "proved",
   "theorems": [
    "Verif.Props.C166_final",
    "Verif.Props.C166_together"
   ],
   "note": "Writes of whole files are atomic in the model. Dates have four-digit years and runs of the web service start at whole third hours (UsualDay)."
  },
  {
   "property": "C167",
   "status": "partial",
   "theorems": [
    "Verif.Props.C167_partial",
    "Verif.Props.C167_counterexample"
   ],
   "note": "Negation proved (C167_counterexample); C167_partial is what holds. The claim as stated is false for this code."
  },
  {
   "property": "C168",
   "status": "proved",
   "theorems": [
    "Verif.Props.C168_dwd",
    "Verif.Props.C168_swiss"
   ],
   "note": "The condition on the published totals is the structure Totals in Props/Sums.lean."
  },
  {
   "property": "C169",
   "status": "partial",
   "theorems": [
    "Verif.Props.C169_dwd_negation",
    "Verif.Props.C169_swiss_negation",
    "Verif.Props.C169_counterexample"
   ],
   "note": "False for the code: the negation is proved for all calls, with a witness of a call that succeeds."
  },
  {
   "property": "C170",
   "status": "proved",
   "theorems": [
    "Verif.Dwd.C170_scheme"
   ],
   "note": "Proved for the model, for all inputs in the stated range."
  },
  {
   "property": "C171",
   "status": "proved",
   "theorems": [
    "Verif.Props.C171_dwd",
    "Verif.Props.C171_swiss"
   ],
   "note": "Proved for the model, for all inputs in the stated range."
  },
  {
   "property": "C172",
   "status": "proved",
   "theorems": [
    "Verif.Props.C172_dwd",
    "Verif.Props.C172_swiss"
   ],
   "note": "Proved for the model, for all inputs in the stated range."
  },
  {
   "property": "C173",
   "status": "partial",
   "theorems": [
    "Verif.Props.C173_ends",
    "Verif.Props.C173_files",
    "Verif.Props.C173_status_partial",
    "Verif.Props.C173_repair",
    "Verif.Props.C173_counterexample"
   ],
   "note": "Violated by the code: results of writing are dropped (`let _ = file.write_all(..)`, `let _result = tile.safe_image(..)`), and for the two files of vertical layers also the error of creating the directory; a call on a full disk ends with status 0 and leaves empty files (C173_counterexample). Proved for every disk: how the call ends (C173_ends), what is on the disk afterwards (C173_files), and status 101 for the failures that are noticed (C173_status_partial); and a successful call on a repaired disk leaves the same files as if the failed call had never been made (C173_repair)."
  },
  {
   "property": "C174",
   "status": "partial",
   "theorems": [
    "Verif.Props.C174_buffers_partial",
    "Verif.Props.C174_values_partial",
    "Verif.Props.C174_counterexample",
    "Verif.NetCdf.C174_netcdf_partial",
    "Verif.NetCdf.C174_netcdf_counterexample"
   ],
   "note": "Violated by the code: buffers are created with the length that the file announces before it is known whether the bytes exist, so 37 bytes ask for 4 GiB; and an empty data section yields as many values as are announced, so a message of less than 200 bytes becomes a grid of 4294967295 values (C174_counterexample; 36 bytes of NetCDF ask for 32 GiB, C174_netcdf_counterexample). Proved for all files: the buffers of a GRIB2 file are at most twice the file plus one buffer of 4 GiB, of a message read with success at most twice the message (C174_buffers_partial); with a data section that is not empty at most eight values per byte (C174_values_partial); for NetCDF C174_netcdf_partial."
  },
  {
   "property": "C175",
   "status": "proved",
   "theorems": [
    "Verif.Props.C175_temperature",
    "Verif.Props.C175_wind",
    "Verif.Props.C175_cloud_precip"
   ],
   "note": "The points and the colours are quantified before the data: colours, then platform functions and grid, then points, then calls. For MeteoSwiss the points are fixed by the two messages with the coordinates of the points. (Which point it is: C117, C125; which colour: C119, C120.)"
  },
  {
   "property": "C176",
   "status": "partial",
   "theorems": [
    "Verif.Props.C176_faulty_partial",
    "Verif.Props.C176_reliable",
    "Verif.Props.C176_retry_partial",
    "Verif.Props.C176_counterexample_levels"
   ],
   "note": "Holds without restriction for the models of DWD (a call for icon-ch1 is excluded by the premise of the second hypothesis only). For MeteoSwiss it holds if answers that are not the whole file do not begin with a complete message; without that it is false (C176_counterexample_levels): if the files of heights and of cloud covers both break off after the same number of levels, a data file with fewer levels is written and the call ends with status 0. Catalogues and the search for the newest run are answered as in the environment (each question is asked once; lost answers of the catalogue are covered by C130, C131)."
  },
  {
   "property": "C177",
   "status": "proved",
   "theorems": [
    "Verif.Props.C177_once",
    "Verif.Props.C177_network",
    "Verif.Props.C177_kept",
    "Verif.Props.C177_count",
    "Verif.Props.C177_same_number"
   ],
   "note": "For every call, every network and every outcome. The order of writes within the trace is that of the model (interleavings of steps and tiles are arbitrary); that a single write is not itself seen in parts is not claimed (see C173 for a disk that breaks off writes)."
  },
  {
   "property": "C178",
   "status": "proved",
   "theorems": [
    "Verif.Props.C178_network",
    "Verif.Props.C178_agree",
    "Verif.Props.C178_missing"
   ],
   "note": "For every call, every network and every outcome. Temperature and wind only: the tiles of the other charts are interpolated between cells. A temperature that is no number has byte 0 and the colour of the last class, which the statement of agreement admits; the bounds on speed are stated for component bytes from 1 to 253. The grid is the same for all tiles of the step; that it is the published one is claimed in C175 and C123."
  },
  {
   "property": "C179",
   "status": "proved",
   "theorems": [
    "Verif.Props.C179_writes",
    "Verif.Props.C179_dwd",
    "Verif.Props.C179_often",
    "Verif.Props.C179_number",
    "Verif.Props.C179_order",
    "Verif.Props.C179_swiss",
    "Verif.Props.C179_swiss_order",
    "Verif.Props.C179_swiss_number"
   ],
   "note": "A request is a call of the HTTP client; redirects and retries inside the client are not modelled. The bounds on repetitions assume dates with years of four digits (for others two runs could share URLs). The order of writes assumes that every request gets some answer, possibly an error. For ICON-CH1 the claims on numbers are about the links that the service lists: if it lists the same link twice, it is fetched twice. In this model levels of DWD files are read in parallel, and the claim C179_writes shows that the sequential reading in `mainNet` and `mainEffect` has the same writes and successes; only an error may show up as a panic or the other way round."
  },
  {
   "property": "C180",
   "status": "proved",
   "theorems": [
    "Verif.Props.C180_only_values"
   ],
   "note": "The unpacked value is the binary32 number of the packing formula as the program computes it (C07): packings that agree as exact numbers but are rounded differently count as different values. Messages without data or with another packing are related only if they differ in labels alone."
  },
  {
   "property": "C181",
   "status": "partial",
   "theorems": [
    "Verif.Props.C181_counterexample",
    "Verif.Props.C181_never_looked_at_partial"
   ],
   "note": "Refuted by a call for icon-d2 of August 2025 that succeeds with files of February 2024. C181_never_looked_at_partial is what holds instead: the effects do not depend on discipline, centre, time and product of any message."
  },
  {
   "property": "C182",
   "status": "proved",
   "theorems": [
    "Verif.Props.C182_silence",
    "Verif.Props.C182_lines"
   ],
   "note": "The text of the error after the beginning of the line is not modelled. Panics are told by status 101, wrong arguments by status 2 (C160)."
  },
  {
   "property": "C183",
   "status": "proved",
   "theorems": [
    "Verif.Props.C183_same",
    "Verif.Props.C183_all",
    "Verif.Props.C183_pictures"
   ],
   "note": "Arithmetic and square roots of binary32 and binary64 are those of IEEE 754, which Rust guarantees; other functions are arbitrary."
  },
  {
   "property": "C184",
   "status": "proved",
   "theorems": [
    "Verif.Props.C184_turns"
   ],
   "note": "Equality of the sets of executions (files in order, outcome) for every selection with at least one known variable."
  },
  {
   "property": "C185",
   "status": "partial",
   "theorems": [
    "Verif.Props.C185_before_partial",
    "Verif.Props.C185_counterexample"
   ],
   "note": "Violated by the code: without one file of the wind a call for wind and temperature always fails and writes nothing, although a call for the temperature alone always succeeds. Proved: the variables before the failing one are complete, nothing is written for those after it."
  },
  {
   "property": "C186",
   "status": "partial",
   "theorems": [
    "Verif.Props.C186_success_partial",
    "Verif.Props.C186_counterexample"
   ],
   "note": "Violated by the code for calls that fail: with the temperature of hour 5 missing, one execution of a call for hours 3 and 5 writes the files of hour 3, another one nothing. Proved for calls that can succeed."
  },
  {
   "property": "C187",
   "status": "proved",
   "theorems": [
    "Verif.Props.C187_one_picture",
    "Verif.Props.C187_saved"
   ],
   "note": "Proved for the model, for all inputs in the stated range."
  },
  {
   "property": "C188",
   "status": "partial",
   "theorems": [
    "Verif.Props.C188_same",
    "Verif.Props.C188_files",
    "Verif.Props.C188_finished_partial",
    "Verif.Props.C188_success",
    "Verif.Props.C188_counterexample",
    "Verif.Props.C188_run"
   ],
   "note": "Violated by the code for the variables aloft: both renderers end the wind aloft with `finished rendering vertical cloud forecast`. Proved for clouds and precipitation, wind and temperature; that files belong to the variable reported last is proved for all."
  },
  {
   "property": "C189",
   "status": "proved",
   "theorems": [
    "Verif.Props.C189_search",
    "Verif.Props.C189_dwd",
    "Verif.Props.C189_swiss"
   ],
   "note": "Proved for the model, for all inputs in the stated range."
  },
  {
   "property": "C190",
   "status": "partial",
   "theorems": [
    "Verif.Props.C190_partial",
    "Verif.Props.C190_blind",
    "Verif.Props.C190_call",
    "Verif.Props.C190_counterexample"
   ],
   "note": "Violated by the code: yesterday's files are never looked at; without a complete run of today the run taken is always ICON-D2 of 21 UTC of yesterday, complete or not and also for ICON-EU. Proved where that run is complete and the model is ICON-D2."
  },
  {
   "property": "C191",
   "status": "proved",
   "theorems": [
    "Verif.Props.C191_same_data",
    "Verif.Props.C191_calls",
    "Verif.Props.C191_swiss"
   ],
   "note": "For DWD and for MeteoSwiss separately; for rain, which is a difference of two hours, the hours before have to agree too. For a pair of DWD models, tiles of zoom levels both models have."
  },
  {
   "property": "C192",
   "status": "partial",
   "theorems": [
    "Verif.Props.C192_reversed",
    "Verif.Props.C192_in_order",
    "Verif.Props.C192_counterexample",
    "Verif.Props.C192_characters",
    "Verif.Props.C192_lossless",
    "Verif.Props.C192_dim_ids",
    "Verif.Props.C192_counts",
    "Verif.Props.C192_header",
    "Verif.Props.C192_files"
   ],
   "note": "Partial because the code violates the claim: the parameters of the closure of `fold` are interchanged. The exact order is proved for all kinds of numbers (C192_reversed, C192_in_order), and that the text determines the header (C192_files). How Rust shows a floating-point number is a parameter, assumed to be one word, different for different numbers; the sign of zero is not modelled."
  }
 ]
}