{"id": "C01", "title": "GRIB2 message round trip", "statement": "Reading the standard byte encoding of a GRIB2 message (sections 0-8, grid template 3.0 or 3.101, product template 4.0, 4.1, 4.8 or any other template, packing template 5.0 or other, any bitmap, any 16-bit data) followed by arbitrary further bytes returns exactly the described document and leaves exactly the further bytes unread, provided a product template unknown to the reader comes without coordinate values (for the other case see C59).", "quantifier": "every well-formed message description, every payload size, every trailing byte string", "why_tests_cant": "The space of messages and payload lengths is unbounded; the unit tests read a handful of fixture byte arrays.", "anchors": ["src/grib2/document/grib2_document_reader.rs: Grib2DocumentReader::read_single_doc_from_stream", "src/grib2/section0/section0_reader.rs", "src/grib2/section1/section1_reader.rs", "src/grib2/section2/section2_reader.rs", "src/grib2/section3/section3_reader.rs", "src/grib2/section4/section4_reader.rs", "src/grib2/section5/section5_reader.rs", "src/grib2/section6/section6_reader.rs", "src/grib2/section7/section7_reader.rs", "src/grib2/section8/section8_reader.rs"]}
{"id": "C02", "title": "Multi-message files are read completely and in order", "statement": "Reading a stream that is the concatenation of n>=1 well-formed GRIB2 messages followed by bytes that do not start another readable message returns exactly these n documents in stream order; when not even the first message is readable the result is an error, never an empty list.", "quantifier": "every number of messages, every message content, every trailing byte string", "why_tests_cant": "Unbounded number of messages and arbitrary trailing bytes; the loop has to be handled by induction.", "anchors": ["src/grib2/document/grib2_document_reader.rs: read_multi_doc_from_stream"]}
{"id": "C03", "title": "A truncated message is never accepted", "statement": "If a byte string is read successfully as one GRIB2 message, then every strict prefix of the consumed bytes is rejected with an error (neither a document nor a crash).", "quantifier": "every accepted byte string and every cut position", "why_tests_cant": "Every cut point of every message would have to be tried.", "anchors": ["src/grib2/document/grib2_document_reader.rs", "src/grib2/common/byte_reader.rs: ByteReader::read_n_bytes"]}
{"id": "C04", "title": "Accepted messages are correctly framed", "statement": "Whenever a message is accepted, the consumed bytes start with the four bytes GRIB, end with the four bytes 7777, and the consumed bytes are a prefix of the input whose complement is returned as unread; every section 1..7 carried its own section number.", "quantifier": "every byte string whatsoever", "why_tests_cant": "Ranges over all inputs including adversarial ones.", "anchors": ["src/grib2/section0/section0_reader.rs", "src/grib2/section8/section8_reader.rs", "src/grib2/section1/section1_reader.rs", "src/grib2/section7/section7_reader.rs"]}
{"id": "C05", "title": "Malformed GRIB2 input is reported as an error, not a crash", "statement": "For every byte string, reading a GRIB2 message returns a document or an error and never panics. (False for the code: section lengths smaller than the fixed part, or an invalid reference date, panic. Provable part: it never panics if the declared section lengths cover the fixed part of the sections and the date is valid.)", "quantifier": "every byte string", "why_tests_cant": "Needs all malformed inputs; fuzzing can only sample.", "anchors": ["src/grib2/section1/section1_reader.rs", "src/grib2/section2/section2_reader.rs", "src/grib2/section4/section4_reader.rs", "src/grib2/section5/section5_reader.rs", "src/grib2/section6/section6_reader.rs", "src/grib2/section7/section7_reader.rs"]}
{"id": "C06", "title": "Bitmap expansion places packed values exactly at the set bits", "statement": "Decoding the data points of a message with packed values (simple packing, data section not empty; for an empty one see C09) yields, when it succeeds, exactly number-of-data-points values: the k-th grid point whose bitmap bit (most significant bit first) is set receives the k-th packed value, every other grid point receives the missing value. Without a bitmap the i-th point receives the i-th packed value.", "quantifier": "every bitmap, every packed data vector, every number of points, every transform function", "why_tests_cant": "The relation between bit index and packed index is an induction over arbitrarily long bitmaps.", "anchors": ["src/grib2/document/grib2_document.rs: Grib2Document::calculate_data_points"]}
{"id": "C07", "title": "Packed values are unpacked with the simple packing formula", "statement": "The decoded value of a packed integer X below 2^16 with reference R (up to 2^80 in absolute value), binary scale E from -126 to 60 and decimal scale D from -10 to 10 is (R + X*2^E)/10^D up to a relative error of 2^-22 (plus 2^-110); decoding is order preserving: a larger X never decodes to a smaller value, for every fixed finite R, E from -126 to 127 and D from -38 to 38.", "quantifier": "every R, E, D and X in these ranges", "why_tests_cant": "2^32 x 2^32 x 2^16 parameter combinations; monotonicity relates all pairs.", "anchors": ["src/grib2/document/grib2_document.rs: calculate_data_points", "src/grib2/section5/"]}
{"id": "C08", "title": "Data decoding is safe when the counts agree", "statement": "For a message with simple packing and a data section that is not empty (for an empty one see C09), decoding never panics when the bitmap (if any) has at least as many bits as there are grid points and there are at least as many packed values as set bits; when a count is short it panics instead of returning a shortened or shifted grid.", "quantifier": "every such document", "why_tests_cant": "All mismatching combinations of lengths.", "anchors": ["src/grib2/document/grib2_document.rs: calculate_data_points"]}
{"id": "C09", "title": "Constant fields decode to the reference value", "statement": "A message whose packed data section is empty (0 bits per value: constant field) decodes to the reference value at every present grid point. (False for the code: it decodes to the missing value everywhere.)", "quantifier": "every document with an empty data section", "why_tests_cant": "Universally quantified over documents; the negation needs an explicit witness.", "anchors": ["src/grib2/document/grib2_document.rs: calculate_data_points"]}
{"id": "C10", "title": "Bits-per-value is honoured", "statement": "Packed values are extracted with the number of bits per value declared in section 5. (False for the code: values are always read as 16-bit integers; the provable part is that 16-bit data is read exactly.)", "quantifier": "every declared width and payload", "why_tests_cant": "All widths and payloads.", "anchors": ["src/grib2/section7/section7_reader.rs", "src/grib2/section5/"]}
{"id": "C11", "title": "Signed scale factors are decoded as sign and magnitude", "statement": "A 16-bit scale factor decodes to minus its low 15 bits when the top bit is set and to its value otherwise; every integer in -32767..32767 has an encoding that decodes to it, and negating flips exactly the top bit.", "quantifier": "all 16-bit words, as a relation with the specification", "why_tests_cant": "The specification relates all encodings; sample tests only check a few words.", "anchors": ["src/grib2/common/signed_number.rs: SignedNumber::from_u16"]}
{"id": "C12", "title": "Grid coordinates keep their sign", "statement": "A latitude or longitude encoded in sign-magnitude micro-degrees is decoded to the angle it denotes. (False for the code for negative angles: the sign bit is read as magnitude. Provable part: non-negative angles below 2^31 micro-degrees decode to the correctly rounded quotient.)", "quantifier": "every encodable angle", "why_tests_cant": "All 2^32 encodings.", "anchors": ["src/grib2/common/angle_reader.rs"]}
{"id": "C13", "title": "Rectangular grid conversion keeps shape and order", "statement": "Converting a message with a regular lat/lon template whose first point is not north or east of its last point and whose number of data points is columns*rows yields, when its data decode, a grid whose width is the number of points along a parallel, whose height is the number along a meridian and whose cell (x,y) is data point y*width+x; any other grid template is an error.", "quantifier": "every document", "why_tests_cant": "All grid sizes.", "anchors": ["src/grib2/converter/regular_grid_converter.rs"]}
{"id": "C14", "title": "Level selection from multi-message files", "statement": "Selecting an index range from a multi-message file returns the grids of exactly the documents whose index is in the inclusive range, in order; one unconvertible selected document makes the whole read an error.", "quantifier": "every document list and index range", "why_tests_cant": "All lists and ranges, order under parallel mapping.", "anchors": ["src/grib2/converter/file_to_grid_converter.rs"]}
{"id": "C15", "title": "Coordinates are normalised to [-180,180) without moving the point", "statement": "Creating a coordinate from finite latitude/longitude numbers yields values in [-180,180); values already in that range are unchanged; values in [180,360) are shifted by exactly 360; constructing twice is the same as constructing once.", "quantifier": "every pair of binary32 numbers", "why_tests_cant": "2^64 inputs with floating point rounding.", "anchors": ["src/geo/common/lat_lon.rs: LatLon::new"]}
{"id": "C16", "title": "Extents are half-open boxes", "statement": "An extent contains exactly the positions with min<=pos<max on both axes; two extents sharing an edge never both contain a position; a constructed extent never has min>max (construction panics otherwise).", "quantifier": "every extent and position", "why_tests_cant": "All real positions on the boundary.", "anchors": ["src/geo/common/lat_lon_extent.rs: LatLonExtent::new, is_inside"]}
{"id": "C17", "title": "The minimal bounding extent encloses its points", "statement": "The bounding extent of a non-empty list of normalised positions within +-90 / [-180,180) has every position between its corners (inclusive) and each side is attained by some position.", "quantifier": "every non-empty list of positions", "why_tests_cant": "Unbounded list; induction.", "anchors": ["src/geo/common/lat_lon_extent.rs: calc_min_bounding_extent"]}
{"id": "C18", "title": "Grid index is a bijection between cells and storage", "statement": "For a grid of width w and height h the index of (x,y) is defined exactly for x<w, y<h, is below w*h, distinct cells have distinct indices, and every index below w*h belongs to a cell.", "quantifier": "every grid size and cell", "why_tests_cant": "All sizes.", "anchors": ["src/geo/grid/lat_lon_grid.rs: get_index_by_x_y"]}
{"id": "C19", "title": "Value lookup returns the stored value of the right cell", "statement": "Looking up cell (x,y) of a value grid with w*h values returns the value stored at y*w+x if it is not the missing value, and nothing for a missing value or a cell outside the grid; it never panics.", "quantifier": "every grid and cell", "why_tests_cant": "All sizes and contents.", "anchors": ["src/geo/grid/lat_lon_value_grid.rs: get_value_by_xy"]}
{"id": "C20", "title": "Lookup by position only answers inside the extent and is safe", "statement": "Looking up a position outside the extent gives nothing; inside the extent it gives exactly what the cell holds whose column and row are nearest to the fractional coordinates of the position (nothing if this is no cell of the grid, or its value is the missing one); it never panics for a grid with w*h values.", "quantifier": "every grid, extent and binary32 position", "why_tests_cant": "Floating point boundary behaviour at all positions.", "anchors": ["src/geo/grid/lat_lon_value_grid.rs: get_value_by_lat_lon", "src/geo/grid/lat_lon_grid.rs: get_x_y_by_lat_lon"]}
{"id": "C21", "title": "Interpolation never invents or leaks missing data", "statement": "Interpolating at a position gives nothing outside the extent or when one of the needed surrounding cells is missing or outside the grid; at a position whose fractional coordinates are integers it is exactly the stored cell value.", "quantifier": "every grid and position", "why_tests_cant": "All grids, positions and missing patterns.", "anchors": ["src/geo/grid/lat_lon_value_grid_interpolator.rs"]}
{"id": "C22", "title": "Interpolated values stay between the surrounding values", "statement": "An interpolated value lies between the minimum and the maximum of the four surrounding cell values (in exact arithmetic; in binary32 up to a stated relative error), and on grid lines it is the linear interpolation along the line. (The second half is false for the code: on a grid line the lower corner value is returned.)", "quantifier": "every grid and position", "why_tests_cant": "All positions and values.", "anchors": ["src/geo/grid/lat_lon_value_grid_interpolator.rs"]}
{"id": "C23", "title": "Regridding picks the nearest coordinate", "statement": "In the lookup built for an unstructured grid, a target cell that received a coordinate received one that is at most the maximum distance from the cell centre and at least as close as every other coordinate whose search window covers the cell; a cell without coordinate has no such coordinate within the maximum distance; among equally near coordinates the last one wins.", "quantifier": "every coordinate list, target grid and maximum distance", "why_tests_cant": "Unbounded lists of coordinates and cells; the invariant is over the whole insertion history.", "anchors": ["src/geo/grid/unstructured_grid.rs: calc_coord_dist_lookup_map"]}
{"id": "C24", "title": "The search window of a coordinate covers all cells within reach", "statement": "Every target cell whose centre is within the maximum distance of a coordinate is inside the cell window searched for this coordinate. (False at the date line, where the window corner wraps: on every grid around the earth no cell at all is searched for a coordinate nearer to the date line than the maximum distance. Provable away from it in exact arithmetic.)", "quantifier": "every coordinate, grid and distance", "why_tests_cant": "All geometric configurations.", "anchors": ["src/geo/grid/unstructured_grid.rs: calc_min_max_xy_for_coord"]}
{"id": "C25", "title": "Regridding output has the target shape", "statement": "Converting unstructured values to a regular grid gives exactly w*h values; cell (x,y) holds the value of the coordinate assigned to the cell or the missing value if none.", "quantifier": "every unstructured grid and value vector", "why_tests_cant": "All sizes.", "anchors": ["src/geo/grid/unstructured_value_grid.rs: create_regular_grid, get_value_by_xy"]}
{"id": "C26", "title": "The three nearest coordinates are kept", "statement": "After offering any sequence of (coordinate, distance) pairs to the three-slot collector, it holds the three pairs with the smallest distances (all pairs if fewer than three).", "quantifier": "every sequence of offers", "why_tests_cant": "All sequences; induction on history.", "anchors": ["src/geo/grid/coord_dist_triple.rs: add_coord_dist"]}
{"id": "C27", "title": "Nearer coordinates weigh more", "statement": "In the three-neighbour value grid a nearer coordinate contributes with a weight at least as large as a farther one. (False for the code: weights grow with distance.)", "quantifier": "every triple of distances", "why_tests_cant": "Universally quantified; negation needs a witness.", "anchors": ["src/geo/grid/unstructured_value_grid1.rs"]}
{"id": "C28", "title": "NetCDF header round trip", "statement": "Reading the standard encoding of a classic 64-bit-offset NetCDF header (any dimensions, attributes of any type and length, variables) followed by any bytes returns exactly that header and consumes exactly its encoding; every strict prefix of the encoding, and every file not starting with CDF and version 2, is rejected with an error.", "quantifier": "every header", "why_tests_cant": "Unbounded nested lists with padding.", "anchors": ["src/netcdf/header/netcdf_header_reader.rs", "src/netcdf/header/netcdf_dim_list_reader.rs", "src/netcdf/header/netcdf_attr_list_reader.rs", "src/netcdf/header/netcdf_var_list_reader.rs", "src/netcdf/header/netcdf_name_reader.rs"]}
{"id": "C29", "title": "NetCDF variable data is read from the declared place", "statement": "Reading a named variable returns exactly the values encoded at its begin offset, for the first variable of this name (values occupying a multiple of four bytes; otherwise see C66), and an error if no such variable exists; a whole document holds the values of all requested variables.", "quantifier": "every file, header and list of requested names", "why_tests_cant": "All offsets/types/lengths.", "anchors": ["src/netcdf/data/netcdf_data_reader.rs", "src/netcdf/common/netcdf_values_reader.rs"]}
{"id": "C30", "title": "Malformed NetCDF input is reported as an error, not a crash", "statement": "For every byte string, reading a NetCDF header returns a header or an error. (False for the code: an unknown type code panics, wherever it stands. Provable part: it never panics when every type code is 1..6.)", "quantifier": "every byte string", "why_tests_cant": "All malformed inputs.", "anchors": ["src/netcdf/common/netcdf_value_type_reader.rs"]}
{"id": "C31", "title": "Tile longitude addressing is consistent", "statement": "For every zoom level up to 18 and every tile column x<2^zoom, the position of the tile's upper left corner is mapped back to column x; for every zoom level up to 31, moving east never decreases the tile column; larger zoom levels panic.", "quantifier": "every zoom, tile and longitude", "why_tests_cant": "Floating point round trip over all tiles and all longitudes.", "anchors": ["src/map_tile/map_tile_coord.rs: from_position, to_position"]}
{"id": "C32", "title": "Every tile of the requested area is produced exactly once, under every schedule", "statement": "Creating all tiles calls the save function exactly once for every (zoom,x,y) of the tile range of the extent and for no other, whatever the order in which the parallel workers run; saved files have pairwise distinct paths, so the resulting files do not depend on the schedule.", "quantifier": "every extent, zoom range, schedule (permutation of work items)", "why_tests_cant": "All interleavings.", "anchors": ["src/map_tile/map_tile_renderer.rs: create_all_tiles", "src/meteo_chart/forecast_renderer/map_tile_file_helper.rs"]}
{"id": "C33", "title": "Tile pixels show the value at their own position", "statement": "In a created tile pixel (j,i) has the colour of the value at latitude start+i*lat_inc and longitude start+j*lon_inc and is transparent when there is no value.", "quantifier": "every tile, value function and colour function", "why_tests_cant": "65536 pixels of arbitrary functions.", "anchors": ["src/map_tile/map_tile_renderer.rs: create_single_tile"]}
{"id": "C34", "title": "Drawing a point changes exactly one pixel", "statement": "Drawing a point inside the image sets this pixel to the colour and leaves every other pixel unchanged; outside the image it panics and nothing is silently overwritten.", "quantifier": "every image size, point, colour", "why_tests_cant": "Frame condition over all other pixels.", "anchors": ["src/imaging/drawable.rs: draw_point"]}
{"id": "C35", "title": "Lines terminate, reach both ends and stay in their bounding box", "statement": "Drawing a line between two points inside the image terminates, draws both end points, touches only pixels in the bounding rectangle of the end points and never panics; consecutive pixels are neighbours.", "quantifier": "every image and pair of end points", "why_tests_cant": "Termination for all slopes.", "anchors": ["src/imaging/drawable.rs: draw_line"]}
{"id": "C36", "title": "Lines have no superfluous pixels", "statement": "A line with horizontal extent dx and vertical extent dy consists of exactly max(dx,dy)+1 pixels. (False for the code on even diagonals, where it draws a staircase; provable for dx != dy.)", "quantifier": "every pair of end points", "why_tests_cant": "All slopes.", "anchors": ["src/imaging/drawable.rs: draw_line"]}
{"id": "C37", "title": "Temperature meteobin encoding", "statement": "The temperature file has one byte per cell in row-major order; a present temperature between -64 and +63 degrees Celsius is written as the nearest half degree (offset 128), so that decoding is off by at most a quarter degree plus binary32 rounding; the byte 255 occurs only for missing cells. (Last clause false for the code above about 63.25 degrees Celsius: everything from 337 K on is written as 255.)", "quantifier": "every grid and temperature", "why_tests_cant": "All binary32 temperatures and grid sizes.", "anchors": ["src/metobin/temp_metobin.rs"]}
{"id": "C38", "title": "Precipitation meteobin encoding", "statement": "The precipitation file has one byte per cell in row-major order, monotone in the precipitation, with 0.2..0.5 mm shown as 1 and half-millimetre steps otherwise; missing cells are written as 255 and only they are. (False for the code: missing totals count as zero, so that a cell without any is written as 0 and a cell without the earlier one shows the whole later total; amounts >= 127.25 are written as 255.)", "quantifier": "every grid and amount", "why_tests_cant": "All values and sizes.", "anchors": ["src/metobin/precip_metobin.rs", "src/meteo_chart/meteo_layer/meteo_cloud_precip_layer.rs"]}
{"id": "C39", "title": "Wind meteobin encoding", "statement": "The wind file has three bytes per cell in row-major order; present values are written as the nearest knot (components offset by 128) and clamped to 0..254, so byte 255 occurs exactly for missing values, where a cell with one missing component counts as missing altogether; the encoding is monotone.", "quantifier": "every grid and wind value, including NaN and infinities", "why_tests_cant": "All binary32 values.", "anchors": ["src/metobin/wind_metobin.rs"]}
{"id": "C40", "title": "Weather meteobin encoding", "statement": "The weather file has two bytes per cell; the weather byte is the WW code when there is one above 4, otherwise the cloud cover class 0..3, 255 exactly if there is neither; the ceiling byte is the nearest 200 ft, 255 when missing or above 50900 ft.", "quantifier": "every grid", "why_tests_cant": "All combinations of values.", "anchors": ["src/metobin/weather_metobin.rs"]}
{"id": "C41", "title": "Known weather codes round trip; unknown codes do not crash", "statement": "Converting a weather code to its interpretation and back gives the same code for the 28 known codes; an unknown code yields no interpretation without crashing. (Second half false for the code: it panics.)", "quantifier": "all byte values", "why_tests_cant": "Claim about all codes as relation.", "anchors": ["src/meteo_chart/meteo_layer/weather_interpretation.rs"]}
{"id": "C42", "title": "Vertical meteobin layout", "statement": "The vertical cloud (wind) file holds, for each cell in row-major order and each level in order, the 2 (3) bytes of this level, missing values as 255; its size is w*h*levels*2 (3).", "quantifier": "every number of levels and grid size", "why_tests_cant": "Unbounded sizes; index arithmetic.", "anchors": ["src/metobin/vertical_cloud_metobin.rs", "src/metobin/vertical_wind_metobin.rs"]}
{"id": "C43", "title": "Layers reject inconsistent grids", "statement": "A cloud/precipitation, wind or weather layer can only be created when all its grids have equal dimensions and equal extents; otherwise an error is returned. (False for the weather layer's WW grid, which is not checked.)", "quantifier": "every combination of grids", "why_tests_cant": "All combinations.", "anchors": ["src/meteo_chart/meteo_layer/meteo_cloud_precip_layer.rs", "src/meteo_chart/meteo_layer/meteo_wind_10m_layer.rs", "src/meteo_chart/meteo_layer/weather_layer.rs"]}
{"id": "C44", "title": "Wind needs both components", "statement": "Wind speed, direction and the component pair are present at a cell or position exactly when both components are; speed is non-negative and at least as large as each component magnitude up to rounding.", "quantifier": "every wind layer and cell", "why_tests_cant": "All values.", "anchors": ["src/meteo_chart/meteo_layer/meteo_wind_10m_layer.rs"]}
{"id": "C45", "title": "Chart pixel orientation", "statement": "Rendering a single chart puts the colour of grid cell (x,y) at pixel (x, height-1-y), so north is up; cells without value stay transparent; nothing else is drawn.", "quantifier": "every grid size and colour function", "why_tests_cant": "All sizes.", "anchors": ["src/meteo_chart/forecast_renderer/single_chart_renderer.rs"]}
{"id": "C46", "title": "Colour scales are total and ordered by thresholds", "statement": "Every temperature, wind, precipitation and cloud value (including NaN) gets a colour; the colour class is determined by the thresholds and is a step function of the value; compositing never overflows a channel.", "quantifier": "every binary32 value", "why_tests_cant": "All values.", "anchors": ["src/meteo_chart/forecast_renderer/cloud_precip_chart_renderer.rs", "src/meteo_chart/forecast_renderer/temp_2m_chart_renderer.rs", "src/meteo_chart/forecast_renderer/wind_10m_chart_renderer.rs"]}
{"id": "C47", "title": "Forecast horizon text round trip", "statement": "Formatting a forecast horizon and parsing it gives back the same days and hours; building a horizon from a step and asking for its step gives the step back. (Asking for the step of an arbitrary horizon panics above 255 hours.)", "quantifier": "every horizon, every step", "why_tests_cant": "All 65536 horizons; text parsing.", "anchors": ["src/meteo_swiss/forecast_run/icon_ch_forecast_horizon.rs"]}
{"id": "C48", "title": "Reference time is the latest 3-hourly run not in the future", "statement": "The latest reference time computed for an instant is at most the instant, less than three hours before it and at a full hour divisible by three, so that it always has a run name.", "quantifier": "every instant", "why_tests_cant": "All instants.", "anchors": ["src/meteo_swiss/forecast_run/icon_ch_forecast_reference_datetime.rs", "src/meteo_swiss/forecast_run/icon_ch_forecast_run_name.rs"]}
{"id": "C49", "title": "Forecast file list is sorted and complete", "statement": "The list of forecast files found for a request contains exactly the files of the response, sorted by forecast step, files of equal step keeping the response order; if one entry is invalid the result is an error. (False for the code: with at least two entries, one of them with a horizon of 256 hours or more, the search panics, and only then.)", "quantifier": "every response", "why_tests_cant": "All responses.", "anchors": ["src/meteo_swiss/data_geo_admin_ch/icon_ch_forecast_search_service.rs: find_forecast_file_urls"]}
{"id": "C50", "title": "Steps are numbered by their forecast hour", "statement": "The forecast step number given to the file of horizon h is h in hours. (False for the code when the server omits a horizon: files are numbered by position. Provable part: if the files are of different hours, the number is how many files of earlier hours there are, so it is the hour exactly if none of these is missing.)", "quantifier": "every response", "why_tests_cant": "All gap patterns.", "anchors": ["src/meteo_swiss/forecast_renderer/icon_ch1_forecast_renderer.rs: get_forecast_run_steps"]}
{"id": "C51", "title": "DWD run finder picks the newest complete run", "statement": "The run finder returns the newest run of today for which all probe files exist; only if there is none it falls back to yesterday's 21 UTC run of the same model. (Last clause false for the code: the fallback run is always ICON-D2.)", "quantifier": "every availability pattern of files, every model", "why_tests_cant": "2^80 availability patterns.", "anchors": ["src/dwd/dwd_forecast_renderer/dwd_icon_forecast_run_finder.rs"]}
{"id": "C52", "title": "File URLs identify run, step and level", "statement": "Two different (step, level) pairs of the same run and variable have different download URLs; the step stands in the URL after date and run, with at least three digits; every URL ends with .bz2 and is recognised as a URL to download and decompress.", "quantifier": "every run, step, level", "why_tests_cant": "Injectivity over all numbers.", "anchors": ["src/dwd/dwd_file_reader/dwd_icon_file.rs", "src/system/file_helper.rs"]}
{"id": "C53", "title": "Rendering a forecast honours the step filter and is schedule independent", "statement": "Rendering a list of steps writes exactly the tiles and meteobin files of the steps selected by the step filter (all if the filter is empty), each with the content given by the layers read for its step; all other files stay as they are. It can return an error iff reading one of the selected steps does, and succeeds iff all selected steps can be read and drawn, whatever happens with the others. Any two successful runs leave the same files, whatever the order and interleaving of the parallel steps and tiles.", "quantifier": "every step list, filter, reader behaviour and schedule", "why_tests_cant": "All schedules.", "anchors": ["src/meteo_chart/forecast_renderer/cloud_precip_forecast_renderer.rs", "src/meteo_chart/forecast_renderer/wind_10m_forecast_renderer.rs", "src/meteo_chart/forecast_renderer/temp_2m_forecast_renderer.rs", "src/meteo_chart/forecast_renderer/vertical_clouds_forecast_renderer.rs", "src/meteo_chart/forecast_renderer/vertical_wind_forecast_renderer.rs", "src/meteo_chart/forecast_renderer/map_tile_file_helper.rs"]}
{"id": "C54", "title": "Output paths do not collide", "statement": "Different (step, layer type, file) combinations of one run are written to different paths; tiles of different zoom, column or row have different paths.", "quantifier": "all steps, layers, tiles", "why_tests_cant": "Injectivity over unbounded numbers.", "anchors": ["src/meteo_common/meteo_forecast_renderer_helper.rs", "src/meteo_chart/forecast_renderer/map_tile_file_helper.rs", "src/metobin/meteobin_type.rs"]}
{"id": "C55", "title": "Precipitation difference steps are available", "statement": "For every model and every forecast step rendered, both accumulation files needed for the precipitation difference (step-1 and step) are in the difference step range, so that building the layer never fails for lack of a step.", "quantifier": "all models and steps", "why_tests_cant": "Relation between two ranges for every step.", "anchors": ["src/meteo_common/meteo_forecast_model.rs", "src/dwd/dwd_forecast_renderer/dwd_icon_forecast_renderer.rs"]}
{"id": "C56", "title": "Image sampling is safe and exact at pixel centres", "statement": "Sampling an image at any finite coordinates never panics; at integer coordinates inside the image (up to 2^24 pixels per side) it gives exactly the pixel, outside it gives transparent.", "quantifier": "every image and coordinates", "why_tests_cant": "All coordinates.", "anchors": ["src/imaging/image.rs: interpolate_pixel_color, get_pixel_color"]}
{"id": "C57", "title": "Unit conversions invert each other", "statement": "Converting metres to feet and back, m/s to knots and back, Kelvin to Celsius and back returns the start value up to a stated rounding error, and the conversions are monotone.", "quantifier": "every binary32 value (without overflow)", "why_tests_cant": "All binary32 values.", "anchors": ["src/physics/length.rs", "src/physics/speed.rs", "src/physics/temperature.rs"]}
{"id": "C58", "title": "Saturating cell arithmetic", "statement": "Scaling a byte cell value clamps to 0..255 with NaN giving 0 and addition saturates at 255, so that summing contributions never wraps around.", "quantifier": "all bytes and all binary32 factors", "why_tests_cant": "All factors.", "anchors": ["src/geo/grid/grid_value_type.rs"]}
{"id": "C59", "title": "Unknown product templates with coordinate values are read correctly", "statement": "A message with a product template unknown to the reader and with optional coordinate values after the template is read back as described. (False for the code: the coordinate values are skipped together with the template and then read a second time from the following section, so no such message is read back as described with what follows it left unread, and messages are rejected. Provable part: without coordinate values, C01.)", "quantifier": "every message with an unknown template", "why_tests_cant": "Universally quantified; the negation needs a witness.", "anchors": ["src/grib2/section4/section4_reader.rs"]}
{"id": "C60", "title": "A damaged message inside a multi-message file is reported", "statement": "When a message after the first one in a multi-message file is damaged, reading the file reports an error. (False for the code: reading stops silently and the later messages are lost. Provable part: a damaged first message is an error.)", "quantifier": "every file and damage", "why_tests_cant": "All positions and kinds of damage.", "anchors": ["src/grib2/document/grib2_document_reader.rs: read_multi_doc_from_stream"]}
{"id": "C61", "title": "Grids scanned from north to south can be converted", "statement": "A regular grid whose first point is its northern edge can be converted. (False for the code: it always panics.)", "quantifier": "every such grid", "why_tests_cant": "All grids with this scanning direction.", "anchors": ["src/grib2/converter/regular_grid_converter.rs", "src/geo/common/lat_lon_extent.rs: LatLonExtent::new"]}
{"id": "C62", "title": "Cell to position to cell", "statement": "The position computed for a grid cell is looked up as the same cell, for grids inside +-180 degrees with cells of at least 2^-10 degrees.", "quantifier": "every such grid and cell", "why_tests_cant": "Floating point round trip over all grids and cells.", "anchors": ["src/geo/grid/lat_lon_grid.rs: get_lat_lon_by_x_y, get_x_y_by_lat_lon"]}
{"id": "C63", "title": "Averaging byte values never crashes", "statement": "The three-neighbour value grid of bytes can be evaluated at every cell without a crash. (False for the code: the rounded contributions are added with overflow checks. A cell with two equally near coordinates gets the sum of the two halves, each rounded up, and panics exactly if both values are 255.)", "quantifier": "every value vector", "why_tests_cant": "All combinations of byte values.", "anchors": ["src/geo/grid/unstructured_value_grid1.rs"]}
{"id": "C64", "title": "Messages with a wrong number of points are rejected", "statement": "A regular grid message whose number of data points is not columns*rows is rejected. (False for the code.)", "quantifier": "every document", "why_tests_cant": "All mismatching counts.", "anchors": ["src/grib2/converter/regular_grid_converter.rs"]}
{"id": "C65", "title": "Invalid coordinates do not affect the lookup map", "statement": "A coordinate that is not a number leaves every cell of the lookup map as it is. (False for the code: it takes over every cell of the grid.)", "quantifier": "every coordinate list", "why_tests_cant": "Universally quantified; the negation needs a witness.", "anchors": ["src/geo/grid/unstructured_grid.rs"]}
{"id": "C66", "title": "A NetCDF variable yields as many values as its dimensions say", "statement": "Reading a variable yields exactly the product of its dimensions many values, over all records. (False for the code: padded byte, char and short variables yield the padding as values, record variables yield only their first record. Provable part: without record dimension, exactly so many for values of four or eight bytes, and up to three more for shorter ones.)", "quantifier": "every file", "why_tests_cant": "All types, sizes and record counts.", "anchors": ["src/netcdf/data/netcdf_data_reader.rs: get_entry_count"]}
{"id": "C67", "title": "NetCDF lists without elements are accepted", "statement": "A list written with its tag and zero elements, which the grammar of the format allows, is accepted like an absent list. (False for the code: it is rejected, whichever list it is and whatever stands before and after.)", "quantifier": "every header with an empty list", "why_tests_cant": "Universally quantified; the negation needs a witness.", "anchors": ["src/netcdf/header/netcdf_dim_list_reader.rs", "src/netcdf/header/netcdf_attr_list_reader.rs", "src/netcdf/header/netcdf_var_list_reader.rs"]}
{"id": "C68", "title": "Cell positions of a grid file are converted to degrees", "statement": "The positions read from a NetCDF grid file are one per entry of clat and clon, in order, each within 0.00002 degrees of the stored radians times 180/pi; files lacking a variable or with different numbers of entries are rejected.", "quantifier": "every grid file with coordinates up to 3.2 radians", "why_tests_cant": "All binary64 coordinates; the claim involves the real number pi.", "anchors": ["src/netcdf/converter/netcdf_to_grid_converter.rs: get_lat_lon_values_from_netcdf"]}
{"id": "C69", "title": "A picture made from rows of colours shows the rows bottom up", "statement": "Creating a picture from h rows of w colours gives the colour of row y, column x at pixel (x, h-1-y), and pixels not covered are transparent; it panics exactly if a colour lies outside of the picture (too many columns, or a colour in a row too many).", "quantifier": "every width, height and data", "why_tests_cant": "All sizes and data.", "anchors": ["src/imaging/drawable.rs: create_with_data"]}
{"id": "C70", "title": "Line pixels are within half a pixel of the ideal line", "statement": "Every pixel of a drawn line is within half a pixel (measured across the main direction) of the ideal line between the end points. (False for the code: every line whose extent in x is greater than that in y but less than twice as great paints a second pixel that is farther off; within one pixel is proved.)", "quantifier": "every pair of end points", "why_tests_cant": "Unbounded lengths; needs an invariant of the error term.", "anchors": ["src/imaging/drawable.rs: draw_line"]}
{"id": "C71", "title": "Lines leaving the picture panic", "statement": "Drawing a line with an end point outside of the picture panics instead of drawing wrapped pixels. (False for the code when coordinates reach 2^32, since they are truncated: every line of the picture is drawn just the same when both its ends are moved by the same multiples of 2^32; proved for coordinates below 2^31 in absolute value.)", "quantifier": "every pair of end points", "why_tests_cant": "All coordinates; the failure needs coordinates above 2^32.", "anchors": ["src/imaging/drawable.rs: draw_line, draw_point"]}
{"id": "C72", "title": "Sampling between two pixels interpolates them", "statement": "Sampling an image half way between two horizontally or vertically adjacent pixels gives a mixture of both. (False for the code: on a row or column of pixels the weights are lost.)", "quantifier": "every image and position", "why_tests_cant": "All colours and positions; the negation needs a witness.", "anchors": ["src/imaging/image.rs: interpolate_pixel_color"]}
{"id": "C73", "title": "Sampling fades out alike on all sides", "statement": "Sampling an image half a pixel outside of its border behaves the same at all four sides. (False for the code.)", "quantifier": "every image", "why_tests_cant": "Universally quantified; the negation needs a witness.", "anchors": ["src/imaging/image.rs: interpolate_pixel_color, get_pixel_color"]}
{"id": "C74", "title": "Sampling a uniform image gives its colour", "statement": "Every channel of a sample is between the smallest and largest value of this channel in the four surrounding pixels; in particular a uniform image gives its own colour. (False for the code by rounding and truncation of intermediate results: a value on which the four pixels agree is kept at all positions exactly if it is zero or a power of two; every other value loses a unit just right of a pixel, white for example. At most two units too small is proved, and two are lost in some places.)", "quantifier": "every image and position", "why_tests_cant": "All colours and positions with floating point rounding.", "anchors": ["src/imaging/image.rs: interpolate_pixel_color, interpolate_color"]}
{"id": "C75", "title": "A position belongs to the tile column it lies in", "statement": "A longitude between the western edges of columns x and x+1 is mapped to column x. (False for the code by rounding; x or x+1 is proved. On zoom levels 1 to 18 every longitude less than 2^-17 degrees west of Greenwich is mapped to the column east of Greenwich, and just before the date line to a column that does not exist.)", "quantifier": "every zoom up to 18 and longitude", "why_tests_cant": "Floating point rounding over all longitudes.", "anchors": ["src/map_tile/map_tile_coord.rs: from_position"]}
{"id": "C76", "title": "Only existing tile columns are produced", "statement": "All produced tiles have a column below 2^zoom. (False for the code when the extent reaches 180 degrees east.)", "quantifier": "every extent and zoom range", "why_tests_cant": "All extents; the negation needs a witness.", "anchors": ["src/map_tile/map_tile_renderer.rs: create_all_tiles", "src/map_tile/map_tile_coord.rs: from_position"]}
{"id": "C77", "title": "Tile pixel rows are placed by the Web Mercator projection", "statement": "The latitude at which the values of a pixel row are looked up is that of the Web Mercator projection, within the accuracy of the library functions. (False for the code: latitudes are interpolated linearly within a tile.)", "quantifier": "every tile and pixel row", "why_tests_cant": "The claim involves real functions and all library implementations.", "anchors": ["src/map_tile/map_tile_renderer.rs: create_single_tile"]}
{"id": "C78", "title": "Without rain the composite colour is the cloud colour", "statement": "Where there is no precipitation the pixel of the cloud and precipitation chart has the colour of the cloud cover class. (False for the code: colour channels are multiplied by alpha but stored as unmultiplied RGBA, so half transparent white becomes half transparent grey whose lightness is the opacity; true exactly for opaque and black classes.)", "quantifier": "every cloud cover and precipitation value", "why_tests_cant": "All combinations of classes; needs the arithmetic of compositing.", "anchors": ["src/meteo_chart/forecast_renderer/cloud_precip_chart_renderer.rs: color_fn"]}
{"id": "C79", "title": "Different classes have different colours", "statement": "In each chart legend two different value classes have different colours, so that a colour identifies the class. (False for the temperature legend: -10 to -8 degrees Celsius and 38 degrees and more, also NaN, are both white; true for all other pairs of classes and for wind and precipitation.)", "quantifier": "all pairs of classes", "why_tests_cant": "Tests check single colours only.", "anchors": ["src/meteo_chart/forecast_renderer/temp_2m_chart_renderer.rs: color_fn", "src/meteo_chart/forecast_renderer/wind_10m_chart_renderer.rs", "src/meteo_chart/forecast_renderer/cloud_precip_chart_renderer.rs"]}
{"id": "C80", "title": "Reference times from the server have a run name", "statement": "Every reference time that the code accepts from the server (minutes and seconds zero, hour divisible by three) has one of the eight run names of the model. (False for the code: the check is done in the offset of the text, the run name is taken in UTC. Provable part: exactly the times whose offset is a multiple of three hours, in particular UTC, or less than an hour west of one have a run name.)", "quantifier": "every instant and offset", "why_tests_cant": "All instants and offsets.", "anchors": ["src/meteo_swiss/forecast_run/icon_ch_forecast_reference_datetime.rs", "src/meteo_swiss/forecast_run/icon_ch_forecast_run_name.rs"]}
{"id": "C81", "title": "Horizons that are not whole hours are rejected", "statement": "A forecast horizon with minutes or seconds other than zero is not accepted as a horizon of whole hours. (False for the code: everything after the hours is ignored.)", "quantifier": "every horizon text", "why_tests_cant": "All texts.", "anchors": ["src/meteo_swiss/forecast_run/icon_ch_forecast_horizon.rs"]}
{"id": "C82", "title": "The newest listed run is rendered", "statement": "The latest reference time found in the response of the server is the newest one listed. (False for the code: the last entry is taken, so that each listed run is the one chosen for some order of the entries; true if the server lists runs from old to new.)", "quantifier": "every response", "why_tests_cant": "All orders of entries.", "anchors": ["src/meteo_swiss/data_geo_admin_ch/icon_ch_forecast_search_service.rs: find_latest_ref_datetime"]}
{"id": "C83", "title": "A run that was found can be rendered", "statement": "All files that rendering a run reads are on the server if the run finder returned the run as complete. (False for the code: only ten files of a run are probed; taking any other file away never changes which run is found, and every run that is found is also found on a server without any other file. Proved for the single-level files if the steps are published in order.)", "quantifier": "every availability pattern of files", "why_tests_cant": "2^n availability patterns.", "anchors": ["src/dwd/dwd_forecast_renderer/dwd_icon_forecast_run_finder.rs", "src/dwd/dwd_file_reader/dwd_icon_v_reader.rs", "src/dwd/dwd_file_reader/dwd_icon_hhl_reader.rs"]}
{"id": "C84", "title": "MeteoSwiss precipitation steps are available", "statement": "For every cloud step that is rendered from MeteoSwiss files, the precipitation files of this and the previous step are found, whatever files the search returned. (False for the code: the search may return fewer precipitation files than cloud files, and then the program panics.)", "quantifier": "all lists of cloud and precipitation files", "why_tests_cant": "The number of files of each kind is decided by the server.", "anchors": ["src/meteo_swiss/forecast_renderer/icon_ch1_forecast_renderer.rs", "src/meteo_swiss/file_reader/icon_ch_cloud_precip_reader.rs"]}
{"id": "C85", "title": "Meteobin files never miss their directory", "statement": "A step whose layers can be drawn always gets all its meteobin files, whichever directories existed before: writing a meteobin file never fails because its directory does not exist, although only some of the writers create it.", "quantifier": "all layers, runs, steps, schedules of the tiles and sets of existing directories", "why_tests_cant": "The directory is created by the tiles of the same step, at some zoom level, in parallel.", "anchors": ["src/metobin/precip_metobin.rs", "src/metobin/weather_metobin.rs", "src/metobin/wind_metobin.rs", "src/metobin/temp_metobin.rs", "src/metobin/vertical_cloud_metobin.rs", "src/metobin/vertical_wind_metobin.rs", "src/meteo_chart/forecast_renderer/map_tile_file_helper.rs"]}
{"id": "C86", "title": "Complete layers are rendered without a panic", "statement": "If the grids of a layer hold a value (possibly the missing value) for every cell, all tiles and meteobin files of the layer can be made, for any values whatever (infinite, NaN, missing), provided that weather codes are known ones and the area does not exceed 180 degrees east.", "quantifier": "all grids, values, extents and zoom levels", "why_tests_cant": "Every pixel looks up cells at rounded, computed positions; a single index out of bounds panics.", "anchors": ["src/meteo_chart/forecast_renderer/cloud_precip_chart_renderer.rs", "src/meteo_chart/forecast_renderer/wind_10m_chart_renderer.rs", "src/meteo_chart/forecast_renderer/temp_2m_chart_renderer.rs", "src/geo/grid/lat_lon_value_grid.rs", "src/geo/grid/lat_lon_value_grid_interpolator.rs", "src/map_tile/map_tile_renderer.rs"]}
{"id": "C87", "title": "Only what was selected is rendered, and all of it", "statement": "The files written by a run of the program are exactly the tiles and meteobin files of the selected variables and steps (all of them where no filter is given) of the run that was found: no other file is written even if the run fails, and none is lacking if it succeeds.", "quantifier": "all models, variable and step filters, published files, environments and schedules", "why_tests_cant": "The filters combine with each other, and the sets of steps depend on the model and on the server; a test sees one combination on one schedule.", "anchors": ["src/main.rs", "src/dwd/dwd_forecast_renderer/dwd_icon_forecast_renderer.rs", "src/meteo_swiss/forecast_renderer/icon_ch1_forecast_renderer.rs", "src/meteo_common/meteo_forecast_renderer_helper.rs"]}
{"id": "C88", "title": "Names in the variable filter that select nothing are reported", "statement": "If a run succeeds, every name in the variable filter selected a variable that was rendered; a name that selects nothing is reported as an error. (False for the code: a name that selects nothing is never reported; beside other names it makes no difference at all, and alone it makes the call do nothing and succeed.)", "quantifier": "all variable filters", "why_tests_cant": "The filter is free text from the command line.", "anchors": ["src/main.rs", "src/dwd/dwd_forecast_renderer/dwd_icon_forecast_renderer.rs", "src/meteo_swiss/forecast_renderer/icon_ch1_forecast_renderer.rs", "src/meteo_chart/meteo_layer/meteo_layer_type.rs"]}
{"id": "C89", "title": "From the published temperature to the byte of the file", "statement": "After a successful run, the temperature meteobin file of each selected step holds one byte for every grid point of the published GRIB2 message, row by row: 255 where the message has no value, and otherwise, for temperatures within -63.99 to 62.99 degrees Celsius, a byte b below 255 such that (b - 128)/2 is within 0.252 degrees of the temperature (R + X 2^E)/10^D - 273.15 that the message encodes.", "quantifier": "all messages with a bitmap or without, all grids, scale factors, filters and schedules", "why_tests_cant": "The way from the message to the byte passes nine modules with float arithmetic; each test looks at one of them on one file.", "anchors": ["src/grib2/document/grib2_document_reader.rs", "src/grib2/converter/regular_grid_converter.rs", "src/dwd/dwd_file_reader/dwd_icon_t_2m_reader.rs", "src/metobin/temp_metobin.rs", "src/dwd/dwd_forecast_renderer/dwd_icon_forecast_renderer.rs"]}
{"id": "C90", "title": "A step that could not be downloaded is never passed over", "statement": "If rendering a run succeeds, every file needed for the selected variables and steps was downloaded and read successfully and drawn; and conversely, for DWD, rendering succeeds on some schedule exactly if all of them can.", "quantifier": "all published files (missing, broken or complete), filters and schedules", "why_tests_cant": "Errors arise in parallel tasks at any position of the list.", "anchors": ["src/dwd/dwd_forecast_renderer/dwd_icon_forecast_renderer.rs", "src/meteo_swiss/forecast_renderer/icon_ch1_forecast_renderer.rs", "src/meteo_common/meteo_forecast_renderer_helper.rs"]}
{"id": "C91", "title": "Exit status tells of failures", "statement": "The exit status of the program is 0 only if everything that was selected has been rendered.", "quantifier": "all environments and command lines", "why_tests_cant": "Needs a failure of the network at the time of the test.", "anchors": ["src/main.rs"]}
{"id": "C92", "title": "Only files of the selected variables and steps matter", "statement": "The result of rendering a DWD run depends only on those published files that belong to selected variables and steps (and the previous step for precipitation): changing, adding or removing any other file changes nothing.", "quantifier": "all pairs of sets of published files that agree on the files needed", "why_tests_cant": "It is a relation between two runs on different servers.", "anchors": ["src/dwd/dwd_forecast_renderer/dwd_icon_forecast_renderer.rs", "src/dwd/dwd_file_reader/dwd_icon_tot_prec_reader.rs", "src/dwd/dwd_file_reader/dwd_icon_file.rs"]}
{"id": "C93", "title": "From published precipitation totals to hourly precipitation", "statement": "After a successful run, the precipitation file of step n holds for every grid point where both totals are published (non-negative, growing by at most 126 mm and at most 1000 mm) a byte b other than 255, where b/2 is within 0.252 mm of the difference of the totals published for step n and step n-1, except that 0.201 to 0.499 mm are always given as 1 (nothing is claimed for differences within 0.001 mm of 0.2 and 0.5).", "quantifier": "all pairs of messages, grids, filters and schedules", "why_tests_cant": "The totals come from two files read separately, each packed with its own scale factors.", "anchors": ["src/dwd/dwd_file_reader/dwd_icon_tot_prec_reader.rs", "src/dwd/dwd_file_reader/dwd_icon_cloud_precip_reader.rs", "src/metobin/precip_metobin.rs"]}
{"id": "C94", "title": "From published 10 m wind to the bytes of the file", "statement": "After a successful run, the wind file of each selected step holds for every grid point the published wind components (up to 60 m/s) and gusts (up to 130 m/s) in knots to half a knot (plus 0.02), and 255 only where a published value is missing.", "quantifier": "all triples of messages, grids, filters and schedules", "why_tests_cant": "The marker for missing values lies within the range of true values.", "anchors": ["src/dwd/dwd_file_reader/dwd_icon_wind_10m_reader.rs", "src/metobin/wind_metobin.rs", "src/meteo_chart/meteo_layer/meteo_wind_10m_layer.rs"]}
{"id": "C95", "title": "From published cloud cover aloft to the bytes of the file", "statement": "After a successful run, the file of vertical clouds holds, for every grid point and level, the published cloud cover in percent, and 255 only where it is missing.", "quantifier": "all messages of all levels, grids, filters and schedules", "why_tests_cant": "Some sixty files per step are read in parallel; values are truncated to bytes and compared with the missing value.", "anchors": ["src/dwd/dwd_file_reader/dwd_icon_clc_reader.rs", "src/metobin/vertical_cloud_metobin.rs"]}
{"id": "C96", "title": "From published level heights to the bytes of the file", "statement": "After a successful run, the file of vertical clouds holds, for every grid point and level, the published height of the level in hundreds of feet, and 255 only where it is missing.", "quantifier": "all messages of all levels, grids, filters and schedules", "why_tests_cant": "The heights saturate at the byte that marks missing values.", "anchors": ["src/dwd/dwd_file_reader/dwd_icon_hhl_reader.rs", "src/metobin/vertical_cloud_metobin.rs"]}
{"id": "C97", "title": "From published wind aloft to the bytes of the file", "statement": "After a successful run, the file of vertical winds holds, for every grid point and each level from the top, the height, u and v: each component up to 60 m/s is given in knots to half a knot (plus 0.02), both are 255 exactly where a published component is missing, and heights of 100.1 to 25499 feet are given to less than 100 feet.", "quantifier": "all messages of all levels, grids, filters and schedules", "why_tests_cant": "Components of both signs, at levels of three files each; the missing marker is excluded only by clamping.", "anchors": ["src/dwd/dwd_file_reader/dwd_icon_u_reader.rs", "src/dwd/dwd_file_reader/dwd_icon_v_reader.rs", "src/dwd/dwd_file_reader/dwd_icon_vertical_wind_reader.rs", "src/metobin/vertical_wind_metobin.rs"]}
{"id": "C98", "title": "From the published MeteoSwiss temperature to the byte of the file", "statement": "After a successful MeteoSwiss run, the temperature file of each selected step holds one byte for each of the 1851 x 847 cells of the chart. The cell shows the published point nearest to its centre (to 0.0002 degrees) if that is within a hundredth of a degree, and no point otherwise. The byte is 255 where no point is shown or its value is missing, and otherwise, for -63.99 to 62.99 degrees Celsius, a byte b with (b - 128)/2 within 0.252 degrees of the temperature that the message encodes for that point.", "quantifier": "all position and value messages, numbers of points, filters and schedules", "why_tests_cant": "The cells depend on a search over a million points with float distances; a test checks one file.", "anchors": ["src/meteo_swiss/file_reader/icon_ch_t_2m_reader.rs", "src/meteo_swiss/file_reader/icon_ch_hor_const_reader.rs", "src/grib2/converter/unstructured_grid_converter.rs", "src/meteo_swiss/forecast_renderer/icon_ch1_forecast_renderer.rs"]}
{"id": "C99", "title": "From published MeteoSwiss precipitation totals to hourly precipitation", "statement": "After a successful MeteoSwiss run, the precipitation file of step n gives in every cell, for the nearest point shown there, half-millimetre steps of the difference of the totals published for the steps n and n-1 (within 0.252 mm; 0.201 to 0.499 mm always as 1, and nothing claimed within 0.001 mm of 0.2 and 0.5), and never 255, for totals up to 1000 mm growing by at most 126 mm.", "quantifier": "all position and value messages, filters and schedules", "why_tests_cant": "The totals come from two files whose steps are paired by list position.", "anchors": ["src/meteo_swiss/file_reader/icon_ch_tot_prec_reader.rs", "src/meteo_swiss/file_reader/icon_ch_cloud_precip_reader.rs", "src/metobin/precip_metobin.rs"]}
{"id": "C100", "title": "From published MeteoSwiss 10 m wind to the bytes of the file", "statement": "After a successful MeteoSwiss run, the wind file of each selected step holds in every cell the wind components (up to 60 m/s) and gusts (up to 130 m/s) published for the nearest point, in knots to half a knot (plus 0.02), and 255 only where no point is near or a published value is missing.", "quantifier": "all position and value messages, filters and schedules", "why_tests_cant": "The marker for missing values lies within the range of true values.", "anchors": ["src/meteo_swiss/file_reader/icon_ch_wind_10m_reader.rs", "src/meteo_swiss/file_reader/icon_ch_wind_u_10m_reader.rs", "src/metobin/wind_metobin.rs"]}
{"id": "C101", "title": "From published MeteoSwiss cloud cover aloft to the bytes of the file", "statement": "After a successful MeteoSwiss run, the file of vertical clouds holds for every cell and each of the 49 levels the height (to 100 feet) and the cloud cover (to one percent) that the messages 32 to 80 of the files publish for the nearest point, and 255 only where no point is near or the published value is missing.", "quantifier": "all messages of all levels, numbers of points, filters and schedules", "why_tests_cant": "The same byte stands for missing and for clear sky; heights and covers come from different files.", "anchors": ["src/meteo_swiss/file_reader/icon_ch_clc_reader.rs", "src/meteo_swiss/file_reader/icon_ch_hhl_reader.rs", "src/metobin/vertical_cloud_metobin.rs"]}
{"id": "C102", "title": "From published MeteoSwiss wind aloft to the bytes of the file", "statement": "After a successful MeteoSwiss run, the file of vertical winds holds for every cell and each of the 49 levels the height, u and v published for the nearest point: each component up to 60 m/s in knots to half a knot (plus 0.02), both 255 exactly where no point is near or a component is missing, and heights of 100.1 to 25499 feet to less than 100 feet.", "quantifier": "all messages of all levels, numbers of points, filters and schedules", "why_tests_cant": "Components of both signs at levels of three files each.", "anchors": ["src/meteo_swiss/file_reader/icon_ch_u_reader.rs", "src/meteo_swiss/file_reader/icon_ch_v_reader.rs", "src/meteo_swiss/file_reader/icon_ch_vertical_wind_reader.rs", "src/metobin/vertical_wind_metobin.rs"]}
{"id": "C103", "title": "The row of a tile follows the Web Mercator projection", "statement": "From the equator to 75 degrees north and up to zoom level 31, the row of the tile of a position is the one that the Web Mercator projection gives, except for positions within two millionths of the height of the map from the edge of a tile, whatever mathematical library with relative errors up to a millionth is used.", "quantifier": "all latitudes, longitudes, zoom levels and accurate libraries", "why_tests_cant": "The row depends on a chain of float and library operations for uncountably many latitudes.", "anchors": ["src/map_tile/map_tile_coord.rs"]}
{"id": "C104", "title": "A complete MeteoSwiss run succeeds", "statement": "If the constants are there, the latest reference time is at a multiple of three hours, all file lists of a selected variable have the same length and every file listed holds a field for all points, then the program ends successfully under every schedule, with every selection of variables and steps: no panic and no error.", "quantifier": "all contents of the files, file lists, selections and schedules", "why_tests_cant": "A single index out of range, float or tile coordinate anywhere panics; tests run one selection on one server state.", "anchors": ["src/meteo_swiss/forecast_renderer/icon_ch1_forecast_renderer.rs", "src/main.rs", "src/meteo_swiss/data_geo_admin_ch/icon_ch_forecast_search_service.rs"]}
{"id": "C105", "title": "A complete DWD run succeeds", "statement": "If a run of today is found and every file needed for the selected variables and steps is published with a field of one common area and grid between the equator and 75 degrees north (weather with known codes only), then the program, called for ICON-D2 or ICON-EU, ends successfully under every schedule: no panic and no error.", "quantifier": "all contents of the files, areas, grid sizes, selections of variables and steps, and schedules", "why_tests_cant": "A single index, float or tile coordinate out of range anywhere panics; tests run one selection on one server state.", "anchors": ["src/dwd/dwd_forecast_renderer/dwd_icon_forecast_renderer.rs", "src/main.rs", "src/dwd/dwd_file_reader/dwd_icon_ww_reader.rs", "src/grib2/converter/regular_grid_converter.rs"]}
{"id": "C106", "title": "From the published DWD weather to the bytes of the weather file", "statement": "After a successful DWD run, the weather file of each selected step holds two bytes per grid point. The first is the published weather code where that is above 4, otherwise the class 0 to 3 of the published cloud cover (limits 1/16, 7/16 and 13/16, up to a millionth), and 255 where that is missing. The second is the published ceiling in units of 200 feet, to 100.25 feet up to 50898 feet, and 255 above 50902 feet or where it is missing.", "quantifier": "all messages with known weather codes, grid sizes, filters and schedules", "why_tests_cant": "Three files with different packings are combined for every point; tests check a few cells of fixed grids.", "anchors": ["src/dwd/dwd_file_reader/dwd_icon_ww_reader.rs", "src/metobin/weather_metobin.rs", "src/meteo_chart/meteo_layer/weather_layer.rs"]}
{"id": "C107", "title": "From the published MeteoSwiss cloud cover and ceiling to the bytes of the weather file", "statement": "After a successful MeteoSwiss run, the weather file of each selected step holds two bytes for each of the 1851 x 847 cells, for the nearest published point: the class 0 to 3 of its cloud cover, published in percent (limits 6.25, 43.75 and 81.25 percent, up to a millionth of the whole), and its ceiling in units of 200 feet to 100.25 feet up to 50898 feet; 255 where no point is near or the value is missing.", "quantifier": "all position and value messages, filters and schedules", "why_tests_cant": "The cells depend on a search over a million points and on the scaling of percent to a fraction in the reader.", "anchors": ["src/meteo_swiss/file_reader/icon_ch_ww_reader.rs", "src/meteo_swiss/file_reader/icon_ch_clct_reader.rs", "src/meteo_swiss/file_reader/icon_ch_ceiling_reader.rs", "src/metobin/weather_metobin.rs"]}
{"id": "C108", "title": "Names of reference times", "statement": "Reading the name of a reference time (RFC 3339 in UTC, as sent to the server) gives the same time back, and the names sort as texts in the order of the times.", "quantifier": "all times of the years 0 to 9999", "why_tests_cant": "The name goes through a calendar with months and leap years; a test checks a few dates.", "anchors": ["src/meteo_swiss/forecast_run/icon_ch_forecast_reference_datetime.rs"]}
{"id": "C109", "title": "Runs of different reference times have different directories", "statement": "The calendar counts days from 1 January 1970 without gap or repetition. Every three-hourly reference time has a run; files of runs of different reference times never have the same path, and the directories (date and run name) sort like the times.", "quantifier": "all reference times of the years 0 to 9999, steps and outputs", "why_tests_cant": "Collisions would appear for particular pairs of dates only.", "anchors": ["src/meteo_swiss/forecast_run/icon_ch_forecast_reference_datetime.rs", "src/meteo_swiss/forecast_run/icon_ch_forecast_run_name.rs", "src/meteo_common/meteo_forecast_renderer_helper.rs"]}
{"id": "C110", "title": "The name of an accepted reference time denotes the same time", "statement": "If a reference time is accepted from a text, then its name is accepted too and denotes the same time.", "quantifier": "all texts", "why_tests_cant": "Texts with fractions of seconds or with offsets are accepted but not covered by any test.", "anchors": ["src/meteo_swiss/forecast_run/icon_ch_forecast_reference_datetime.rs"]}
{"id": "C111", "title": "Searches find the right files", "statement": "If the server answers searches with the files that match all members of the request, then the search for a variable of a run finds exactly the files of this variable and reference time of ICON-CH1 outside the ensemble; different searches are different requests; and if the server lists files in the order of their reference times, the run that is taken is the newest one of which the temperature file of hour 0 is published.", "quantifier": "all catalogues of files with three-hourly reference times and horizons up to 255 hours, all variables and reference times", "why_tests_cant": "Tests of the search need the network and see one state of the server.", "anchors": ["src/meteo_swiss/data_geo_admin_ch/icon_ch_forecast_request.rs", "src/meteo_swiss/data_geo_admin_ch/icon_ch_forecast_search_service.rs", "src/meteo_swiss/data_geo_admin_ch/icon_ch_forecast_endpoint.rs", "src/meteo_swiss/forecast_run/icon_ch_forecast_variable.rs", "src/meteo_swiss/forecast_run/icon_ch_forecast_model.rs"]}
{"id": "C112", "title": "The step number is the hour of the file", "statement": "If the catalogue of the server has the files of the hours 0, 1, ..., each once, for a variable of a run, then the steps of this variable are exactly these files, each numbered by its hour, without the hour 0 for cloud cover.", "quantifier": "all catalogues, numbers of hours and orders of files", "why_tests_cant": "The numbers are positions in a sorted list; tests see a few answers.", "anchors": ["src/meteo_swiss/data_geo_admin_ch/icon_ch_forecast_search_service.rs", "src/meteo_swiss/forecast_renderer/icon_ch1_forecast_renderer.rs", "src/meteo_swiss/forecast_run/icon_ch_forecast_horizon.rs"]}
{"id": "C113", "title": "A complete catalogue leads to success", "statement": "If for every selected variable the newest run in the catalogue of the server has equally many files of the fields that the variable is made of, with well-formed content, then a call for ICON-CH1 ends without error and without panic.", "quantifier": "all catalogues, contents of files, selections of variables and steps, and schedules", "why_tests_cant": "It depends on requests, answers, texts of times and horizons, readers and renderers together.", "anchors": ["src/main.rs", "src/meteo_swiss/forecast_renderer/icon_ch1_forecast_renderer.rs", "src/meteo_swiss/data_geo_admin_ch/icon_ch_forecast_search_service.rs", "src/meteo_swiss/data_geo_admin_ch/icon_ch_assets_service.rs"]}
{"id": "C114", "title": "From the catalogue to the bytes", "statement": "After a successful call for ICON-CH1, the meteobin file of the newest run and of each selected hour gives in each cell what the files of this run and hour have for the nearest point: the temperature, the precipitation of the hour before (difference of the totals of two files), and the vertical wind with its heights.", "quantifier": "all catalogues with the hours 0, 1, ... of the fields, all contents, selections and schedules", "why_tests_cant": "No test goes from the answer of the server to the files.", "anchors": ["src/main.rs", "src/meteo_swiss/forecast_renderer/icon_ch1_forecast_renderer.rs", "src/meteo_swiss/data_geo_admin_ch/icon_ch_forecast_search_service.rs", "src/metobin/temp_metobin.rs", "src/metobin/precip_metobin.rs", "src/metobin/vertical_wind_metobin.rs"]}
{"id": "C115", "title": "Success means that charts were written", "statement": "A call for ICON-CH1 that succeeds has written the charts of the selected variables if the catalogue of the server has a complete run. (False for the code: the newest run is taken even if it is incomplete; a successful run writes nothing exactly if no selected step of a selected variable is among the files found.)", "quantifier": "all catalogues", "why_tests_cant": "The server is seldom tested while a new run is being published.", "anchors": ["src/main.rs", "src/meteo_swiss/forecast_renderer/icon_ch1_forecast_renderer.rs", "src/meteo_swiss/data_geo_admin_ch/icon_ch_forecast_search_service.rs"]}
{"id": "C116", "title": "Messages on unstructured grids are matched with their coordinates", "statement": "The coordinates of an unstructured grid are the k-th latitude with the k-th longitude of the two coordinate messages; messages with different numbers of points are rejected with an error; values whose number differs from that of the coordinates are rejected with an error; otherwise every cell of the result shows the value of the nearest coordinate.", "quantifier": "all messages, coordinates, values and sizes of grids", "why_tests_cant": "Swapped or shifted coordinates give a plausible picture; tests use one small grid.", "anchors": ["src/grib2/converter/unstructured_grid_converter.rs", "src/grib2/converter/grib2_to_grid_converter.rs"]}
{"id": "C117", "title": "A data point is found at its own position", "statement": "Looking up the position of a data point of a regular grid message in the grid made of the message gives the value of this data point; the same for positions close to it.", "quantifier": "all regular grid messages (axes of 2 to 65535 evenly spaced points) and all positions between the first and the last point", "why_tests_cant": "A displacement by a fraction of a cell is not visible in a picture, and tests look up positions in grids they made themselves with consistent extents.", "anchors": ["src/geo/grid/lat_lon_grid.rs", "src/geo/grid/lat_lon_value_grid.rs"]}
{"id": "C118", "title": "Tiles are transparent outside the area and where data is missing", "statement": "In every map tile exactly those pixels are transparent that are outside the area of the data or at points without a value.", "quantifier": "all layers, tiles, zoom levels up to 10 and pixels", "why_tests_cant": "Tiles are compared by eye on a dark map, if at all; which pixels have no data depends on the server.", "anchors": ["src/meteo_chart/meteo_layer/meteo_cloud_precip_layer.rs", "src/meteo_chart/forecast_renderer/cloud_precip_chart_renderer.rs", "src/meteo_chart/forecast_renderer/temp_2m_chart_renderer.rs", "src/meteo_chart/forecast_renderer/wind_10m_chart_renderer.rs"]}
{"id": "C119", "title": "Temperature tiles show the published temperatures", "statement": "If a DWD run is rendered successfully, every needed tile of a selected step is written with 256 by 256 pixels, and each pixel of the area shows in the colour of its class the published temperature (to within 0.001 degrees) of the point that the lookup of C117 gives for the place of the pixel on the Web Mercator map; it is transparent if that point has no temperature.", "quantifier": "all servers, messages, grids, runs, steps, filters, tiles and pixels", "why_tests_cant": "The statement spans download, decoding, grids, projection, colours and files; tests cover single functions on single values.", "anchors": ["src/meteo_chart/forecast_renderer/temp_2m_chart_renderer.rs", "src/dwd/dwd_forecast_renderer/dwd_icon_forecast_renderer.rs", "src/geo/grid/lat_lon_value_grid.rs"]}
{"id": "C120", "title": "Wind tiles show the published wind", "statement": "If a DWD run is rendered successfully, each pixel of a needed wind tile of a selected step that is in the area shows in the colour of its class the speed (to within 0.001 m/s) of the wind published for the point that the lookup of C117 gives for the place of the pixel.", "quantifier": "all servers, messages, grids, runs, steps, filters, tiles and pixels", "why_tests_cant": "A wind component that equals the internal marker of missing values occurs at few points of few forecasts.", "anchors": ["src/meteo_chart/forecast_renderer/wind_10m_chart_renderer.rs", "src/meteo_chart/meteo_layer/meteo_wind_10m_layer.rs", "src/dwd/dwd_file_reader/dwd_icon_wind_10m_reader.rs"]}
{"id": "C121", "title": "Cloud and precipitation tiles show the published clouds and precipitation", "statement": "If a DWD run is rendered successfully, each pixel of a needed cloud and precipitation tile of a selected step that is in the area shows the published cloud cover and the difference of the published precipitation totals of the hour and the hour before, both interpolated between the four points around the place of the pixel, as the colour of the precipitation drawn over that of the clouds.", "quantifier": "all servers, messages (cover from 0 to 1, totals from 0 to 1000 mm), grids, runs, steps, filters, tiles and pixels", "why_tests_cant": "Interpolated values at the margin of the area and between missing points need exhaustive comparison with the published numbers.", "anchors": ["src/meteo_chart/forecast_renderer/cloud_precip_chart_renderer.rs", "src/meteo_chart/meteo_layer/meteo_cloud_precip_layer.rs", "src/geo/grid/lat_lon_value_grid_interpolator.rs"]}
{"id": "C122", "title": "Every place of the area has its pixel", "statement": "For each place of an area on the northern hemisphere (up to 75 degrees, not beyond 179.9 degrees east) and each zoom level there is a tile among those rendered for the area with a pixel at this place, up to the size of one pixel and 0.001 degrees.", "quantifier": "all areas, places and zoom levels up to 10, and all elementary functions of sufficient accuracy", "why_tests_cant": "Missing rows or columns of tiles at the margin occur for particular extents and zoom levels only; rounding in binary32 decides.", "anchors": ["src/map_tile/map_tile_coord.rs", "src/map_tile/map_tile_renderer.rs"]}
{"id": "C123", "title": "Only NetCDF headers are accepted, and only their own data is returned", "statement": "A NetCDF header is read successfully exactly if the bytes form a header in the sense of the format (lists of dimensions, attributes and variables with names that are valid UTF-8, fill bytes arbitrary); the result has the content these bytes describe. The values of a variable are returned exactly if the bytes at its offset hold that many values.", "quantifier": "all byte sequences, headers, variables and values", "why_tests_cant": "Acceptance of malformed input cannot be enumerated: there are infinitely many malformed headers, and tests feed well-formed samples.", "anchors": ["src/netcdf/common/string_reader.rs", "src/netcdf/header/netcdf_header_reader.rs", "src/netcdf/header/netcdf_dim_list_reader.rs", "src/netcdf/header/netcdf_attr_list_reader.rs", "src/netcdf/header/netcdf_var_list_reader.rs", "src/netcdf/header/netcdf_name_reader.rs", "src/netcdf/data/netcdf_data_reader.rs"]}
{"id": "C124", "title": "Only GRIB2 messages with right declared lengths are accepted", "statement": "A GRIB2 message is read successfully only if the length that each section declares about itself is the length of its content.", "quantifier": "all byte sequences", "why_tests_cant": "Damaged or forged lengths in accepted input cannot be enumerated; tests use messages from the weather services.", "anchors": ["src/grib2/document/grib2_document_reader.rs", "src/grib2/section0/section0_reader.rs", "src/grib2/section1/section1_reader.rs", "src/grib2/section2/section2_reader.rs", "src/grib2/section3/section3_reader.rs", "src/grib2/section4/section4_reader.rs", "src/grib2/section5/section5_reader.rs", "src/grib2/section6/section6_reader.rs", "src/grib2/section7/section7_reader.rs", "src/grib2/section8/section8_reader.rs"]}
{"id": "C125", "title": "A place on a MeteoSwiss chart shows the data point nearest to it", "statement": "Looking up a position in a field read from a MeteoSwiss file gives the published value of the data point nearest to that position, and nothing exactly if no data point is within a hundredth of a degree.", "quantifier": "all servers, constants, positions of data points, fields and positions looked up", "why_tests_cant": "The million cells of the chart and all arrangements of data points cannot be enumerated; the displacement is smaller than what can be seen on a map.", "anchors": ["src/geo/grid/unstructured_grid.rs", "src/geo/grid/unstructured_value_grid.rs", "src/geo/grid/lat_lon_grid.rs", "src/geo/grid/lat_lon_value_grid.rs", "src/meteo_swiss/file_reader/icon_ch_hor_const_reader.rs"]}
{"id": "C126", "title": "MeteoSwiss temperature tiles show the published temperatures", "statement": "If a MeteoSwiss run is rendered successfully, every needed tile of a selected step is written with 256 by 256 pixels, and each pixel of the area shows in the colour of its class the published temperature (to within 0.001 degrees) of the data point that the lookup of C125 gives for the place of the pixel on the Web Mercator map; it is transparent if there is no point or it has no temperature.", "quantifier": "all servers, messages, constants, runs, steps, filters, tiles and pixels", "why_tests_cant": "The statement spans the catalogue, decoding, regridding, projection, colours and files; tests cover single functions on single values.", "anchors": ["src/meteo_chart/forecast_renderer/temp_2m_chart_renderer.rs", "src/meteo_swiss/forecast_renderer/icon_ch1_forecast_renderer.rs", "src/geo/grid/unstructured_grid.rs", "src/geo/grid/unstructured_value_grid.rs", "src/geo/grid/lat_lon_grid.rs", "src/geo/grid/lat_lon_value_grid.rs"]}
{"id": "C127", "title": "MeteoSwiss wind tiles show the published wind speeds", "statement": "If a MeteoSwiss run is rendered successfully, each pixel of the wind tiles shows the class of the speed of the published wind (to within 0.001 m/s) of the data point that the lookup of C125 gives for its place, and is transparent if a component is missing.", "quantifier": "all servers, messages, constants, runs, steps, filters, tiles and pixels", "why_tests_cant": "The statement spans the catalogue, decoding, regridding, projection, colours and files; tests cover single functions on single values.", "anchors": ["src/meteo_chart/forecast_renderer/wind_10m_chart_renderer.rs", "src/meteo_swiss/forecast_renderer/icon_ch1_forecast_renderer.rs", "src/geo/grid/unstructured_grid.rs", "src/geo/grid/unstructured_value_grid.rs", "src/geo/grid/lat_lon_grid.rs", "src/geo/grid/lat_lon_value_grid.rs"]}
{"id": "C128", "title": "MeteoSwiss cloud and precipitation tiles show the published clouds and precipitation", "statement": "If a MeteoSwiss run is rendered successfully, each pixel of the cloud and precipitation tiles shows the published cloud cover and the precipitation of the hour before, interpolated between the four cells around its place, one colour over the other; pixels without data do not look like a clear sky.", "quantifier": "all servers, messages, constants, runs, steps, filters, tiles and pixels", "why_tests_cant": "The statement spans the catalogue, decoding, regridding, interpolation, projection, colours and files; a clear sky and missing data look plausible in every sample.", "anchors": ["src/meteo_chart/forecast_renderer/cloud_precip_chart_renderer.rs", "src/geo/grid/lat_lon_value_grid_interpolator.rs", "src/meteo_swiss/forecast_renderer/icon_ch1_forecast_renderer.rs", "src/geo/grid/unstructured_grid.rs", "src/geo/grid/unstructured_value_grid.rs", "src/geo/grid/lat_lon_grid.rs", "src/geo/grid/lat_lon_value_grid.rs"]}
{"id": "C129", "title": "Only files of the selected MeteoSwiss variables and steps matter", "statement": "What rendering the latest MeteoSwiss forecast writes and whether it succeeds depend only on the positions of the data points, the newest reference time, the lists of files of the quantities of the selected variables, and the files of the selected steps (for precipitation also of the step before; for vertical charts the level heights); other files may be missing, damaged or changed.", "quantifier": "all pairs of servers and answers of the web service that agree on those parts, all filters, schedules and outcomes", "why_tests_cant": "That a file is never opened cannot be seen by comparing outputs for sample servers; tests would have to vary every other file.", "anchors": ["src/meteo_swiss/forecast_renderer/icon_ch1_forecast_renderer.rs", "src/meteo_swiss/data_geo_admin_ch/icon_ch_forecast_search_service.rs", "src/meteo_swiss/data_geo_admin_ch/icon_ch_assets_service.rs", "src/meteo_swiss/file_reader/icon_ch_cloud_precip_reader.rs"]}
{"id": "C130", "title": "Missing or incomplete DWD downloads are reported, not crashes", "statement": "If every DWD file needed for the selected variables and steps is either complete or cannot be had (missing, cut off inside the message, or answered with something that is no GRIB2 file), rendering the run ends with success or with an error and never panics; it succeeds exactly if all needed files are complete.", "quantifier": "all DWD models and runs, areas, filters, sets of missing or cut files with cuts at any byte, schedules and outcomes", "why_tests_cant": "Every combination of missing and cut files, with every position of the cut, would have to be served to the program; tests serve a few.", "anchors": ["src/dwd/dwd_forecast_renderer/dwd_icon_forecast_renderer.rs", "src/grib2/document/grib2_document_reader.rs", "src/main.rs"]}
{"id": "C131", "title": "Missing or incomplete MeteoSwiss downloads are reported, not crashes", "statement": "If every search of the MeteoSwiss web service fails or lists the files, and every file needed is complete or cannot be had (missing, cut off, or no GRIB2 file), rendering the latest MeteoSwiss forecast ends with success or with an error and never panics.", "quantifier": "all servers and answers of the web service, filters, sets of missing or cut files with cuts at any byte, schedules and outcomes", "why_tests_cant": "Every combination of missing and cut files, with every position of the cut, would have to be served to the program; tests serve a few.", "anchors": ["src/meteo_swiss/forecast_renderer/icon_ch1_forecast_renderer.rs", "src/meteo_swiss/data_geo_admin_ch/icon_ch_forecast_search_service.rs", "src/meteo_swiss/data_geo_admin_ch/icon_ch_assets_service.rs", "src/main.rs"]}
{"id": "C132", "title": "Which texts are reference times, and which time they denote", "statement": "A text is accepted as reference time exactly if it is a time as in RFC 3339 with an existing date, a whole hour divisible by three and an offset of less than a day; the time accepted is what the clock shows less what it is ahead of UTC. All other texts give an error.", "quantifier": "all texts", "why_tests_cant": "Times are written with any offset, fraction and date; tests read a few, in UTC.", "anchors": ["src/meteo_swiss/forecast_run/icon_ch_forecast_reference_datetime.rs"]}
{"id": "C133", "title": "All quantities of a layer at a position are those of one cell", "statement": "Whatever is looked up in a layer at a position (wind components, speed and gusts; cloud cover, ceiling and weather) is what the lookup by column and row gives at one and the same cell, or nothing is found for all of them.", "quantifier": "all layers that the constructors accept, all positions including such outside of the grid", "why_tests_cant": "The cell is computed in floating point for each grid of the layer; tests look up a few positions.", "anchors": ["src/meteo_chart/meteo_layer/meteo_wind_10m_layer.rs", "src/meteo_chart/meteo_layer/weather_layer.rs", "src/geo/grid/lat_lon_value_grid.rs"]}
{"id": "C134", "title": "Speed and direction give back the wind vector", "statement": "The speed times the cosine and sine of the direction (in degrees, from east over north) are the east and north component of the wind up to rounding, and the direction is within -180 and 180 degrees.", "quantifier": "all cells with components up to 2^60 in absolute value, every atan2 that is accurate to 2^-20", "why_tests_cant": "Both numbers are rounded results of transcendental functions; no test checks the direction.", "anchors": ["src/meteo_chart/meteo_layer/meteo_wind_10m_layer.rs"]}
{"id": "C135", "title": "The description of a DWD model covers what is rendered", "statement": "The steps that are rendered and the runs that are looked for are among the step hours and run hours of the description of the model.", "quantifier": "all DWD models, steps and runs", "why_tests_cant": "Two independent tables for the same facts; no test compares them.", "anchors": ["src/dwd/forecast_run/dwd_model_config.rs", "src/dwd/forecast_run/dwd_model_type.rs", "src/meteo_common/meteo_forecast_model.rs", "src/dwd/dwd_forecast_renderer/dwd_icon_forecast_run_finder.rs"]}
{"id": "C136", "title": "The release build reads the same GRIB2 messages as the development build", "statement": "Without overflow checks (`cargo build --release`, as in the Dockerfile) every stream is read, refused or made to panic exactly as with overflow checks.", "quantifier": "all byte streams; for the description of the accepted messages streams of less than 4 GiB", "why_tests_cant": "Declared lengths that are too small make subtractions wrap around in one build and panic in the other; unit tests run in one build only.", "anchors": ["Dockerfile", "src/grib2/document/grib2_document_reader.rs", "src/grib2/section4/section4_reader.rs", "src/grib2/section5/section5_reader.rs", "src/grib2/section6/section6_reader.rs", "src/grib2/section7/section7_reader.rs"]}
{"id": "C137", "title": "The release build sorts the MeteoSwiss files by their hour", "statement": "Without overflow checks the search for the files of a run fails exactly if some entry has an unreadable horizon or no link, never panics, and otherwise gives all files in the order of their hours.", "quantifier": "all lists of entries, all horizons", "why_tests_cant": "The hour is computed in a byte; unit tests run with overflow checks.", "anchors": ["src/meteo_swiss/forecast_run/icon_ch_forecast_horizon.rs", "src/meteo_swiss/data_geo_admin_ch/icon_ch_forecast_search_service.rs"]}
{"id": "C138", "title": "The release build does what the development build does", "statement": "Every behaviour of the program with overflow checks that does not end with a panic is a behaviour of the program without: the same files with the same contents in the same order, and the same exit status. If the program with checks cannot panic, both have the same behaviours; in particular for complete runs of DWD and of MeteoSwiss.", "quantifier": "all servers and their answers, all models, variables and steps selected, all schedules of the threads", "why_tests_cant": "Compares two compilations of a concurrent program on all inputs.", "anchors": ["Dockerfile", "src/main.rs", "src/map_tile/map_tile_renderer.rs"]}
{"id": "C139", "title": "Cell numbers, zoom levels, step ranges and mixed colours never overflow", "statement": "In every grid that the program reads, in either build, the number of every cell can be computed; the powers of two of all zoom levels, the first step of the differences and the mixture of any cloud and rain colours are in range.", "quantifier": "all files that are read, all cells, models, zoom levels and values", "why_tests_cant": "Grids may have up to 2^32 - 1 columns and rows; tests use small ones.", "anchors": ["src/geo/grid/lat_lon_grid.rs", "src/grib2/converter/regular_grid_converter.rs", "src/meteo_common/meteo_forecast_model.rs", "src/map_tile/map_tile_coord.rs"]}
{"id": "C140", "title": "Pictures are the same in the release build", "statement": "Creating a picture and drawing a point have the same effect without overflow checks as with: different points of a picture are different places in its memory, and sizes that are too large are refused by a panic. (False: every picture of 2^30 points or more is refused with checks and created without them; then either no point of it can be drawn or two points are the same place. True for all smaller pictures.)", "quantifier": "all sizes, points and colours", "why_tests_cant": "Sizes beyond 2^30 points are needed; unit tests run with overflow checks.", "anchors": ["src/imaging/drawable.rs"]}
{"id": "C141", "title": "Calling the program again changes nothing", "statement": "Two successful calls of the program with the same options, while the servers give the same answers, leave the same files with the same contents, whatever the threads did and whichever directories existed; a second call after the first changes no file.", "quantifier": "all answers of the servers, models, variables and steps selected, schedules of the threads, contents of the disk before", "why_tests_cant": "Quantifies over all interleavings of two concurrent runs and over all servers.", "anchors": ["src/main.rs", "src/dwd/dwd_forecast_renderer/dwd_icon_forecast_renderer.rs", "src/meteo_swiss/forecast_renderer/icon_ch1_forecast_renderer.rs"]}
{"id": "C142", "title": "Calls can be split by steps and by variables", "statement": "A call for some steps (or variables) and one for others leave exactly the files of a single call for all of them, in either order; the single call can succeed exactly if both parts can; a call with narrower options changes nothing after a successful one.", "quantifier": "all non-empty lists of steps and of variables, overlapping ones too, all servers, models, schedules and disks", "why_tests_cant": "A relation between three runs with arbitrary options.", "anchors": ["src/main.rs", "src/dwd/dwd_forecast_renderer/dwd_icon_forecast_renderer.rs", "src/meteo_swiss/forecast_renderer/icon_ch1_forecast_renderer.rs"]}
{"id": "C143", "title": "An interrupted call can be resumed", "statement": "After a call that ended in any way, with an error or a panic too, a later successful call leaves exactly the files that it would have left alone, provided that everything that could be read before can be read still; all files that the interrupted call wrote are already the final ones.", "quantifier": "all failures at any point, all servers before and after, models, options, schedules and disks", "why_tests_cant": "The files present after a failure depend on the schedule and on which download failed.", "anchors": ["src/main.rs", "src/dwd/dwd_forecast_renderer/dwd_icon_forecast_renderer.rs", "src/meteo_swiss/forecast_renderer/icon_ch1_forecast_renderer.rs"]}
{"id": "C144", "title": "Answers of the web service are understood exactly if they have the right form", "statement": "A JSON value is accepted as the list of constant files, or as the answer to a search, exactly if it has each of the expected members once and with the expected types (or is the array of them), and the result has exactly these contents; of links of the same name the last one counts; decoding never panics.", "quantifier": "all JSON values, of any depth and with any members", "why_tests_cant": "JSON values are unbounded trees; a test sees a few answers.", "anchors": ["src/meteo_swiss/data_geo_admin_ch/icon_ch_assets_response.rs", "src/meteo_swiss/data_geo_admin_ch/icon_ch_forecast_response.rs"]}
{"id": "C145", "title": "Other members and their order do not matter in answers", "statement": "Answers that agree in the members that the program looks for, in any order and with any other members, are understood as the same; named links may come in any order.", "quantifier": "all pairs of JSON objects that agree in the expected members", "why_tests_cant": "Relates two arbitrary answers.", "anchors": ["src/meteo_swiss/data_geo_admin_ch/icon_ch_assets_response.rs", "src/meteo_swiss/data_geo_admin_ch/icon_ch_forecast_response.rs"]}
{"id": "C146", "title": "The answers determine what is downloaded", "statement": "Whenever the servers give the same answers, the program does the same: the answers alone determine which files are downloaded and what is written.", "quantifier": "all answers of the servers, all models and options; all orders in which hash maps are iterated", "why_tests_cant": "The order of a hash map is random; a test sees one order at a time.", "anchors": ["src/meteo_swiss/data_geo_admin_ch/icon_ch_assets_response.rs", "src/meteo_swiss/data_geo_admin_ch/icon_ch_forecast_response.rs", "src/meteo_swiss/data_geo_admin_ch/icon_ch_assets_service.rs", "src/meteo_swiss/data_geo_admin_ch/icon_ch_forecast_search_service.rs"]}
{"id": "C147", "title": "Catalogues are found through their JSON descriptions", "statement": "If a server answers each search with JSON descriptions, in whatever form, of the files of its catalogue that match, with one link each, then the program finds exactly the files of the variable and the run, and the newest run; the list of constant files is found as described.", "quantifier": "all catalogues, all JSON forms of the descriptions, variables and reference times", "why_tests_cant": "Quantifies over all servers and all their representations.", "anchors": ["src/meteo_swiss/data_geo_admin_ch/icon_ch_assets_response.rs", "src/meteo_swiss/data_geo_admin_ch/icon_ch_forecast_response.rs", "src/meteo_swiss/data_geo_admin_ch/icon_ch_assets_service.rs", "src/meteo_swiss/data_geo_admin_ch/icon_ch_forecast_search_service.rs"]}
{"id": "C148", "title": "An entry that is not understood does not hide the others", "statement": "The program can use the entries of an answer that it understands; an entry that lacks something does not hide the others.", "quantifier": "all answers with any number of entries, all options", "why_tests_cant": "The failure depends on one entry among arbitrarily many.", "anchors": ["src/meteo_swiss/data_geo_admin_ch/icon_ch_assets_response.rs", "src/meteo_swiss/data_geo_admin_ch/icon_ch_forecast_response.rs", "src/meteo_swiss/data_geo_admin_ch/icon_ch_assets_service.rs", "src/meteo_swiss/data_geo_admin_ch/icon_ch_forecast_search_service.rs"]}
{"id": "C149", "title": "All files of a variable are found, also over several pages", "statement": "If the server gives its answers in pages, all files of a variable are found.", "quantifier": "all catalogues, page sizes, variables and reference times", "why_tests_cant": "Depends on the number of files in relation to the page size of the server.", "anchors": ["src/meteo_swiss/data_geo_admin_ch/icon_ch_assets_response.rs", "src/meteo_swiss/data_geo_admin_ch/icon_ch_forecast_response.rs", "src/meteo_swiss/data_geo_admin_ch/icon_ch_assets_service.rs", "src/meteo_swiss/data_geo_admin_ch/icon_ch_forecast_search_service.rs"]}
{"id": "C150", "title": "From the catalogue to the weather file and the temperature tiles", "statement": "After a successful call for ICON-CH1, the weather file of the newest run and of each selected hour after the first gives in each cell the class of the cloud cover and the ceiling that the catalogue's files of this run and hour have for the nearest point, and the temperature tiles show at each pixel the temperature that the file of this run and hour has for the point nearest to the cell where the pixel is looked up (C125).", "quantifier": "all catalogues with the hours 0, 1, ... of the fields, all contents, selections, schedules, tiles and pixels", "why_tests_cant": "No test goes from the answer of the server to the files and pictures.", "anchors": ["src/main.rs", "src/meteo_swiss/forecast_renderer/icon_ch1_forecast_renderer.rs", "src/meteo_swiss/data_geo_admin_ch/icon_ch_forecast_search_service.rs", "src/metobin/weather_metobin.rs", "src/meteo_chart/forecast_renderer/temp_2m_chart_renderer.rs"]}
{"id": "C151", "title": "From the catalogue to the wind file and the wind tiles", "statement": "After a successful call for ICON-CH1, the wind file of the newest run and of each selected hour gives in each cell the components and the gusts that the catalogue's files of this run and hour have for the nearest point, and the wind tiles show the speed.", "quantifier": "all catalogues with the hours 0, 1, ... of the fields, all contents, selections, schedules, tiles and pixels", "why_tests_cant": "No test goes from the answer of the server to the files and pictures; the value that is lost is one of very many.", "anchors": ["src/main.rs", "src/meteo_swiss/forecast_renderer/icon_ch1_forecast_renderer.rs", "src/meteo_swiss/data_geo_admin_ch/icon_ch_forecast_search_service.rs", "src/metobin/wind_metobin.rs", "src/meteo_chart/forecast_renderer/wind_10m_chart_renderer.rs"]}
{"id": "C152", "title": "From the catalogue to the clouds", "statement": "After a successful call for ICON-CH1, the file of vertical clouds of the newest run and of each selected hour gives for each cell and level the height and the cloud cover that the files have for the nearest point, and the tiles of clouds and precipitation show the cloud cover and the precipitation of the hour before.", "quantifier": "all catalogues with the hours 0, 1, ... of the fields, all contents, selections, schedules, tiles and pixels", "why_tests_cant": "No test goes from the answer of the server to the files and pictures; a clear sky and missing data look plausible in every sample.", "anchors": ["src/main.rs", "src/meteo_swiss/forecast_renderer/icon_ch1_forecast_renderer.rs", "src/meteo_swiss/data_geo_admin_ch/icon_ch_forecast_search_service.rs", "src/metobin/vertical_cloud_metobin.rs", "src/meteo_chart/forecast_renderer/cloud_precip_chart_renderer.rs"]}
{"id": "C153", "title": "A call writes files of the model that was asked for", "statement": "Whatever a call of the program writes lies below the directory of a single run, ./output/<model>/<date><hour>/, and the model is the one named on the command line; a call for an unknown model writes nothing.", "quantifier": "all environments (servers, clocks, existing directories), model names, selections, schedules and outcomes", "why_tests_cant": "The run that is written depends on what the server has at the moment of the call; tests do not call the program.", "anchors": ["src/main.rs", "src/dwd/dwd_forecast_renderer/dwd_icon_forecast_renderer.rs", "src/dwd/dwd_forecast_renderer/dwd_icon_forecast_run_finder.rs", "src/meteo_common/meteo_forecast_renderer_helper.rs"]}
{"id": "C154", "title": "From the server of DWD to the files of a call", "statement": "After a successful call for a model of DWD of which a run of today is complete, the files of temperature, precipitation, weather and winds at heights, and the tiles of temperature, of every selected step in the directory of the newest complete run of today show the values that the messages of this run and step on the server have at each grid point.", "quantifier": "all servers, complete runs, contents of the messages, selections, schedules, steps, cells, tiles and pixels", "why_tests_cant": "No test goes from the server to the files, and which run is read depends on the time of day.", "anchors": ["src/main.rs", "src/dwd/dwd_forecast_renderer/dwd_icon_forecast_renderer.rs", "src/dwd/dwd_forecast_renderer/dwd_icon_forecast_run_finder.rs", "src/meteo_common/meteo_forecast_renderer_helper.rs"]}
{"id": "C155", "title": "An unstructured grid and the regular grid made of it give the same values", "statement": "At every position, an unstructured value grid gives the same value as the regular grid that is made of it; a position without data has no value in either.", "quantifier": "all grids, values, missing values and positions (for the grid with three neighbours: wherever the regular grid can be made)", "why_tests_cant": "All positions and grids; the two lookups go through different code, and missing values are only filtered in one.", "anchors": ["src/geo/grid/unstructured_value_grid.rs", "src/geo/grid/unstructured_value_grid1.rs", "src/geo/grid/lat_lon_value_grid.rs"]}
{"id": "C156", "title": "Neighbours without value do not count", "statement": "In the grid with three neighbours, a cell shows the average of those neighbours that have a value, weighted by the distances, up to rounding; if none has a value, the cell has none.", "quantifier": "all cells, distances, values and patterns of missing neighbours", "why_tests_cant": "Rounding errors and all patterns of missing neighbours; no test has a missing neighbour.", "anchors": ["src/geo/grid/unstructured_value_grid1.rs", "src/geo/grid/coord_dist_triple.rs"]}
{"id": "C157", "title": "The middle of an area", "statement": "The middle of an area of finite coordinates lies between its corners in latitude and longitude and differs from the exact middle by at most rounding.", "quantifier": "all areas of finite coordinates up to 2^126", "why_tests_cant": "Two roundings for all pairs of floats; the tests have one area.", "anchors": ["src/geo/common/lat_lon_extent.rs: calc_midpoint"]}
{"id": "C158", "title": "Which texts are horizons", "statement": "A text is accepted as a horizon exactly if it is a P, a number below 256, any number of D, a T, a number below 256, an H and a rest without T, with a D somewhere after the P; days and hours are those numbers. No text makes reading panic.", "quantifier": "all texts and horizons", "why_tests_cant": "All texts of any length; the tests read a few well-formed ones and none of the loose forms that are accepted too.", "anchors": ["src/meteo_swiss/forecast_run/icon_ch_forecast_horizon.rs: from_str"]}
{"id": "C159", "title": "Tiles of different zoom levels fit together", "statement": "The tile of a position is the parent of its tile at the next zoom level, and the corner of a tile is exactly the corner of the first of its four children. With each tile that is drawn its parent is drawn and at least one of its children, as far as the zoom levels go.", "quantifier": "all positions, zoom levels, areas and schedules, as long as the tile numbers are in range", "why_tests_cant": "Exact equalities between floating point computations of different scale, for all positions and schedules; the tests compare single tiles of one level.", "anchors": ["src/map_tile/map_tile_coord.rs: from_position", "src/map_tile/map_tile_coord.rs: to_position", "src/map_tile/map_tile_renderer.rs"]}
{"id": "C160", "title": "The command line is understood as written", "statement": "A command line is accepted exactly if it consists of the options model (once, one value), variables and steps (any number of times, one or more values each), by long or short name, with values behind them or attached; only the values given for each option count, in their order, not how or where the options are written. A line that asks for help or the version after options that are not wrong writes nothing and ends with status 0; any other line that is not accepted writes nothing and ends with status 2; an accepted one acts as described elsewhere.", "quantifier": "all lists of arguments and all environments", "why_tests_cant": "All lists of arguments of any length, in any order and notation; there is no test of the command line.", "anchors": ["src/main.rs: Args", "src/main.rs: main", "Cargo.toml: clap"]}
{"id": "C161", "title": "Order and repetition of names and steps do not matter", "statement": "What a call does depends only on which variable names and which step numbers are given, not on their order, on repetitions or on how they are spread over the command line: two accepted command lines with the same model, the same set of names and the same set of numbers have the same effects and the same status.", "quantifier": "all environments, models, lists of names and numbers, and command lines", "why_tests_cant": "All lists of any length; the tests call no renderer with a list of names or steps.", "anchors": ["src/main.rs: main", "src/meteo_common/meteo_forecast_renderer_helper.rs"]}
{"id": "C162", "title": "Step numbers that do not exist", "statement": "Step numbers that a model does not have are reported. (False: a DWD call with only such numbers does nothing and succeeds with status 0. What holds: beside others they have no influence.)", "quantifier": "all environments, names and lists of numbers", "why_tests_cant": "Quantifies over all lists of numbers and all environments; the tests give no step numbers to a renderer.", "anchors": ["src/main.rs: main", "src/meteo_common/meteo_forecast_renderer_helper.rs"]}
{"id": "C163", "title": "A call writes only below the output directory", "statement": "Whatever the servers answer and whatever the command line says, every file a call writes lies below the output directory of one of the three models, with a plain name in every part of the path; all other files stay as they are.", "quantifier": "all environments, command lines, executions and file systems", "why_tests_cant": "All answers of all servers, including malicious ones; the tests write fixed paths.", "anchors": ["src/main.rs: main", "src/meteo_common/meteo_forecast_renderer_helper.rs"]}
{"id": "C164", "title": "A DWD call depends on the server of DWD only", "statement": "Two environments in which the server of DWD, the clock and the existing directories are the same give the same effects for a call for icon-d2 or icon-eu: neither local files nor any other server play a role.", "quantifier": "all pairs of environments, all lists of names and numbers", "why_tests_cant": "A statement about pairs of environments (non-interference); a test sees one environment.", "anchors": ["src/dwd/dwd_file_reader/dwd_icon_file.rs", "src/grib2/converter/file_to_grid_converter.rs", "src/main.rs: main"]}
{"id": "C165", "title": "Local files play no role", "statement": "What a call for icon-ch1 does, does not depend on the contents of local files. (False: a link in the answer of the web service that does not begin like a web address is opened as a local file. What holds: while all links are web addresses, local files play no role.)", "quantifier": "all environments, names and numbers, all contents of local files", "why_tests_cant": "A statement about pairs of environments (non-interference); a test sees one environment.", "anchors": ["src/grib2/converter/file_to_grid_converter.rs", "src/system/file_helper.rs", "src/main.rs: main"]}
{"id": "C166", "title": "Calls can run at the same time", "statement": "Any number of calls, for any models, at any times and in any mixture of their writes, leave the same files as the same calls one after the other, as long as what is published under a name does not change and the answers about a run stay the same; in particular no call overwrites a file of another call with something different.", "quantifier": "all lists of calls, environments, executions and mixtures of their writes", "why_tests_cant": "All interleavings of any number of processes; a test runs one call.", "anchors": ["src/main.rs: main", "src/meteo_common/meteo_forecast_renderer_helper.rs", "src/dwd/dwd_forecast_renderer/dwd_icon_forecast_run_finder.rs", "src/meteo_swiss/forecast_renderer/icon_ch1_forecast_renderer.rs"]}
{"id": "C167", "title": "Files of a run stay the same while it is being published", "statement": "What a call for icon-ch1 has written of a run stays the same in later calls while further hours of the run are published. (False: steps are numbered by their position in the answer, so if an hour is published before an earlier one, the file of a step is overwritten with another hour. What holds: as long as the hours appear in their order, files stay the same.)", "quantifier": "all pairs of catalogues of which one contains the other, all command lines and executions", "why_tests_cant": "Quantifies over all states of publication; the tests have no catalogue that grows.", "anchors": ["src/meteo_swiss/forecast_renderer/icon_ch1_forecast_renderer.rs", "src/meteo_swiss/data_geo_admin_ch/icon_ch_forecast_search_service.rs"]}
{"id": "C168", "title": "Hourly precipitation adds up", "statement": "The precipitation files of consecutive hours, summed up at a grid point (a unit is half a millimetre), give the growth of the published total over these hours, to within 0.252 mm below and 0.302 mm above for each hour; where the total did not grow all of them are zero. Required: totals that do not decrease, at most 1000 mm in all and 126 mm in an hour.", "quantifier": "all successful calls (DWD) and runs (MeteoSwiss), all ranges of hours, all published totals", "why_tests_cant": "Relates several files of one call over any number of hours to published totals; tests look at one layer at a time.", "anchors": ["src/meteo_chart/meteo_layer/meteo_cloud_precip_layer.rs", "src/metobin/precip_metobin.rs", "src/dwd/dwd_file_reader/dwd_icon_cloud_precip_reader.rs"]}
{"id": "C169", "title": "Unknown precipitation is marked as unknown", "statement": "Where one of the two totals of an hour is missing, the precipitation file of this hour says that the precipitation is unknown (255). (False for the code: a missing total counts as 0. If the later total is missing, no precipitation is reported; if the earlier one is, all the precipitation since the start of the run is reported for this one hour.)", "quantifier": "all successful calls (DWD) and runs (MeteoSwiss), all published totals, all grid points", "why_tests_cant": "Holds for all combinations of bitmaps of two messages and all calls; a test looks at one.", "anchors": ["src/meteo_chart/meteo_layer/meteo_cloud_precip_layer.rs", "src/metobin/precip_metobin.rs"]}
{"id": "C170", "title": "The program asks for the files by the names of the DWD server", "statement": "For every run, variable, step and level, the URL follows the one scheme by which DWD names its files: server, model, run, directory of the quantity, and a file name of model, area, grid, kind of level, date with run, step with three digits, level, and the quantity, in lower case (with 2d for single levels) for ICON-D2 and in upper case for ICON-EU. Directory and file name agree on the quantity and on the run.", "quantifier": "all runs of both models, all twelve quantities, all steps and levels", "why_tests_cant": "Twelve readers with tables of their own; a test checks one step of one reader.", "anchors": ["src/dwd/dwd_file_reader/dwd_icon_file.rs", "src/dwd/dwd_file_reader/dwd_icon_clct_mod_reader.rs", "src/dwd/dwd_file_reader/dwd_icon_hhl_reader.rs", "src/dwd/dwd_file_reader/dwd_icon_clc_reader.rs"]}
{"id": "C171", "title": "Each byte of a data file depends on one grid point of a few fields only", "statement": "Two successful calls (any days, any selections of variables and steps, any other published data) write the same byte for a grid point if the few published fields of which this byte is made have the same packed value at this one point (or are both missing there): the temperature byte depends on the temperature, the precipitation byte on the two totals of the hour, the weather byte on weather code and cloud cover, the ceiling byte on the ceiling, the wind bytes on the two wind components (the third also on gusts), and each byte of a level in the vertical files on the fields of exactly this level. For MeteoSwiss the point is the one that the cell shows.", "quantifier": "all pairs of successful calls of a DWD model, all pairs of MeteoSwiss runs with the same horizontal constants, all published fields, all points and bytes", "why_tests_cant": "A relation between two runs on any data: a test compares two chosen data sets, and cannot see that a byte never depends on any of the other points or fields.", "anchors": ["src/metobin/temp_metobin.rs", "src/metobin/precip_metobin.rs", "src/metobin/weather_metobin.rs", "src/metobin/wind_metobin.rs", "src/metobin/vertical_cloud_metobin.rs", "src/metobin/vertical_wind_metobin.rs"]}
{"id": "C172", "title": "The bytes of a file are ordered like the published numbers", "statement": "If the numbers published for one grid point are at most those for another, for all the fields of which a byte of a data file is made (for precipitation: the later total at most, the earlier one at least), then the byte written for the first point is at most the byte written for the second, so that the file never shows the colder, drier or calmer of two points as the warmer, wetter or windier. This covers temperature, hourly precipitation, cloud cover where there is no significant weather, ceiling, wind components, gusts, heights of levels (from 31 m), cloud cover of levels (from 1.01 %) and wind of levels; numbers that the code takes for a missing value (within 0.001 of -1) are excluded.", "quantifier": "all successful calls of the DWD models and all MeteoSwiss runs, all published fields with the usual packing, all pairs of points, all bytes", "why_tests_cant": "Rounding, saturation and the mark 255 for missing values could each break the order for some pair of numbers only; a test tries a few pairs.", "anchors": ["src/metobin/temp_metobin.rs", "src/metobin/precip_metobin.rs", "src/metobin/weather_metobin.rs", "src/metobin/wind_metobin.rs", "src/metobin/vertical_cloud_metobin.rs", "src/metobin/vertical_wind_metobin.rs"]}
{"id": "C173", "title": "A call that ends with status 0 has stored its files", "statement": "If a call ends without an error, all its files are completely on the disk; if a directory or file cannot be created, or a file cannot be written completely, the call ends with a status other than 0. Whatever happens, no file outside the files of this call is touched.", "quantifier": "all calls (environment, model, variables, steps), all disks (for every file: stored, cut off with any contents left, file not creatable, directory not creatable), all interleavings", "why_tests_cant": "A full or failing disk cannot be produced in a unit test for every file of a call; ignored results (`let _ =`) are invisible to tests on a healthy disk.", "anchors": ["src/metobin/temp_metobin.rs", "src/metobin/vertical_cloud_metobin.rs", "src/metobin/vertical_wind_metobin.rs", "src/meteo_chart/forecast_renderer/map_tile_file_helper.rs", "src/meteo_chart/forecast_renderer/vertical_clouds_forecast_renderer.rs", "src/main.rs"]}
{"id": "C174", "title": "Reading a small file takes little memory", "statement": "The memory that reading a GRIB2 or NetCDF file takes is in proportion to the size of the file: all buffers created while reading, and the values of the fields read, together are at most a fixed multiple of the bytes of the file, whatever the file contains.", "quantifier": "all byte strings as files (well-formed, damaged or made up), all lists of variable names, all transformations of values", "why_tests_cant": "The sizes of buffers come from 32-bit lengths in the file; a test covers a few files, and memory is not visible in its results.", "anchors": ["src/grib2/common/byte_reader.rs", "src/grib2/common/string_reader.rs", "src/grib2/section7/section7_reader.rs", "src/grib2/document/grib2_document.rs", "src/grib2/document/grib2_document_reader.rs", "src/netcdf/common/netcdf_values_reader.rs", "src/netcdf/data/netcdf_data_reader.rs"]}
{"id": "C175", "title": "Each pixel of a tile shows the same points of every field, in colours that are the same everywhere", "statement": "On map tiles of temperature and wind, each pixel has the colour of the number(s) published for one grid point, or is transparent where there is no point or no number. The table of colours is one for all models, runs, hours, zoom levels and places (it is not scaled to the picture), and which point a pixel shows depends on the tile, the pixel and the grid only, never on the data, the hour or the day. A pixel of a cloud and precipitation tile depends on the cloud cover and the two totals at no more than four points, which likewise are fixed by tile, pixel and grid. So if two fields agree at the points of a pixel, the pixel is the same.", "quantifier": "all worlds, runs, selections, hours, fields and tiles; all grids of DWD and all lists of points of MeteoSwiss; any functions of the platform for tan, cos, ln, sinh, atan", "why_tests_cant": "A test compares a few pixels; that nothing else enters (other points, other hours, the range of the values) is a claim about all fields.", "anchors": ["src/imaging/drawable.rs", "src/map_tile/map_tile_renderer.rs", "src/geo/grid/lat_lon_value_grid.rs", "src/geo/grid/lat_lon_value_grid_interpolator.rs", "src/meteo_chart/forecast_renderer/temp_2m_chart_renderer.rs", "src/meteo_chart/forecast_renderer/wind_10m_chart_renderer.rs", "src/meteo_chart/forecast_renderer/cloud_precip_chart_renderer.rs"]}
{"id": "C176", "title": "Downloads that fail or break off never lead to wrong files", "statement": "If during a call requests for forecast files fail, break off in the middle or deliver something else (each request in its own way, even for the same file), then the call still ends, every file that it writes is exactly the file that a call with a working network writes, a call that ends successfully is one that a working network could have produced, and it panics only if it could with a working network too. Calling again until a call succeeds leaves the same files as if no call had failed.", "quantifier": "all models, selections, worlds, networks and executions; each request is answered with nothing, the file, any part of it (after unpacking), or anything that does not begin with a readable message", "why_tests_cant": "Which requests fail and where transfers break off is not under the control of a test, and there are far too many combinations.", "anchors": ["src/system/file_helper.rs", "src/grib2/converter/file_to_grid_converter.rs", "src/grib2/document/grib2_document_reader.rs", "src/meteo_swiss/file_reader/icon_ch_hhl_reader.rs", "src/meteo_swiss/file_reader/icon_ch_clc_reader.rs", "src/dwd/dwd_forecast_renderer/dwd_icon_forecast_renderer.rs", "src/meteo_swiss/forecast_renderer/icon_ch1_forecast_renderer.rs"]}
{"id": "C177", "title": "A call writes each file once", "statement": "During a call no file is written twice, whatever is published, in whatever order the steps and tiles are made, however requests are answered and however the call ends. A file that has been written is therefore final: nothing that happens later in the call changes it. A successful call writes exactly as many times as there are files to make, and two successful calls that find the same write the same files equally often.", "quantifier": "all models, selections, environments, networks, executions and outcomes", "why_tests_cant": "Steps and tiles are written by threads in parallel; a file written twice would differ from the final one only for moments that a test does not see, and only in some orders.", "anchors": ["src/meteo_chart/forecast_renderer/map_tile_file_helper.rs", "src/map_tile/map_tile_renderer.rs", "src/meteo_chart/forecast_renderer/cloud_precip_forecast_renderer.rs", "src/meteo_chart/forecast_renderer/wind_10m_forecast_renderer.rs", "src/metobin/precip_metobin.rs", "src/metobin/weather_metobin.rs", "src/dwd/dwd_forecast_renderer/dwd_icon_forecast_renderer.rs", "src/meteo_swiss/forecast_renderer/icon_ch1_forecast_renderer.rs"]}
{"id": "C178", "title": "Charts and data files agree", "statement": "The charts of temperature and wind and the data files that a call writes for the same step do not contradict each other. Each pixel of each tile belongs to one cell of the grid of the data file, the one next to its position, or is outside the grid and empty. The temperature in the cell, which the file gives in half degrees, lies in the class of the colour of the pixel or on its boundary. The speed computed from the two components in the cell, which the file gives in whole knots, lies in the class of the colour up to 0.75 knots, unless a component is beyond what the file can hold. A pixel of the wind chart is empty exactly where the file has no wind; where the temperature chart is empty the file has the byte for no value, and a pixel is coloured wherever the file has another byte.", "quantifier": "all models, selections, environments, networks, executions, outcomes, steps, tiles and pixels", "why_tests_cant": "The two are computed from the same numbers in different ways: one by thresholds in Kelvin or metres per second, the other by rounding to bytes of other units. Agreement is needed for all numbers, tiles and grids, and also if the call breaks off and if the network answers differently each time.", "anchors": ["src/meteo_chart/forecast_renderer/temp_2m_forecast_renderer.rs", "src/meteo_chart/forecast_renderer/wind_10m_forecast_renderer.rs", "src/meteo_chart/forecast_renderer/temp_2m_chart_renderer.rs", "src/meteo_chart/forecast_renderer/wind_10m_chart_renderer.rs", "src/metobin/temp_metobin.rs", "src/metobin/wind_metobin.rs", "src/map_tile/map_tile_renderer.rs"]}
{"id": "C179", "title": "A call requests what it needs, and no more", "statement": "A call for a DWD model first asks, for the runs of the day, whether files are there: each file at most once and no more than 80 questions. Then it downloads: only files of the run found, of the chosen variables and of the chosen hours, each file at most once, except cloud cover and precipitation, which are fetched at most twice; heights of the levels once, and only if a vertical variable is chosen. If the call succeeds, each of these downloads has been made, 12370 for all of ICON-EU and 6292 for all of ICON-D2. A call for ICON-CH1 asks the service once for the constants, once for the newest run and once for the list of each variable, and downloads from the lists the files of the chosen hours, and the constants. In both cases a file is not written before everything that it shows has been requested. With its requests recorded, the program writes exactly what it writes without.", "quantifier": "all networks, environments, selections of variables and hours, executions with any interleaving of the steps and levels, and outcomes", "why_tests_cant": "Steps and levels run in parallel, so requests and writes of a call interleave in any order, and a call may break off anywhere. Tests replace the network or do not look at how often and when it is used; that no execution requests a file a third time or writes before reading is a statement about all interleavings.", "anchors": ["src/dwd/dwd_forecast_renderer/dwd_icon_forecast_run_finder.rs", "src/dwd/dwd_forecast_renderer/dwd_icon_forecast_renderer.rs", "src/dwd/dwd_file_reader/dwd_icon_cloud_precip_reader.rs", "src/dwd/dwd_file_reader/dwd_icon_weather_reader.rs", "src/dwd/dwd_file_reader/dwd_icon_hhl_reader.rs", "src/dwd/dwd_file_reader/dwd_icon_clc_reader.rs", "src/meteo_swiss/forecast_renderer/icon_ch1_forecast_renderer.rs", "src/meteo_swiss/file_reader/icon_ch_cloud_precip_reader.rs", "src/meteo_chart/forecast_renderer/cloud_precip_forecast_renderer.rs", "src/system/file_helper.rs"]}
{"id": "C180", "title": "Only the grid and the unpacked values of a file matter", "statement": "If every file that a call may read is replaced by one with the same number of messages, each for the same grid (number of points, dimensions and corners) and the same value or gap at each point, the call writes exactly the same files and ends in the same way. It does not matter how the values are packed (reference value, scale factors, bitmap with or without padding bits), nor what else the messages say.", "quantifier": "all environments, models, selections of variables and hours, executions, and all pairs of servers and disks related in this way, with any number of messages and points", "why_tests_cant": "Changing the packing of a file changes all its bytes. A test compares two files; that no combination of reference value, scale factors, bitmap and labels in any of thousands of files has an influence is a statement about all pairs of worlds.", "anchors": ["src/grib2/document/grib2_document.rs", "src/grib2/converter/regular_grid_converter.rs", "src/grib2/converter/file_to_grid_converter.rs", "src/grib2/converter/grib2_to_grid_converter.rs", "src/meteo_swiss/file_reader/icon_ch_hor_const_reader.rs", "src/main.rs"]}
{"id": "C181", "title": "A file about another parameter or time is refused", "statement": "If a call succeeds, the messages in the files that it used are, by their own account, for the day of the run. (False for the code: the identification and product sections are read and never looked at; whatever parameter, level, run and hour the messages name, the call writes the same files.)", "quantifier": "all environments, calls and labels of messages", "why_tests_cant": "That nothing in the program ever depends on a label is a statement about all labels and all executions.", "anchors": ["src/grib2/section1/section1.rs", "src/grib2/section4/section4.rs", "src/grib2/converter/file_to_grid_converter.rs", "src/dwd/dwd_forecast_renderer/dwd_icon_forecast_renderer.rs"]}
{"id": "C182", "title": "A call that prints nothing and ends with status 0 has done everything", "statement": "If a call of the program ends with status 0 and prints nothing on the standard output, its arguments were proper, its model is known, a run was found, and for every selected variable and every selected hour the data were read and drawn and all charts and data files made of them were written. Conversely a successful call for a known model prints nothing; after an error a line names the model; an unknown model is named and nothing is written.", "quantifier": "all command lines, environments and executions", "why_tests_cant": "The exit status is 0 after errors as well. That no error in any download, file, or parallel task is lost on the way to the only place where it is told is a statement about all failures in all executions.", "anchors": ["src/main.rs", "src/dwd/dwd_forecast_renderer/dwd_icon_forecast_renderer.rs", "src/meteo_swiss/forecast_renderer/icon_ch1_forecast_renderer.rs"]}
{"id": "C183", "title": "Data files do not depend on the machine", "statement": "If two machines call the program for the same model, variables and steps while the servers deliver the same, and the newest run is the same, their data files are equal byte for byte, whatever mathematical functions the platforms have, whichever directories exist and whatever the clocks say. This holds for each file that both have written, however the calls end, and for the whole set of data files if both succeed. Pictures can differ only if the mathematical functions place tile rows differently.", "quantifier": "all pairs of environments with the same servers (arbitrary libraries of mathematical functions, clocks and directories), all selections, executions and outcomes", "why_tests_cant": "The results of tan, cos, ln, sinh and atan are not specified by Rust. No test on one machine can show what happens with the library of another.", "anchors": ["src/map_tile/map_tile_coord.rs", "src/metobin/temp_metobin.rs", "src/metobin/wind_metobin.rs", "src/metobin/precip_metobin.rs", "src/metobin/weather_metobin.rs", "src/metobin/vertical_cloud_metobin.rs", "src/metobin/vertical_wind_metobin.rs", "src/main.rs"]}
{"id": "C184", "title": "Several variables in one call are like one call for each", "statement": "What a call for several variables can write, in which order, and how it can end, is exactly what separate calls for the single variables can write and how they can end, if these are made one after another in the order clouds with precipitation, wind, temperature, vertical clouds, vertical wind, up to the first that does not succeed. The order in which the user names the variables does not matter.", "quantifier": "all models, environments, selections of variables and steps, executions and outcomes", "why_tests_cant": "The program shares work between variables (the run, the constants, the heights of levels), and a test sees a few combinations of variables, on servers where most things go well.", "anchors": ["src/dwd/dwd_forecast_renderer/dwd_icon_forecast_renderer.rs", "src/meteo_swiss/forecast_renderer/icon_ch1_forecast_renderer.rs", "src/main.rs"]}
{"id": "C185", "title": "A variable that cannot be rendered does not affect the other variables", "statement": "If one of the variables of a call cannot be rendered, for example because one of its files is missing on the server, the other variables of the call are rendered all the same. This is false: the call stops at the first variable that fails. What holds: the variables before it are complete, and nothing is written for the variables after it.", "quantifier": "all models, environments, selections, executions and outcomes; the counterexample is about all executions of two calls", "why_tests_cant": "It takes a server that lacks a particular file, and the failing variable must not be the last.", "anchors": ["src/dwd/dwd_forecast_renderer/dwd_icon_forecast_renderer.rs", "src/meteo_swiss/forecast_renderer/icon_ch1_forecast_renderer.rs", "src/main.rs"]}
{"id": "C186", "title": "The same call under the same circumstances gives the same result", "statement": "Two executions of the same call, with the same answers of the servers, end alike and leave the same files, whatever the threads do. This holds if one of them succeeds: then all executions succeed and write the same files. It is false for calls that fail: which of the steps that could be rendered have been written is a matter of chance. But a file that two executions both write is the same in both.", "quantifier": "all models, environments, selections, pairs of executions and outcomes", "why_tests_cant": "It is about all ways in which threads can be scheduled. A test sees one schedule in each run.", "anchors": ["src/meteo_chart/forecast_renderer/temp_2m_forecast_renderer.rs", "src/meteo_chart/forecast_renderer/wind_10m_forecast_renderer.rs", "src/meteo_chart/forecast_renderer/cloud_precip_forecast_renderer.rs", "src/meteo_chart/forecast_renderer/vertical_clouds_forecast_renderer.rs", "src/meteo_chart/forecast_renderer/vertical_wind_forecast_renderer.rs", "src/main.rs"]}
{"id": "C187", "title": "The tiles of a zoom level are parts of one picture", "statement": "Put side by side, the tiles of a zoom level give one picture: each column of it has one longitude and each row one latitude, the columns are equally spaced across the borders of tiles, each row is south of all rows above it, also across borders, and a pixel shows the colour of the value at the place of its row and column. No row is repeated or out of order and there are no gaps at the borders.", "quantifier": "all functions for sinh and atan that are accurate, zoom levels up to 10, fields, colours, tiles and pixels", "why_tests_cant": "A border shows up only between two tiles that are drawn independently, and the rows depend on rounding in single precision of steps that are hardly larger than its precision. There are a million tiles at level 10.", "anchors": ["src/map_tile/map_tile_renderer.rs", "src/map_tile/map_tile_coord.rs"]}
{"id": "C188", "title": "A call reports truthfully what it does", "statement": "With messages switched on, a call reports which run it has found, and for each variable that its rendering begins and that it is finished. Before the first file exactly one run, or one reference time, is reported as found, and all files lie in the directory of this run. Files are written only after the message that their variable begins and before any other message. The message that a variable is finished is given only after this variable has been begun and all of its files have been written, and every successful call gives it for each variable. This is false for the wind aloft: it is never reported as finished, and the clouds aloft are reported as finished in its place, even if they have not been asked for. It holds for the other variables.", "quantifier": "all models, environments, selections, executions and outcomes", "why_tests_cant": "It relates each message to everything that happened before it, in all executions including those that fail. A test sees the messages of one call, and nobody compares them with the files.", "anchors": ["src/dwd/dwd_forecast_renderer/dwd_icon_forecast_renderer.rs", "src/meteo_swiss/forecast_renderer/icon_ch1_forecast_renderer.rs", "src/main.rs"]}
{"id": "C189", "title": "A later call never goes back to an older run", "statement": "All files of a call lie in the directory of one run, and the run of a later call for the same model does not start before the run of an earlier call, also when days, months or years change between or during the calls. For DWD this needs that the clock does not go back and that the files found by the first call stay on the server until the day ends; for MeteoSwiss, that the service lists forecasts from old to new and still lists a run that is not older.", "quantifier": "all pairs of calls with any options, all sets of published files, dates and times", "why_tests_cant": "It compares two calls at different times, across midnight and with the fallback to the day before; a test has one clock and one set of files.", "anchors": ["src/dwd/dwd_forecast_renderer/dwd_icon_forecast_run_finder.rs", "src/meteo_swiss/data_geo_admin_ch/icon_ch_forecast_search_service.rs", "src/main.rs"]}
{"id": "C190", "title": "Before the first run of a day is complete, the newest complete run of the day before is rendered", "statement": "If none of today's runs of the chosen model is complete on the server, then the call renders the newest run of yesterday of that model that is complete, and if there is none, it fails.", "quantifier": "all sets of published files, all dates, both DWD models", "why_tests_cant": "It ranges over every set of files on the server and every date; with the usual delays the run of 21 UTC is complete by midnight, so a test on a live server passes.", "anchors": ["src/dwd/dwd_forecast_renderer/dwd_icon_forecast_run_finder.rs"]}
{"id": "C191", "title": "The same data gives the same files, whatever run, hour or model it is published for", "statement": "Two successful calls (of the same service, on any days and for any models of it) render two forecast hours. If the server has for one hour of one run the same data as for an hour of the other run, then the files of the two hours have the same content: whatever is written for one hour at its place is written for the other at its place, for each tile and data file that both models have. Neither the date, the name of the run, the hour nor the model gets into the content.", "quantifier": "all pairs of runs, hours, models, servers, choices of variables and hours, all files", "why_tests_cant": "It relates every two runs whose data agree; a test compares with one stored result and cannot see a dependence on the hour or the run that happens not to show at the chosen hour.", "anchors": ["src/dwd/dwd_forecast_renderer/dwd_icon_forecast_renderer.rs", "src/meteo_swiss/forecast_renderer/icon_ch1_forecast_renderer.rs", "src/metobin", "src/map_tile"]}
{"id": "C192", "title": "The text of a NetCDF header shows the values of an attribute in their order", "statement": "The text made of an attribute of a NetCDF file shows its values in the order of the file. (False for the code: for all kinds of numbers the values appear in reverse order, so that the text is right exactly if the list of shown numbers is the same backwards; proved in general. Characters and the numbers of the dimensions of a variable are shown in order. No information is lost: two files whose headers have the same text have the same header, if there are no line breaks in names and character values; without this condition the numbers of records and dimensions are the same.)", "quantifier": "all headers, attributes and lists of values of all six kinds, all ways of showing a floating-point number by one word", "why_tests_cant": "The code has no test of these texts; lists of one value, as most attributes have, look right, and so does any list that is the same backwards.", "anchors": ["src/netcdf/common/netcdf_values.rs", "src/netcdf/common/netcdf_value_type.rs", "src/netcdf/header/netcdf_magic.rs", "src/netcdf/header/netcdf_dim.rs", "src/netcdf/header/netcdf_attr.rs", "src/netcdf/header/netcdf_var.rs", "src/netcdf/header/netcdf_header.rs"]}
