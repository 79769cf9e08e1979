# DESIGN

Formal model of `opacopac/grib2_meteo_charts` (Rust, `/repo`) in Lean 4, and
machine-checked proofs of the properties in `properties.jsonl`.

## Layout

* `lean/Verif/Model/*`  - the model, function by function. Every definition cites
  the file and the lines in `/repo` it models and says where it simplifies.
* `lean/Verif/Spec/*`   - small specifications, written without the model's helpers
  (byte encoders for GRIB2/NetCDF, reference semantics, ...).
* `lean/Verif/Lemmas/*` - helper lemmas (floating point, lists, bytes).
* `lean/Verif/Props/*`  - the property theorems, named by property (`C37_file`, ...), each followed by a non-vacuity `example`.
* `seeded/LOG.jsonl`    - wrong versions of the model that were tried, and the theorems that failed on them.
  `declarations_rejected` is what Lean rejected; building stops at the first file with an error, so it is not complete.
  `theorems_failed` lists (at most 20) claim theorems that were rejected or whose proofs use a rejected declaration; the latter
  lose their proof, which does not by itself show that their statement is false of the edited model. Where no claim theorem uses
  the rejected declarations these are listed themselves. 48 older lines named a fixed claim theorem here regardless
  of the rejected declarations; they were recomputed from the recorded rejections and the dependencies of the proofs.
* `MANIFEST.json`       - the theorems of each property and its status.

## Modelling decisions

**Outcome.** `Res a = ok a | err | panic`. Rust `Result::Err` is `err`, every
panic (index out of bounds, `unwrap`, `panic!`, arithmetic overflow) is `panic`.
Arithmetic overflow is a panic as in a build with overflow checks (the default dev
profile; `Cargo.toml` does not override it). The release build of the `Dockerfile`, where arithmetic
wraps around, is modelled in `Model/Build.lean` and compared in C136-C140. A theorem that says "does not panic" therefore also
covers release builds, because no overflow happens on those inputs; a theorem that
exhibits a panic caused by overflow speaks about builds with overflow checks only.
Which error is returned is not modelled, only that one is.

**Streams.** A `Read` is the list of its remaining bytes. `read_exact` past the end is
an error and consumes everything (EOF and I/O errors are the same event: the stream ends).
NetCDF streams additionally have a position (seek). Reading the same file twice gives the same content (C176 drops this for downloads: `Model/Network.lean`). Levels of DWD files are read in sequence in the models before C179; `Model/Requests.lean` reads them in parallel and C179_writes shows that writes and successes are the same.

**Floating point.** `Fl = nan | ninf | pinf | fin q` with `q : Rat`. Every elementary
operation is the exact rational operation followed by `rnd`, IEEE-754
round-to-nearest-ties-to-even into binary32 (24 bit significand, exponents -149..104,
overflow to infinity, gradual underflow) or binary64; the square root is the correctly rounded one. This is a
computable definition; no hardware float is involved. It need not be trusted: `Spec/Ieee.lean` states IEEE 754 (formats,
`roundTiesToEven`, overflow threshold) in terms of bit patterns only, and `Conformance/Ieee.lean` proves that the data of the model are
exactly the values of the bit patterns (`values`), that every literal, conversion, sum, difference, product, quotient
and square root of the model is the exact real result rounded as stated there (`rounds`, `rounds_sqrt`, `ops32`, `ops64`),
that no other result is allowed by the statement (`unique`), and that `floor`, `ceil`, `round`, `%` and `f32 as f64`, which the model takes
as exact, indeed give data of the format (`isFl_floor`, ..., `convert64`). What remains trusted is that Rust's `f32` and `f64` are IEEE 754.
It was also compared with the `Float32` of Lean's runtime on 3000
random cases (arithmetic, conversions) without a difference; this is a test, no theorem depends on it.
Simplification: the sign of zero and NaN payloads are not
represented. The sign of zero is only observable through division by zero, `atan2` (not used by the program), or bit
casts (none). `Conformance/SignedZero.lean` has the arithmetic with two zeros and proves that forgetting the sign commutes with all
operations except division by -0, and that the divisors of the code that are no literals are not -0 (`unpack`, `cells`, `weights`).
`powi` is modelled as the square-and-multiply loop of compiler-rt (`__powisf2`), which
is what rustc/LLVM lowers to for non-constant arguments.
Transcendental functions (`tan`, `cos`, `ln`, `sinh`, `atan`, `atan2`) have no specified
precision in Rust; they are parameters of the model (`Libm`), and the theorems hold for every
choice of these functions, except C77, C103, C104, C105 and C113 (and the counterexamples of C100, C101 and C115, which use C104), which assume a stated
accuracy (`Spec.Accurate`, `Spec.AccurateRow`).

**Parallelism.** Rayon's `par_iter().map().collect()` keeps order: modelled as `mapM`. If several items fail
the model reports the first in list order; Rayon may report any of them, which is not visible as errors are not distinguished
(a list with both an error and a panic may end either way in Rayon; the model takes the first).
`par_iter().for_each / try_for_each` with effects is modelled as a relation `Effect` between lists of writes and outcomes:
any interleaving of the items is possible, items may be started or not after another one failed, and
theorems quantify over all of these schedules.

**Files written.** A write is a path with a content; the tree of files afterwards is the tree before, overwritten in the order
of the writes. Assumptions: saving a file is atomic and succeeds if its directory exists, the disk is never full (C173 drops this: `Model/Disk.lean`); a meteobin file needs its directory, which
exists from the start or was created by tiles of the same step (directories created by other steps are not counted, C85
shows that they are not needed).

**The outside world** (`World`, `Environment`, `Service`, `Calendar`): the answers of the servers are arbitrary functions
from URLs to bytes; bzip2 is an arbitrary function on bytes; requests and answers are JSON values (`Model/Request.lean`, `Model/Answers.lean`), the text of JSON and the limits of the libraries (128 nested levels, 10 MB) are not modelled; the calendar
conversions of chrono are parameters of `Program`. From C108 on they are those of `Model/Calendar.lean`, written down from chrono's documentation
(its source is not in the repository), and the answers are those of a web service that gets the requests of `Model/Request.lean`. C111 to C115 assume that this
service searches a catalogue as the STAC interface says (`Spec/Catalogue.lean`), in one page and with one link for each file; C147 derives this from the JSON answers, C146 and C149 say what happens otherwise.

## What is modelled and what is not

| Part of `/repo/src` | Model |
|---|---|
| `grib2/` (all section readers, document readers, `converter/`) | `Bytes`, `Grib2`, `Decode`, `Unstructured`: all functions |
| `netcdf/` | `NetCdf`, `Small`; the texts (`Display`): `NetCdfText` |
| `geo/` | `Geo`, `Unstructured`, `Small`: all functions, including the three-neighbour grid that is not used by the renderers |
| `physics/`, `imaging/`, `map_tile/` | `Physics`, `Imaging`, `MapTile` |
| `meteo_chart/` | `Layer`, `LayerLookup`, `Colors`, `Render` |
| `metobin/` | `Metobin` |
| `meteo_common/`, `dwd/`, `meteo_swiss/` | `Forecast`, `Dwd`, `Swiss`, `Readers`, `Program`, `Calendar`, `Request`, `Answers`, `LayerLookup` (`DwdModelConfig`, `DwdModelType`) |
| `main.rs` | `Program.mainEffect`, `exitStatus`; `Args` and its parser, which clap derives: `CommandLine.parseArgs`, `call`, `callStatus`; printed lines: `mainPrints`, `callPrints` |
| `system/` | `FileHelper` as `World.stream`; `TStamp` (unused) not modelled |

Readers that differ only by the variable read (for example `dwd_icon_u_10m_reader.rs` and `dwd_icon_v_10m_reader.rs`) are one
definition with a parameter.

Not modelled: bzip2, HTTP, PNG encoding (a picture is its size and pixels), the file system below "write bytes to
path", log messages other than the progress reports of the two renderers (`Model/Progress.lean`, C188), running out of memory (the sizes of the buffers of the readers are: `Model/Memory.lean`, C174), time. The source of clap 4.5 is not in the repository: the rules of its derived parser
(long and short options, attached values, one or more values, `--`, `--help`, `--version`) are taken from its documentation
(`Model/CommandLine.lean`); arguments that are not UTF-8 are not modelled.

## Trusted base

* The kernel of Lean 4.33.0.
* Axioms: of the theorems in `MANIFEST.json` 533 depend on `propext`, `Classical.choice` and `Quot.sound`; 17 only on `propext`, `Quot.sound` (`C14_selection`, `C16_new`, `C18_injective`, `C34_create`, `C47_step`, `C47_panics`, `C49_panics`, `C49_error`, `C53_dwd_numbered`, `C53_swiss_numbered`, `C58_add`, `C58_sum`, `C135_counterexample_steps`, `C139_cells`, `C140_beyond`, `C140_create`, `C140_draw_point`); 8 only on `propext` (`C16_half_open`, `C16_nan`, `C34_outside`, `C41_round_trip_partial`, `C71_counterexample`, `C82_counterexample`, `C132_no_panic`, `C158_no_panic`). No other axioms: none of our own, no `sorry`,
  no `native_decide`, no `bv_decide`.
* The faithfulness of the model to the Rust text: the code was read, not run. Each definition
  cites its source lines. As a check of the model, `Verif/Conformance/` replays the unit tests of the project (see below).
* The meaning of the specifications in `Spec/` and of the theorem statements.
* Mathlib modules are imported one at a time for tactics (`ring`, `linarith`, `norm_num`, ...) and lemmas on `Rat`, `Real`, lists; they are checked by the kernel like the rest.



## The project's unit tests, replayed on the model

The project has 157 unit tests in its sources. Seven ask the web service or render a real forecast, two are commented
out; the other 148 are replayed in `Verif/Conformance/{Geo,Grib2,NetCdf,Forecast}.lean` as `example`s about the model, with the
inputs and expected results of the tests. They are tests of the model, no claims: they show that the definitions answer what the authors
of the code expect of it, including the rounding of `f32` in the expected values. All assertions hold in the
model except one: the last assertion of `it_calculates_coord_dist_lookup_map_for_one_coordinate`
(`src/geo/grid/unstructured_grid1.rs`) compares a squared distance with a distance that is not squared. By reading the code it does not
hold for the program either; the model's values (100 and 200 against 15) are given beside it.
## Plan per property

* **C01** GRIB2 message round trip: `Spec/Grib2Encode` defines the byte encoding of a message description; theorem by composing per-section round-trip lemmas (`reader (enc x ++ rest) = ok (x, rest)`).
* **C02** Multi-message files are read completely and in order: Induction over the list of messages on the fuel-free loop (each successful read consumes at least one byte, which gives termination).
* **C03** A truncated message is never accepted: Every reader is "prefix-stable": determined by what it consumes, and fails on strict prefixes. Proved as a closure property of the reader combinators.
* **C04** Accepted messages are correctly framed: Inversion of the reader on success, per section.
* **C05** Malformed GRIB2 input is reported as an error, not a crash: Negation by explicit witness bytes; partial theorem with the length/date side conditions.
* **C06** Bitmap expansion places packed values exactly at the set bits: Refinement to a spec by rank (`number of set bits before i`), induction with generalised counter.
* **C07** Packed values are unpacked with the simple packing formula: IEEE model of the formula; monotonicity from monotonicity of `rnd`.
* **C08** Data decoding is safe when the counts agree: Characterisation of `panic` of the decode loop.
* **C09** Constant fields decode to the reference value: Negation with witness; partial: what is returned instead.
* **C10** Bits-per-value is honoured: Negation with witness; partial for 16 bits.
* **C11** Signed scale factors are decoded as sign and magnitude: Direct arithmetic for all words.
* **C12** Grid coordinates keep their sign: Negation with witness; partial for non-negative angles.
* **C13** Rectangular grid conversion keeps shape and order: Refinement to row-major spec.
* **C14** Level selection from multi-message files: List lemma about `enumerate/filter/map/collect`.
* **C15** Coordinates are normalised to [-180,180) without moving the point: IEEE: range analysis, Sterbenz exactness of x-360, `fmod` exact.
* **C16** Extents are half-open boxes: Order on floats.
* **C17** The minimal bounding extent encloses its points: Fold invariant.
* **C18** Grid index is a bijection between cells and storage: Nat arithmetic.
* **C19** Value lookup returns the stored value of the right cell: Case analysis.
* **C20** Lookup by position only answers inside the extent and is safe: Case analysis + float range facts.
* **C21** Interpolation never invents or leaks missing data: Case analysis on the four corners.
* **C22** Interpolated values stay between the surrounding values: Exact-arithmetic convexity; IEEE error bound; negation on grid lines.
* **C23** Regridding picks the nearest coordinate: Fold invariant over coordinates and cells.
* **C24** The search window of a coordinate covers all cells within reach: Negation at the date line; exact-arithmetic covering lemma.
* **C25** Regridding output has the target shape: List lemmas, div/mod.
* **C26** The three nearest coordinates are kept: Invariant: the triple is a 3-smallest sub-multiset.
* **C27** Nearer coordinates weigh more: negation with witness; in general: monotonicity of rounded weights shows the farther one never weighs less.
* **C28** NetCDF header round trip: Encoder spec, nested induction.
* **C29** NetCDF variable data is read from the declared place: Seek model.
* **C30** Malformed NetCDF input is reported as an error, not a crash: Negation; partial.
* **C31** Tile longitude addressing is consistent: Exactness of power-of-two scaling and of small products; monotone rounding.
* **C32** Every tile of the requested area is produced exactly once, under every schedule: Permutation-invariance of a log of writes with distinct keys; membership of the range product.
* **C33** Tile pixels show the value at their own position: Pixel frame lemmas + loop.
* **C34** Drawing a point changes exactly one pixel: List.set lemmas.
* **C35** Lines terminate, reach both ends and stay in their bounding box: Loop invariant of Bresenham and a decreasing measure.
* **C36** Lines have no superfluous pixels: Negation on even diagonals, counting otherwise.
* **C37** Temperature meteobin encoding: IEEE encode, monotone + error bound; negation for the marker.
* **C38** Precipitation meteobin encoding: same
* **C39** Wind meteobin encoding: same; min/max NaN semantics.
* **C40** Weather meteobin encoding: Case analysis.
* **C41** Known weather codes round trip; unknown codes do not crash: Finite table, complete; negation for unknown codes.
* **C42** Vertical meteobin layout: List length/index lemmas for nested flatMap.
* **C43** Layers reject inconsistent grids: Decision logic; negation for WW.
* **C44** Wind needs both components: Case analysis; monotone rounding and sqrt.
* **C45** Chart pixel orientation: Frame lemmas.
* **C46** Colour scales are total and ordered by thresholds: Decision logic on thresholds; Nat arithmetic.
* **C47** Forecast horizon text round trip: String round trip on decimal digits.
* **C48** Reference time is the latest 3-hourly run not in the future: Int arithmetic on seconds.
* **C49** Forecast file list is sorted and complete: Insertion sort stable; Perm/Sorted/stability.
* **C50** Steps are numbered by their forecast hour: Negation; partial for gapless lists.
* **C51** DWD run finder picks the newest complete run: find? over the run list; negation for the fallback.
* **C52** File URLs identify run, step and level: Injectivity of padded decimals and separators.
* **C53** Rendering a forecast honours the filters and is schedule independent: Schedules as permutations/prefixes with stop on error.
* **C54** Output paths do not collide: Injectivity of paths.
* **C55** Precipitation difference steps are available: Interval arithmetic.
* **C56** Image sampling is safe and exact at pixel centres: Case analysis; IEEE floor/ceil.
* **C57** Unit conversions invert each other: Relative rounding error lemma.
* **C58** Saturating cell arithmetic: Clamp lemmas.
* **C59** Unknown product templates with coordinate values: Negation with witness; partial: without coordinate values.
* **C60** A damaged message inside a multi-message file is reported: Negation; partial for the first message.
* **C61** Grids scanned from north to south: Negation, and a theorem that every such message panics.
* **C62** Cell to position to cell: error analysis of the binary32 division, round to the same integer.
* **C63** Averaging byte values never crashes: negation with witness; values up to 254: error bound of the sum of the rounded weights.
* **C64** Messages with a wrong number of points are rejected: negation, for every wrong number.
* **C65** Invalid coordinates do not affect the lookup map: negation for all maps (NaN comparisons are false).
* **C66** A NetCDF variable yields as many values as its dimensions say: Negations (padding, records); partial for unpadded sizes.
* **C67** NetCDF lists without elements: Negation; what is accepted.
* **C68** Cell positions of a grid file: binary64 error analysis against a bracket of pi.
* **C69** A picture made from rows of colours: frame lemmas for nested loops.
* **C70** Line pixels near the ideal line: Bresenham error term invariant; negation for half a pixel.
* **C71** Lines leaving the picture panic: invariant of the loop on i64; negation for truncated coordinates.
* **C72-C74** Sampling: case analysis on floor/ceil; interval bound on truncated weights; negations.
* **C75, C76** Tile columns: monotone rounding; negations; C76 for extents ending before the date line.
* **C77** Web Mercator: convexity of the latitude function; deviation bound with real analysis; negation.
* **C78, C79** Colours: complete case analysis on classes; negations.
* **C80-C82** Reference times, horizons: Int arithmetic on seconds and offsets; negations.
* **C83** A run that was found can be rendered: comparison of the files probed and read; negation; holds for files published in the order of steps.
* **C84** MeteoSwiss precipitation steps: list lemma; negation for lists of different length.
* **C85** Meteobin directories: in every schedule some tile of the step is saved before the meteobin files are written.
* **C86** Complete layers are rendered without a panic: totality of each drawing function on complete grids.
* **C87** Only what was selected is rendered: `Effect.Writes`, a compositional predicate (writes only / writes all on success) with
  a lemma for each combinator, applied to the whole program.
* **C88, C91** Variable names, exit status: negations, and what happens instead for all inputs.
* **C89, C93-C97** From published messages to bytes: composition of C01, C06, C07, C13, C37-C42 and C87. `Publishes` says that the URL
  of a file holds the encoding of a message, `physical` is the exact value that the message encodes.
* **C90** Missing downloads: `Effect.Succeeds`, the condition for success of each combinator.
* **C92** Only needed files matter: congruence of the readers in the world.
* **C98-C102** MeteoSwiss, from published messages to bytes: as C89, with the nearest point of C23 and C24 in place of the grid point.
  `Spec/Nearest.lean` defines with exact numbers which point a cell of the chart shows; `Lemmas/SwissGrid.lean` bounds the float error of
  cell centres and distances.
* **C103** Rows of tiles: error propagation through tan, cos, ln and the float operations, `Lemmas/MercatorRow.lean`.
* **C104** Success of a complete MeteoSwiss run: `Effect.Sure` (some execution ends, and every execution ends well) is passed through every combinator.
* **C105** Success of a complete DWD run: the corners of an area in microdegrees are bounded after float conversion (`Props/DwdSuccess.lean`),
  so that all grids fit and all tiles are in range; then the exact success condition of C90 applies.
* **C106, C107** Weather files end to end: as C89 and C98; weather codes are read exactly when packed with scale factors 0, and the class of
  the cloud cover is that of a number within a millionth.
* **C108 - C110** Reference times (`Model/Calendar.lean`): dates are counted by iterating "the day after"; a closed formula for the day of a date is its inverse
  (`Lemmas/Calendar.lean`). Names are fixed-width decimal fields, whose order as texts is that of the numbers. C110 is false (two witnesses).
* **C111, C112** Requests (`Model/Request.lean`) against an ideal service (`Spec/Catalogue.lean`): a request is a JSON object; the service answers with the files of
  a catalogue that match every member. The proof evaluates each member for an arbitrary file. C112 adds the sorting of C49 and C50.
* **C113, C114** The program with such a service: composition of C111, C112 with C104 and C98, C99, C102.
* **C115** False: a run with one file is taken as the newest; its empty lists lead to an empty, successful run.
* **C116** Coordinates of unstructured grids: zip of the decoded messages; composition with the lookup map (C23).
* **C117** Positions of data points: error bound of the fractional coordinate on an axis; comparison with the number of the point; negation with witness and in general for the north-east.
* **C118-C121** Pixels of tiles: C33 and C77 give the position of each pixel, C117 the cell (or, for clouds, C22 the interpolation), C89-C94 its number, C46 the colour;
  negations by runs of a server that delivers one message for all files (C105 gives success, C122 a pixel inside the area).
* **C122** Places and pixels: error bounds of the column (three roundings) and the row (C103), Lipschitz bound of the Mercator latitude, clamping to the corner tiles.
* **C123, C124** What is accepted: every reader has a `_split` lemma (if it succeeds, the bytes are an encoding of the result followed by the rest) and a `_read` lemma
  (the converse). `Spec/NetCdfFile.lean` and `Spec/Grib2File.lean` describe the accepted bytes as relations; negation for declared lengths of GRIB2 sections.
* **C125-C128** Positions on MeteoSwiss charts: the lookup of C117 on the regular grid of the charts, combined with the point of each cell (C98), gives C125 with a
  counterexample; the tiles follow as in C119-C121 (`temp_pixel`, `wind_pixel`, `cloud_pixel`), with the cloud cover in percent as `HoldsUpTo 1`.
* **C129** Congruence of every reader and of `renderSteps` in the streams of the needed files (as C92 for DWD), with the lists given by the service.
* **C130** `Lost`: the three ways a file cannot be had give an error of the reader; `Calm` (an execution exists, none panics) is closed under the combinators of effects; success by C100.
* **C131** As C130 for the MeteoSwiss renderer, for files lost from their first message on; negations for missing constants, positions and levels cut between messages.
* **C132** `Spec/TimeText.lean` describes the texts as a relation; each parser of the model succeeds exactly on its part (`_iff` lemmas).
* **C133** The cell of a position depends only on dimensions and extent, which the constructors compare; negation for the weather grid.
* **C134** Speed by C44; the angle by the accuracy of `atan2` and two roundings; sine and cosine are 1-Lipschitz.
* **C135** Both tables are compared; negations for the last step and for ICON-EU runs.
* **C136** Section by section: the reader without checks simulates the one with checks; the accepted messages by the splitting lemmas of C124 with weaker bounds; negation with empty declared lengths.
* **C137** The key is the hour modulo 256; stability as in C49; negation with 256 h.
* **C138** The program is written once over a `Build` (the four places where arithmetic can overflow); simulation through sequential and parallel loops; corollaries of C105 and C113.
* **C139** Dimensions come from 32-bit fields or are constant; finite tables for models; C46 for colours.
* **C140** The index without checks is the index modulo 2^32; negation with a picture of 32769 x 32768 points.
* **C141** From C143 in both directions; the expected files are a function of the path (C54, C87).
* **C142** The expected files of a union of options are the union of the expected files; for success the conditions of each part split as well, through the sequence of the parts of the program.
* **C143** Reading is monotone in the answers of the servers (`Res.Le`), hence so are the expected files; writes that are among later ones are absorbed.
* **C144** `Spec/Answers.lean` describes the values as relations; each decoder succeeds exactly on its part; no step can panic.
* **C145** Collecting the members depends only on the lists of members with a name, for each name.
* **C146** Without different links the entries are unique, hence the whole environment; negation with two links and the two orders of the hash map.
* **C147** By C144 the answers decode to the entries of the catalogue, then C111.
* **C148** By C144; negation with a `datetime` of null.
* **C149** As C111 with the first page; negation with as many hours as fit on a page and one more.
* **C150 - C152** As C114, for the remaining meteobin files and for the tiles: composition of C112 with C100, C101, C107 and
  C126 - C128; the counterexamples run the whole program on the demonstration catalogue.
* **C153** C87 (every path written belongs to an expected output) with C51 (which run is found); negation by running the program on a
  server without a complete run of today.
* **C154** C51 turns a call into the rendering of the newest run; then C89, C93, C97, C106 and C119.
* **C155** The values of the regular grid are the values of the unstructured one, cell by cell (`Res.mapM`); both turn a position into
  the same cell. Negation: a grid of which one point has no data.
* **C156** Error bound for the sum of at most three floats (induction on the list with the prefix sum), then for weights and products.
* **C157** The sum of two floats lies between their doubles, which are floats; rounding does not leave the interval.
* **C158** Splitting at T and H is inverse to joining; the digits of a number contain neither.
* **C159** Doubling is exact in binary floating point, so the column at the next level is twice the unrounded one; halves of truncated
  values; the tiles of an area are intervals (C32).
* **C160** The parser as a fold over the arguments; soundness by induction with the values collected so far, completeness option by
  option; the values of an option are a function of the list of options (`valuesOf`).
* **C161** `variableChosen` and `selected` use membership only; the steps to draw are a filter.
* **C162** With no step selected every parallel loop is empty; the steps of the models of DWD are 2 to 48 and 2 to 78.
* **C163** The paths of C87 are joined from names of models, runs, layers and numbers, none of which contains a slash or dots only.
* **C164** All addresses that a DWD call reads begin with the address of the server (`fileUrl_server`); then C92.
* **C165** Positions, levels and files are links of the catalogue; `World.stream` looks at local files for other texts only. The witness
  is a catalogue with the link /tmp/positions.
* **C166** What two calls find is put together in one environment (`joint`); both calls are monotone (C143), the path tells the run (C54,
  C109), and within a run content is a function of the path (C87).  Equal content per path makes the order of writes irrelevant.
* **C167** `StepsWithin`: steps of the smaller catalogue are steps of the larger one if there are no gaps (C112); the readers look up by
  number.  The witness publishes the hours 0, 2, 1 in this order.
* **C168** Each hour's byte is the difference of two totals within the bounds of C38 (`HourByte`); the sum telescopes by induction
  on the number of hours (`sum_hours`).
* **C169** The byte is computed from `unwrapOr _ 0` of both totals (`precip_formula`); case split on which total is missing
  (`TakenAsZero`), lifted to whole calls like C93 and C99.
* **C170** One definition of the naming scheme (`Dwd.published`) against the tables of the twelve readers: the tables are compared
  by evaluation, the rest is associativity of appending.
* **C171** The bytes of every file as one explicit function of the unpacked numbers (`byteOf`, `byteOfSwiss`), proved for all
  successful runs (`dwd_bytes`, `swiss_bytes`) from the layers up; the function looks at the listed sources only (`byteOf_sources`),
  and equal packed numbers with equal packing unpack alike. Witness: two precipitation fields that agree at the first point only.
* **C172** From `dwd_bytes`/`swiss_bytes` (C171): unpacking keeps the order (`C07_monotone`) and is accurate (`C07_formula`, to exclude
  the mark for missing values), and every byte function is monotone. Witnesses: Swiss vertical clouds, DWD weather file.
* **C173** `Model/Disk.lean`: the program on a disk where every file has a fate (`mainOn`); the pipeline is taken over with the rendering of
  the steps as a parameter (`mainWith`, equal to `mainEffect` by `rfl` for the perfect disk). One relation between the two
  (`Tame`: same courses where nothing is noticed, only files of the perfect course, some course exists) is carried through sequences and
  parallel loops. Witness: a disk on which files can be created but are left empty.
* **C174** `Model/Memory.lean`: the readers once more, with a list of the sizes of the buffers they create (`Mem`); erasing the list gives
  the readers of the other files (a monad morphism, `erase`). `Frugal K`: two bytes of buffers for each byte read, and at most `K` bytes more when
  reading stops; carried through sequencing, choices and loops. Witnesses: a section and an attribute with the largest
  length, a message with the largest number of points and no data.
* **C175** `pixel_position`: the position of a pixel as a function of the tile (from C33, no accuracy of the platform functions needed); `nearest`,
  `around`, `mixture`: lookup and interpolation as functions of the grid and of the numbers of the points; the colour of a published number
  (`tempShade`, `windShade`) includes the missing value -1. With `cell_of_packed` and `cell_of_record` of C171.
* **C176** `Model/Network.lean`: the readers and the program with requests that are answered anew each time (`Net`, `May`). `Rd.Firm`: a result or a panic of
  the decoder does not depend on what follows, so a part of a file gives an error or the same. `Sim F x r` (results of `x` are that of `r` or, if `F`, errors)
  passes through the readers, `Weak F a b` (executions end alike or fail, and write nothing else) through loops and sequences. With `F := False`
  both are equalities: `C176_reliable` shows that the new model extends that of C87.
* **C177** `OnceIn e S`: whatever happens in `e`, paths are different and of kind `S`. It passes through sequences of parts with disjoint kinds and through
  parallel loops whose items have disjoint kinds. Kinds are the files of a variable at a step (C54 tells them apart); tiles within a chart differ by C32,
  the numbers of the steps by their construction.
* **C178** `Sourced e S`: whatever happens in `e`, all files of a variable at a step are made from the same layers (one reading of the messages, even if the network
  would answer differently a second time). Given the layers, chart and file look up the same cell (C33 for the position of a pixel); bytes and classes are
  compared through monotonicity of the byte (temperature) and real square roots with error bounds (wind).
* **C179** `Model/Requests.lean` repeats the program with a list of events (HEAD, question, GET, write) instead of a list of writes; parallel parts interleave events.
  `Sim` and `SimD` relate it to `mainNet` in both directions. `Counted x l`: the requests of `x` are a sub-multiset of `l`, and all of `l` on success; it is
  compositional for sequence, parallel map and parallel for-each. `Since d R`: at each write the requests before it satisfy `R`. Counting in the multiset of
  downloads gives how often each file is asked for (distinct requests have distinct URLs, C52).
* **C180, C181** `Alike d d'`: the converters take the same from both documents (decoded values under every transformation, and the extent). Messages that
  are relabelled or repacked have documents that are alike (C01, C06); results of reading are related by `ResRel`, and each of the four ways to read a file gives
  equal results in both worlds. The program uses the world through these only, so that its effects are equal. C181 is refuted by the demonstration server.
* **C182** `Model/Output.lean` adds what `main` prints. Silence and status 0 leave only the outcome `done` of a known model; then C87 and C90 give every file of
  every selected step.
* **C183** The library occurs in `FileOf` for pictures only, and there through the row of a latitude and the latitude of a row. With C87 (what a call writes is
  `MainExpected`) and its functionality the files of two machines are compared.
* **C184** Effects are compared as sets of executions. `Effect.need` distributes over a non-empty sequence, also for the heights of levels that both vertical
  variables share, so a call is the sequence of the calls for single variables. The specification (`OneByOne`) is stated without the model's `Seq`.
* **C185** The part that holds follows from C184 and C87. The counterexample is a server that lacks one file; C130, C90 and C105 settle all executions of the
  two calls on it.
* **C186** `Certain` (an effect that can succeed always does) is closed under the combinators of the program and holds of the parallel loop, whose condition for
  success (C53) does not mention the schedule. For the counterexample `parTry_some` builds, for any selection of the items that can be done, an execution in which
  exactly these were done before an error stopped the loop.
* **C187** The edges of tiles up to level 10 are at least 0.0125 degrees apart (mean value theorem for the Gudermannian function, `cosh π ≤ 28`), so the computed
  ones, within 0.002 degrees of them (C77), are at least 0.008 degrees apart. `row_near` bounds the four roundings of a row by less than half the distance of rows.
  Beyond level 10 rows can coincide in single precision; the program goes to level 8 at most.
* **C188** `mainStory` (Model/Progress.lean) adds the messages of the two `render_latest_forecasts` to the effect of a call. `Tells` proves that leaving out the
  messages gives `mainEffect`, in both directions; `FitsStory` carries a condition on each happening and what came before it through the combinators. That the files
  between two messages are those of a call for one variable is C184.
* **C10, C20, C30, C37, C38, C67, C80 (complements)** Props/Complements.lean says what the code does for all inputs in the cases in which these fail (the
  declared width is never used; every unknown type number and every empty list with a tag; all temperatures and amounts outside of the range; missing totals;
  exactly which offsets have a run name), and which cell a position is looked up in.
* **C188 (continued)** Props/ProgressRun.lean: `C188_run` says that the run or reference time is reported exactly once, before any file, and that the files
  are those of this run.
* **C50, C59, C78, C79, C140 (complements)** Props/Exact.lean says for all inputs exactly when these fail: the number of a step counts the files of earlier
  hours; no message with coordinate values after an unknown template is read as described; the colour of every cloud class without rain; the only two classes
  of temperatures that share a colour; every picture that is too large for 32 bits.
* **C71, C88, C115 (complements)** Props/Always.lean says in general how these fail: lines moved by multiples of 2^32, filters that differ by unknown names,
  and successful runs that write nothing.
* **C189** Props/Later.lean: the cases of C51 for both calls, with dates as days since 1970 (Lemmas/Calendar.lean); for MeteoSwiss from C111. The call level
  follows from C87. The clock is read twice by a DWD call (`today`, `now`); midnight may pass between the two.
* **C190** Props/Yesterday.lean: from the cases of C51. It fails: for every day, model and earlier run of yesterday there is a server on which that run is
  the newest complete one, while the run taken has no file there. `C190_call` says which directory the files of such a call are in.
* **C191** Props/SameData.lean, Props/SameDataSwiss.lean: the layers read for an hour are a function of the streams of its files (`dwdLayers_same`,
  `swissLayers_same`), and what is written is a function of the layers (C87). `InBoth` says which files both models have.
* **C192** Props/NetCdfText.lean: Model/NetCdfText.lean follows the `Display` implementations; the words of a text are defined without reference to them
  (`wordsOf`). Induction from the end of the list of values. Props/NetCdfTextLossless.lean: each line can be cut off the text, lists by their counts; with C123.
* Complements to C24 (Props/DateLine.lean), to C49, C75 (Props/ExactTwo.lean) and to C63, C70 (Props/ExactThree.lean): the failures in general instead of by a witness.
* Complements to C72, C74, C82 and C83 (Props/ExactFour.lean): the failures in general instead of by a witness. Props/UniformSample.lean: exactly which
  values of a uniform picture survive sampling (the two weights add up to one within 2^-25, scaling by a power of two is exact, and the sum is rounded back;
  a table over all 256 values for the converse).

## Findings

Behaviour of the code that contradicts what a user may expect; each is proved as a negation with witness.

* GRIB2: section lengths smaller than the fixed part and impossible dates panic (C05); constant fields decode to the missing value (C09);
  packed data is always read as 16 bit words (C10); negative angles lose their sign (C12); coordinate values after unknown product templates are read twice (C59);
  damaged later messages end a file silently (C60); north-to-south grids panic (C61); the number of points is not checked (C64);
  declared lengths of sections 3, 4, 5 and odd ones of section 7 are not checked (C124);
  MeteoSwiss charts are displaced by half a cell to the south-west (C125).
* Geo: values on grid lines are not interpolated (C22); the search window wraps at the date line (C24); farther coordinates weigh more (C27);
  byte averages overflow (C63); NaN coordinates win every cell (C65);
  positions are looked up in a grid shrunk by one interval, up to one cell too far east and north (C117).
* NetCDF: unknown types panic (C30); padding becomes values, only the first record is read (C66); empty lists with tags are rejected (C67).
* Imaging and tiles: staircase diagonals (C36); more than half a pixel off (C70); sampling loses weights and rounds down (C72-C74); column rounding (C75, C76);
  rows are interpolated linearly within a tile (C77); premultiplied colours stored as straight ones (C78); white used twice in the temperature legend (C79);
  cloud tiles are never transparent (C118); missing data and the margin of the area are drawn as a clear sky (C121); winds of -1 m/s are not drawn (C120).
* Meteobin: 255 is also written for real values: above 63.25 degrees (C37), from 127.25 mm (C38), wind components of -1 m/s (C94), clear sky aloft (C95), levels below 100 ft or from 25500 ft (C96);
  missing precipitation is written as 0 (C38); unknown weather codes panic (C41); the WW grid is not checked (C43).
* Forecasts: horizons above 255 hours panic (C49), are numbered by position (C50), minutes ignored (C81); the fallback run is always an ICON-D2 run (C51);
  offsets other than multiples of three hours have no run name (C80); the last listed run is taken for the newest (C82); files not probed (C83, C84);
  unknown variable names are ignored (C88); exit status 0 after errors (C91); accepted reference times may lose fractions or be refused by their name (C110);
  a run of which only the first file is published is taken, and nothing is drawn (C115).
* C131: the MeteoSwiss renderer panics instead of reporting an error if a constants file is not listed (`unwrap`), if the positions file breaks off after one to four messages (`docs[4]`), or if a level file breaks off between messages before level 80 (the layer constructors panic on different counts).
* C133: the weather at a position may be that of another cell than cloud cover and ceiling. C135: `DwdModelConfig` lacks the last step, and the run finder looks for ICON-EU runs that it does not list.
* C136: release and development builds treat declared lengths below 9 (section 4) and 11 (section 5) differently. C137: without overflow checks files for 256 h and later are sorted to the front. C140: without overflow checks very large pictures get too little memory, and different points share it. Besides, the Dockerfile uses Rust 1.67, but Cargo.toml asks for edition 2024, which needs 1.85.
* C146: of several links of a file a random one is taken. C148: one entry with an unexpected member type makes the whole search fail. C149: only the first page of an answer is used.
* C153: while no ICON-EU run of today is complete, a call for icon-eu writes ICON-D2 files and nothing else.
* C155: `UnstructuredValueGrid::get_value_by_lat_lon` does not filter the missing value. C156: in the grid with three neighbours a missing neighbour counts as zero, and a cell with only missing neighbours shows 0.
* C158: `P+1T09HD` is accepted as a horizon. C160: names of variables with commas between them are taken for one (unknown) name and are ignored, see C88.
* C162: `--steps 60` for icon-d2 does nothing and succeeds. C165: a link without http is opened as a local file, so whoever answers the search can have local GRIB files drawn.
* C167: if MeteoSwiss publishes hour 2 before hour 1, a call in between writes hour 2 as step 1, and a later call replaces it.
* C169: missing totals of precipitation count as 0, so that a gap in the totals shows up as one hour with all the precipitation
  since the start of the run (`meteo_cloud_precip_layer.rs`, `unwrap_or(0.0)`).
* C173: a full disk is not noticed: results of writing are dropped, and the call ends with status 0 leaving empty or cut files
  (`let _ = file.write_all(..)` in `src/metobin/*.rs`, `let _result = tile.safe_image(..)`).
* C174: lengths in a file are trusted when buffers are created (`vec![0; size]` before `read_exact`), and a message without data is expanded to as
  many values as it announces: small files can ask for gigabytes.
* C176: a file of several messages that breaks off is taken for a shorter file (C60); if this happens to two files of levels of MeteoSwiss at the same
  message, charts with fewer levels are written without notice.
* C181: what a message says about its parameter, level, run and hour is never compared with what was asked for: yesterday's file under today's name is drawn
  without notice.
* C185: a file of one variable that is missing on the server keeps all variables after it in the fixed order from being rendered, although they could be
  (`?` after each `render_..._forecast` in both renderers). With no filter, a missing precipitation file means that no file of any other variable is written, and the status is 0
  (C182: a line on the standard output is the only sign).
* C186: what a call that fails has written depends on the threads: `try_for_each` stops the other steps at an error, wherever they are.
* C188: both renderers report `finished rendering vertical cloud forecast` at the end of the wind aloft; the message of the wind aloft does not exist.
* C190: the fallback to yesterday (`dwd_icon_forecast_run_finder.rs`) takes ICON-D2, 21 UTC, without asking the server. If that run is late or missing,
  the call fails although an older complete run is there.
* C192: the texts of the numbers of a NetCDF attribute list them backwards (the parameters of the closure in `src/netcdf/common/netcdf_values.rs` 67 are interchanged).
