import Verif.Model.Bytes

/-!
# GRIB2 sections and document reader

Model of `src/grib2/section0 .. section8`, `src/grib2/common` and
`src/grib2/document/grib2_document_reader.rs`.
Unsigned integers of any width are natural numbers (the readers only produce values within the
width); byte strings are lists of `UInt8`.
-/

namespace Verif.Grib2

open Verif Rd

/-- `src/grib2/section0/discipline.rs` 1-11 -/
inductive Discipline where
  | meteorological | hydrological | landSurface | satelliteRemoteSensing | spaceWeather
  | oceanographic | missing | unknown (c : Nat)
  deriving DecidableEq, Repr

/-- `src/grib2/section1/ref_time_significance.rs` 1-9 -/
inductive RefTimeSignificance where
  | analysis | startOfForecast | verifyingTimeOfForecast | observationTime | missing
  | unknown (c : Nat)
  deriving DecidableEq, Repr

/-- `src/grib2/section1/production_status.rs` 1-15 -/
inductive ProductionStatus where
  | operational | test | research | reAnalysis | thorpex | thorpexTest | s2sOperational | s2sTest
  | uerra | uerraTest | missing | unknown (c : Nat)
  deriving DecidableEq, Repr

/-- `src/grib2/section1/processed_data_type.rs` 1-15 -/
inductive ProcessedDataType where
  | analysis | forecast | analysisAndForecast | controlForecast | perturbedForecast
  | controlAndPerturbedForecast | processedSatelliteObservations | processedRadarObservations
  | eventProbability | experimental | missing | unknown (c : Nat)
  deriving DecidableEq, Repr

/-- `src/grib2/section3/grid_definition_source.rs` 1-7 -/
inductive GridDefinitionSource where
  | gridDefinitionTemplate | predeterminedGridDefinition | none | unknown (c : Nat)
  deriving DecidableEq, Repr

/-- `src/grib2/section3/optional_point_interpretation.rs` 1-9 -/
inductive OptionalPointInterpretation where
  | none | fullCoordinateCircles | coordinateLines | actualLatitude | missing | unknown (c : Nat)
  deriving DecidableEq, Repr

/-- `src/grib2/section3/shape_of_earth.rs` 1-6 -/
inductive ShapeOfEarth where
  | sphericalRadius6371229 | missing | unknown (c : Nat)
  deriving DecidableEq, Repr

/-- `src/grib2/section4/meteo_parameter_category.rs` 1-11 -/
inductive MeteoParameterCategory where
  | temperature | moisture | momentum | mass | cloud | miscellaneous | missing | unknown (c : Nat)
  deriving DecidableEq, Repr

/-- `src/grib2/section5/original_field_type.rs` 1-7 -/
inductive OriginalFieldType where
  | floatingPoint | integer | missing | unknown (c : Nat)
  deriving DecidableEq, Repr

/-- `src/grib2/common/scale_factor_value.rs` 3-7 -/
structure ScaleFactorValue where
  factor : Nat
  value : Nat
  deriving DecidableEq, Repr

/-- `src/grib2/section3/resolution_and_component_flags.rs` 3-8 -/
structure ResolutionAndComponentFlags where
  iDirectionIncrementsNotGiven : Bool
  jDirectionIncrementsNotGiven : Bool
  uVRelativeToEN : Bool
  deriving DecidableEq, Repr

/-- `src/grib2/section3/scanning_mode_flags.rs` 3-13 -/
structure ScanningModeFlags where
  firstRowIIsPositive : Bool
  firstRowJIsNegative : Bool
  adjacentPointsInIConsecutive : Bool
  allRowsSameScanDirection : Bool
  oddRowsOffsetInI : Bool
  evenRowsOffsetInI : Bool
  pointsNotOffsetInJ : Bool
  rowsHaveNiPointsColsHaveNjPoints : Bool
  deriving DecidableEq, Repr

/-- `src/grib2/section3/grid_definition_template_3_0.rs` 8-26 -/
structure GridTemplate3_0 where
  shapeOfEarth : ShapeOfEarth
  sphericalEarthRadius : ScaleFactorValue
  majorAxis : ScaleFactorValue
  minorAxis : ScaleFactorValue
  pointsAlongParallel : Nat
  pointsAlongMeridian : Nat
  basicAngle : Nat
  subdivision : Nat
  firstLat : Fl
  firstLon : Fl
  resolutionFlags : ResolutionAndComponentFlags
  lastLat : Fl
  lastLon : Fl
  iIncrement : Fl
  jIncrement : Fl
  scanningMode : ScanningModeFlags
  deriving DecidableEq, Repr

/-- `src/grib2/section3/grid_definition_template_3_101.rs` 5-11 -/
structure GridTemplate3_101 where
  shapeOfEarth : ShapeOfEarth
  numberOfGrid : Nat
  numberOfGridInRef : Nat
  horGridUuid : Nat
  deriving DecidableEq, Repr

/-- `src/grib2/section3/grid_definition_template.rs` 4-10
(the variants `Missing` and `Unknown` are never constructed by the reader but are part of the type). -/
inductive GridTemplate where
  | latitudeLongitude (t : GridTemplate3_0)
  | unstructuredGrid (t : GridTemplate3_101)
  | missing
  | unknown (c : Nat)
  deriving DecidableEq, Repr

/-- `src/grib2/section4/product_definition_template_4_0.rs` 5-9 and
`src/grib2/section4/product_definition_template_4_8.rs` 5-9 -/
structure ProductTemplate4_0 where
  category : MeteoParameterCategory
  number : Nat
  deriving DecidableEq, Repr

/-- `src/grib2/section4/product_definition_template_4_1.rs` 5-25 -/
structure ProductTemplate4_1 where
  category : MeteoParameterCategory
  number : Nat
  typeOfGeneratingProcess : Nat
  backgroundProcess : Nat
  forecastProcess : Nat
  hoursAfterRef : Nat
  minutesAfterRef : Nat
  timeRangeUnit : Nat
  forecastTime : Nat
  firstSurfaceType : Nat
  firstSurfaceScaleFactor : Int
  firstSurfaceScaledValue : Nat
  secondSurfaceType : Nat
  secondSurfaceScaleFactor : Int
  secondSurfaceScaledValue : Nat
  ensembleType : Nat
  perturbationNumber : Nat
  numberOfForecasts : Nat
  deriving DecidableEq, Repr

/-- `src/grib2/section4/product_definition_template.rs` 5-12 -/
inductive ProductTemplate where
  | t4_0 (t : ProductTemplate4_0)
  | t4_1 (t : ProductTemplate4_1)
  | t4_8 (t : ProductTemplate4_0)
  | missing
  | unknown (c : Nat)
  deriving DecidableEq, Repr

/-- `src/grib2/section5/data_representation_template_5_0.rs` 5-12 -/
structure DataTemplate5_0 where
  referenceValue : Fl
  binaryScale : Int
  decimalScale : Int
  numberOfBits : Nat
  fieldType : OriginalFieldType
  deriving DecidableEq, Repr

/-- `src/grib2/section5/data_representation_template.rs` 3-8 -/
inductive DataTemplate where
  | simplePacking (t : DataTemplate5_0)
  | missing
  | unknown (c : Nat)
  deriving DecidableEq, Repr

/-- A calendar date and time: stands for `chrono::NaiveDateTime` as built by
`src/grib2/section1/section1_reader.rs` 69-72. -/
structure DateTime where
  year : Nat
  month : Nat
  day : Nat
  hour : Nat
  minute : Nat
  second : Nat
  deriving DecidableEq, Repr

/-- `src/grib2/section0/section0.rs` 4-9 (the magic is the constant `GRIB`) -/
structure Section0 where
  discipline : Discipline
  edition : Nat
  length : Nat
  deriving DecidableEq, Repr

/-- `src/grib2/section1/section1.rs` 8-19 (the section number is the constant 1) -/
structure Section1 where
  length : Nat
  center : Nat
  subcenter : Nat
  masterTableVersion : Nat
  localTableVersion : Nat
  refTimeSignificance : RefTimeSignificance
  refTime : DateTime
  productionStatus : ProductionStatus
  processedDataType : ProcessedDataType
  deriving DecidableEq, Repr

/-- `src/grib2/section2/section2.rs` 3-6 -/
structure Section2 where
  length : Nat
  deriving DecidableEq, Repr

/-- `src/grib2/section3/section3.rs` 6-14 -/
structure Section3 where
  length : Nat
  source : GridDefinitionSource
  numberOfDatapoints : Nat
  optionalPointLength : Nat
  optionalPointInterpretation : OptionalPointInterpretation
  template : GridTemplate
  deriving DecidableEq, Repr

/-- `src/grib2/section4/section4.rs` 4-9 -/
structure Section4 where
  length : Nat
  coordinateValues : List Fl
  template : ProductTemplate
  deriving DecidableEq, Repr

/-- `src/grib2/section5/section5.rs` 4-10 -/
structure Section5 where
  length : Nat
  dataPoints : Nat
  template : DataTemplate
  deriving DecidableEq, Repr

/-- `src/grib2/section6/section6.rs` 3-8 -/
structure Section6 where
  length : Nat
  bitmapIndicator : Nat
  bitmap : List UInt8
  deriving DecidableEq, Repr

/-- `src/grib2/section7/section7.rs` 3-7 -/
structure Section7 where
  length : Nat
  dataPoints : List Nat
  deriving DecidableEq, Repr

/-- `src/grib2/document/grib2_document.rs` 15-26 (section 8 carries only the constant `7777`) -/
structure Document where
  section0 : Section0
  section1 : Section1
  section2 : Section2
  section3 : Section3
  section4 : Section4
  section5 : Section5
  section6 : Section6
  section7 : Section7
  deriving DecidableEq, Repr

/-! ## Section 0 -/

/-- `src/grib2/section0/section0_reader.rs` 33-47 -/
def disciplineOfCode (value : Nat) : Discipline :=
  match value with
  | 0 => .meteorological
  | 1 => .hydrological
  | 2 => .landSurface
  | 3 => .satelliteRemoteSensing
  | 4 => .spaceWeather
  | 10 => .oceanographic
  | 255 => .missing
  | v => .unknown v

/-- The bytes of the ASCII text `GRIB` (`src/grib2/section0/section0.rs` 11). -/
def gribMagic : List UInt8 := [0x47, 0x52, 0x49, 0x42]
/-- The bytes of the ASCII text `7777` (`src/grib2/section8/section8.rs` 8). -/
def endMagic : List UInt8 := [0x37, 0x37, 0x37, 0x37]

/-- `src/grib2/section0/section0_reader.rs` 15-30 and `section0.rs` 14-32.
The magic is compared as bytes: a byte string that is not UTF-8 is rejected by
`StringReader` (`src/grib2/common/string_reader.rs` 10-17) and differs from `GRIB` as well; in the
code that rejection comes earlier than the other reads, the outcome is `Err` in both cases
(no later read of this section can panic). -/
def readSection0 : Rd Section0 := do
  let magic ← bytes 4
  bytesIgnoringError 2
  let discipline ← u8
  let edition ← u8
  let length ← u64
  if magic ≠ gribMagic then fail
  else pure { discipline := disciplineOfCode discipline, edition, length }

/-! ## Section 1 -/

/-- `src/grib2/section1/section1_reader.rs` 47-59 -/
def refTimeSignificanceOfCode (value : Nat) : RefTimeSignificance :=
  match value with
  | 0 => .analysis
  | 1 => .startOfForecast
  | 2 => .verifyingTimeOfForecast
  | 3 => .observationTime
  | 255 => .missing
  | v => .unknown v

/-- `src/grib2/section1/section1_reader.rs` 78-96 -/
def productionStatusOfCode (value : Nat) : ProductionStatus :=
  match value with
  | 0 => .operational
  | 1 => .test
  | 2 => .research
  | 3 => .reAnalysis
  | 4 => .thorpex
  | 5 => .thorpexTest
  | 6 => .s2sOperational
  | 7 => .s2sTest
  | 8 => .uerra
  | 9 => .uerraTest
  | 255 => .missing
  | v => .unknown v

/-- `src/grib2/section1/section1_reader.rs` 99-117 -/
def processedDataTypeOfCode (value : Nat) : ProcessedDataType :=
  match value with
  | 0 => .analysis
  | 1 => .forecast
  | 2 => .analysisAndForecast
  | 3 => .controlForecast
  | 4 => .perturbedForecast
  | 5 => .controlAndPerturbedForecast
  | 6 => .processedSatelliteObservations
  | 7 => .processedRadarObservations
  | 8 => .eventProbability
  | 192 => .experimental
  | 255 => .missing
  | v => .unknown v

/-- Number of days of a month in the proleptic Gregorian calendar (chrono). -/
def daysInMonth (year month : Nat) : Nat :=
  match month with
  | 1 => 31
  | 2 => if (year % 4 = 0 ∧ year % 100 ≠ 0) ∨ year % 400 = 0 then 29 else 28
  | 3 => 31
  | 4 => 30
  | 5 => 31
  | 6 => 30
  | 7 => 31
  | 8 => 31
  | 9 => 30
  | 10 => 31
  | 11 => 30
  | 12 => 31
  | _ => 0

/-- `NaiveDate::from_ymd_opt(..)` is `Some` and `NaiveTime::from_hms_opt(..)` is `Some`
(years 0..65535 are all within chrono's range). -/
def validDateTime (t : DateTime) : Bool :=
  decide (1 ≤ t.day ∧ t.day ≤ daysInMonth t.year t.month) &&
  decide (t.hour < 24 ∧ t.minute < 60 ∧ t.second < 60)

/-- `src/grib2/section1/section1_reader.rs` 62-75: invalid dates and times panic (`unwrap`). -/
def readRefTime : Rd DateTime := do
  let year ← u16
  let month ← u8
  let day ← u8
  let hour ← u8
  let minute ← u8
  let second ← u8
  let t : DateTime := { year, month, day, hour, minute, second }
  if validDateTime t then pure t else crash

/-- `src/grib2/section1/section1_reader.rs` 17-44 and `section1.rs` 26-56.
`length as usize - 21` panics when `length < 21`. -/
def readSection1 : Rd Section1 := do
  let length ← u32
  let sectionNumber ← u8
  let center ← u16
  let subcenter ← u16
  let masterTableVersion ← u8
  let localTableVersion ← u8
  let significance ← u8
  let refTime ← readRefTime
  let status ← u8
  let dataType ← u8
  if sectionNumber ≠ 1 then fail
  else if length < 21 then crash
  else
    let _ ← bytes (length - 21)
    pure { length, center, subcenter, masterTableVersion, localTableVersion,
           refTimeSignificance := refTimeSignificanceOfCode significance, refTime,
           productionStatus := productionStatusOfCode status,
           processedDataType := processedDataTypeOfCode dataType }

/-! ## Section 2 -/

/-- `src/grib2/section2/section2_reader.rs` 13-24 and `section2.rs` 11-25 -/
def readSection2 : Rd Section2 := do
  let length ← u32
  let sectionNumber ← u8
  if sectionNumber ≠ 2 then fail
  else if length < 5 then crash
  else
    let _ ← bytes (length - 5)
    pure { length }

/-! ## Section 3 -/

/-- `src/grib2/section3/section3_reader.rs` 39-49 -/
def gridSourceOfCode (value : Nat) : GridDefinitionSource :=
  match value with
  | 0 => .gridDefinitionTemplate
  | 1 => .predeterminedGridDefinition
  | 255 => .none
  | v => .unknown v

/-- `src/grib2/section3/section3_reader.rs` 52-64 -/
def interpretationOfCode (value : Nat) : OptionalPointInterpretation :=
  match value with
  | 0 => .none
  | 1 => .fullCoordinateCircles
  | 2 => .coordinateLines
  | 3 => .actualLatitude
  | 255 => .missing
  | v => .unknown v

/-- `src/grib2/section3/shape_of_earth_reader.rs` 12-21 -/
def shapeOfCode (value : Nat) : ShapeOfEarth :=
  match value with
  | 6 => .sphericalRadius6371229
  | 255 => .missing
  | v => .unknown v

/-- `src/grib2/common/scale_factor_value_reader.rs` 12-18 -/
def readScaleFactorValue : Rd ScaleFactorValue := do
  let factor ← u8
  let value ← u32
  pure { factor, value }

/-- The angle computation of `src/grib2/common/angle_reader.rs` 22: `value as f32 / 1000000.0`. -/
def angleOfU32 (v : Nat) : Fl := Fl.div f32 (Fl.ofNat f32 v) (.fin 1000000)

/-- `src/grib2/common/angle_reader.rs` 21-25 -/
def readAngle : Rd Fl := do
  let v ← u32
  pure (angleOfU32 v)

/-- `src/grib2/section3/section3_template_3_0_reader.rs` 55-64 -/
def resolutionFlagsOfByte (v : Nat) : ResolutionAndComponentFlags :=
  { iDirectionIncrementsNotGiven := v &&& 4 == 0
    jDirectionIncrementsNotGiven := v &&& 8 == 0
    uVRelativeToEN := v &&& 16 == 0 }

/-- `src/grib2/section3/section3_template_3_0_reader.rs` 67-81 -/
def scanningFlagsOfByte (v : Nat) : ScanningModeFlags :=
  { firstRowIIsPositive := v &&& 1 == 0
    firstRowJIsNegative := v &&& 2 == 0
    adjacentPointsInIConsecutive := v &&& 4 == 0
    allRowsSameScanDirection := v &&& 8 == 0
    oddRowsOffsetInI := v &&& 16 == 0
    evenRowsOffsetInI := v &&& 32 == 0
    pointsNotOffsetInJ := v &&& 64 == 0
    rowsHaveNiPointsColsHaveNjPoints := v &&& 128 == 0 }

/-- `src/grib2/section3/section3_template_3_0_reader.rs` 17-52 -/
def readGridTemplate3_0 : Rd GridTemplate3_0 := do
  let shape ← u8
  let sphericalEarthRadius ← readScaleFactorValue
  let majorAxis ← readScaleFactorValue
  let minorAxis ← readScaleFactorValue
  let pointsAlongParallel ← u32
  let pointsAlongMeridian ← u32
  let basicAngle ← u32
  let subdivision ← u32
  let firstLat ← readAngle
  let firstLon ← readAngle
  let resolution ← u8
  let lastLat ← readAngle
  let lastLon ← readAngle
  let iIncrement ← readAngle
  let jIncrement ← readAngle
  let scanning ← u8
  pure { shapeOfEarth := shapeOfCode shape, sphericalEarthRadius, majorAxis, minorAxis,
         pointsAlongParallel, pointsAlongMeridian, basicAngle, subdivision, firstLat, firstLon,
         resolutionFlags := resolutionFlagsOfByte resolution, lastLat, lastLon,
         iIncrement, jIncrement, scanningMode := scanningFlagsOfByte scanning }

/-- `src/grib2/section3/section3_template_3_101_reader.rs` 13-26 -/
def readGridTemplate3_101 : Rd GridTemplate3_101 := do
  let shape ← u8
  let numberOfGrid ← uint 3
  let numberOfGridInRef ← u8
  let horGridUuid ← uint 16
  pure { shapeOfEarth := shapeOfCode shape, numberOfGrid, numberOfGridInRef, horGridUuid }

/-- `src/grib2/section3/section3_reader.rs` 67-84 -/
def readGridTemplate : Rd GridTemplate := do
  let tplNumber ← u16
  if tplNumber = 0 then
    let t ← readGridTemplate3_0
    pure (.latitudeLongitude t)
  else if tplNumber = 101 then
    let t ← readGridTemplate3_101
    pure (.unstructuredGrid t)
  else fail

/-- `src/grib2/section3/section3_reader.rs` 17-36 and `section3.rs` 20-44 -/
def readSection3 : Rd Section3 := do
  let length ← u32
  let sectionNumber ← u8
  let source ← u8
  let numberOfDatapoints ← u32
  let optionalPointLength ← u8
  let interpretation ← u8
  let template ← readGridTemplate
  if sectionNumber ≠ 3 then fail
  else pure { length, source := gridSourceOfCode source, numberOfDatapoints, optionalPointLength,
              optionalPointInterpretation := interpretationOfCode interpretation, template }

/-! ## Section 4 -/

/-- `src/grib2/section4/meteo_parameter_category_reader.rs` 11-25 -/
def categoryOfCode (value : Nat) : MeteoParameterCategory :=
  match value with
  | 0 => .temperature
  | 1 => .moisture
  | 2 => .momentum
  | 3 => .mass
  | 6 => .cloud
  | 191 => .miscellaneous
  | 255 => .missing
  | v => .unknown v

/-- `src/grib2/section4/section4_template_4_0_reader.rs` 14-26 -/
def readProductTemplate4_0 : Rd ProductTemplate4_0 := do
  let category ← u8
  let number ← u8
  let _ ← bytes 23
  pure { category := categoryOfCode category, number }

/-- `src/grib2/section4/section4_template_4_1_reader.rs` 12-54 -/
def readProductTemplate4_1 : Rd ProductTemplate4_1 := do
  let category ← u8
  let number ← u8
  let typeOfGeneratingProcess ← u8
  let backgroundProcess ← u8
  let forecastProcess ← u8
  let hoursAfterRef ← u16
  let minutesAfterRef ← u8
  let timeRangeUnit ← u8
  let forecastTime ← u32
  let firstSurfaceType ← u8
  let firstSurfaceScaleFactor ← u8
  let firstSurfaceScaledValue ← u32
  let secondSurfaceType ← u8
  let secondSurfaceScaleFactor ← u8
  let secondSurfaceScaledValue ← u32
  let ensembleType ← u8
  let perturbationNumber ← u8
  let numberOfForecasts ← u8
  pure { category := categoryOfCode category, number, typeOfGeneratingProcess, backgroundProcess,
         forecastProcess, hoursAfterRef, minutesAfterRef, timeRangeUnit, forecastTime,
         firstSurfaceType, firstSurfaceScaleFactor := signedOfBits 8 firstSurfaceScaleFactor,
         firstSurfaceScaledValue, secondSurfaceType,
         secondSurfaceScaleFactor := signedOfBits 8 secondSurfaceScaleFactor,
         secondSurfaceScaledValue, ensembleType, perturbationNumber, numberOfForecasts }

/-- `src/grib2/section4/section4_template_4_8_reader.rs` 14-31 -/
def readProductTemplate4_8 : Rd ProductTemplate4_0 := do
  let category ← u8
  let number ← u8
  let _ ← bytes 30
  let numOfTimeRangeSpecs ← u8
  let _ ← bytes (4 + 12 * numOfTimeRangeSpecs)
  pure { category := categoryOfCode category, number }

/-- `src/grib2/section4/section4_reader.rs` 35-60 -/
def readProductTemplate (tplNumber tplLength : Nat) : Rd ProductTemplate :=
  if tplNumber = 0 then do
    let t ← readProductTemplate4_0
    pure (.t4_0 t)
  else if tplNumber = 1 then do
    let t ← readProductTemplate4_1
    pure (.t4_1 t)
  else if tplNumber = 8 then do
    let t ← readProductTemplate4_8
    pure (.t4_8 t)
  else do
    let _ ← bytes tplLength
    pure (.unknown tplNumber)

/-- `src/grib2/section4/section4_reader.rs` 15-33 and `section4.rs` 15-33.
`length - 9` panics when `length < 9`. -/
def readSection4 : Rd Section4 := do
  let length ← u32
  let sectionNumber ← u8
  let coordinateValuesCount ← u16
  let tplNumber ← u16
  if length < 9 then crash
  else
    let template ← readProductTemplate tplNumber (length - 9)
    let words ← times u32 coordinateValuesCount
    if sectionNumber ≠ 4 then fail
    else pure { length, coordinateValues := words.map f32OfBits, template }

/-! ## Section 5 -/

/-- `src/grib2/common/signed_number.rs` 4-12 (`-value` cannot overflow: the magnitude has 15 bits) -/
def signedNumberOfU16 (raw : Nat) : Int :=
  let value : Int := ((raw &&& 0x7FFF : Nat) : Int)
  if raw &&& 0x8000 > 0 then -value else value

/-- `src/grib2/section5/data_representation_template_5_0_reader.rs` 33-43 -/
def fieldTypeOfCode (value : Nat) : OriginalFieldType :=
  match value with
  | 0 => .floatingPoint
  | 1 => .integer
  | 255 => .missing
  | v => .unknown v

/-- `src/grib2/section5/data_representation_template_5_0_reader.rs` 14-30 and
`src/grib2/common/signed_number_reader.rs` 12-17 -/
def readDataTemplate5_0 : Rd DataTemplate5_0 := do
  let referenceBits ← u32
  let binaryScale ← u16
  let decimalScale ← u16
  let numberOfBits ← u8
  let fieldType ← u8
  pure { referenceValue := f32OfBits referenceBits, binaryScale := signedNumberOfU16 binaryScale,
         decimalScale := signedNumberOfU16 decimalScale, numberOfBits,
         fieldType := fieldTypeOfCode fieldType }

/-- `src/grib2/section5/section5_reader.rs` 30-47 -/
def readDataTemplate (tplNumber tplLength : Nat) : Rd DataTemplate :=
  if tplNumber = 0 then do
    let t ← readDataTemplate5_0
    pure (.simplePacking t)
  else do
    let _ ← bytes tplLength
    pure (.unknown tplNumber)

/-- `src/grib2/section5/section5_reader.rs` 13-28 and `section5.rs` 16-34.
`length - 11` panics when `length < 11`. -/
def readSection5 : Rd Section5 := do
  let length ← u32
  let sectionNumber ← u8
  let dataPoints ← u32
  let tplNumber ← u16
  if length < 11 then crash
  else
    let template ← readDataTemplate tplNumber (length - 11)
    if sectionNumber ≠ 5 then fail
    else pure { length, dataPoints, template }

/-! ## Sections 6, 7, 8 -/

/-- `src/grib2/section6/section6_reader.rs` 13-27 and `section6.rs` 13-31.
`length - 6` panics when `length < 6`. -/
def readSection6 : Rd Section6 := do
  let length ← u32
  let sectionNumber ← u8
  let bitmapIndicator ← u8
  if length < 6 then crash
  else
    let bitmap ← bytes (length - 6)
    if sectionNumber ≠ 6 then fail
    else pure { length, bitmapIndicator, bitmap }

/-- `src/grib2/section7/section7_reader.rs` 12-33 and `section7.rs` 13-29.
`length - 5` panics when `length < 5`. -/
def readSection7 : Rd Section7 := do
  let length ← u32
  let sectionNumber ← u8
  if length < 5 then crash
  else
    let dataPoints ← times u16 ((length - 5) / 2)
    if sectionNumber ≠ 7 then fail
    else pure { length, dataPoints }

/-- `src/grib2/section8/section8_reader.rs` 11-16 and `section8.rs` 11-19
(bytes that are not UTF-8 are rejected as well). -/
def readSection8 : Rd Unit := do
  let magic ← bytes 4
  if magic ≠ endMagic then fail else pure ()

/-! ## Document -/

/-- `src/grib2/document/grib2_document_reader.rs` 39-62 -/
def readSingleDoc : Rd Document := do
  let section0 ← readSection0
  let section1 ← readSection1
  let section2 ← readSection2
  let section3 ← readSection3
  let section4 ← readSection4
  let section5 ← readSection5
  let section6 ← readSection6
  let section7 ← readSection7
  readSection8
  pure { section0, section1, section2, section3, section4, section5, section6, section7 }

/-- The loop of `src/grib2/document/grib2_document_reader.rs` 21-29.  `fuel` bounds the number of
iterations; it is always called with more fuel than there are bytes left and every successful
iteration consumes bytes, so the fuel never runs out (theorem `multiLoop_fuel`). -/
def multiLoop : Nat → List UInt8 → Res (List Document)
  | 0, _ => .ok []
  | fuel + 1, s =>
    match readSingleDoc s with
    | .ok (d, s') =>
      match multiLoop fuel s' with
      | .ok ds => .ok (d :: ds)
      | .err => .err
      | .panic => .panic
    | .err => .ok []
    | .panic => .panic

/-- `src/grib2/document/grib2_document_reader.rs` 18-36 -/
def readMultiDoc (s : List UInt8) : Res (List Document) :=
  match multiLoop (s.length + 1) s with
  | .ok [] => .err
  | .ok ds => .ok ds
  | .err => .err
  | .panic => .panic

end Verif.Grib2
