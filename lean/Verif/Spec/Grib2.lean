import Verif.Model.Grib2

/-!
# Specification: byte encoding of GRIB2 messages

Written from the WMO FM 92 GRIB edition 2 layout, independently of the reader.
A `Msg` is the abstract content of a message, `encode` its byte string, `Msg.doc` the document a
reader has to return.
Only data types (not functions) of the model are used, except where said.
-/

namespace Verif.Spec.Grib2

open Verif Verif.Grib2

/-- `k`-byte big-endian encoding of `n`. -/
def be : Nat → Nat → List UInt8
  | 0, _ => []
  | k + 1, n => UInt8.ofNat (n / 256 ^ k) :: be k n

/-! ## Code tables (WMO code tables 0.0, 1.2, 1.3, 1.4, 3.0, 3.11, 3.2, 4.1, 5.1) -/

def disciplineCode : Discipline → Nat
  | .meteorological => 0 | .hydrological => 1 | .landSurface => 2 | .satelliteRemoteSensing => 3
  | .spaceWeather => 4 | .oceanographic => 10 | .missing => 255 | .unknown c => c

def disciplineOk : Discipline → Prop
  | .unknown c => c < 256 ∧ c ∉ [0, 1, 2, 3, 4, 10, 255]
  | _ => True

def significanceCode : RefTimeSignificance → Nat
  | .analysis => 0 | .startOfForecast => 1 | .verifyingTimeOfForecast => 2 | .observationTime => 3
  | .missing => 255 | .unknown c => c

def significanceOk : RefTimeSignificance → Prop
  | .unknown c => c < 256 ∧ c ∉ [0, 1, 2, 3, 255]
  | _ => True

def statusCode : ProductionStatus → Nat
  | .operational => 0 | .test => 1 | .research => 2 | .reAnalysis => 3 | .thorpex => 4
  | .thorpexTest => 5 | .s2sOperational => 6 | .s2sTest => 7 | .uerra => 8 | .uerraTest => 9
  | .missing => 255 | .unknown c => c

def statusOk : ProductionStatus → Prop
  | .unknown c => c < 256 ∧ c ∉ [0, 1, 2, 3, 4, 5, 6, 7, 8, 9, 255]
  | _ => True

def dataTypeCode : ProcessedDataType → Nat
  | .analysis => 0 | .forecast => 1 | .analysisAndForecast => 2 | .controlForecast => 3
  | .perturbedForecast => 4 | .controlAndPerturbedForecast => 5
  | .processedSatelliteObservations => 6 | .processedRadarObservations => 7
  | .eventProbability => 8 | .experimental => 192 | .missing => 255 | .unknown c => c

def dataTypeOk : ProcessedDataType → Prop
  | .unknown c => c < 256 ∧ c ∉ [0, 1, 2, 3, 4, 5, 6, 7, 8, 192, 255]
  | _ => True

def sourceCode : GridDefinitionSource → Nat
  | .gridDefinitionTemplate => 0 | .predeterminedGridDefinition => 1 | .none => 255
  | .unknown c => c

def sourceOk : GridDefinitionSource → Prop
  | .unknown c => c < 256 ∧ c ∉ [0, 1, 255]
  | _ => True

def interpretationCode : OptionalPointInterpretation → Nat
  | .none => 0 | .fullCoordinateCircles => 1 | .coordinateLines => 2 | .actualLatitude => 3
  | .missing => 255 | .unknown c => c

def interpretationOk : OptionalPointInterpretation → Prop
  | .unknown c => c < 256 ∧ c ∉ [0, 1, 2, 3, 255]
  | _ => True

def shapeCode : ShapeOfEarth → Nat
  | .sphericalRadius6371229 => 6 | .missing => 255 | .unknown c => c

def shapeOk : ShapeOfEarth → Prop
  | .unknown c => c < 256 ∧ c ∉ [6, 255]
  | _ => True

def categoryCode : MeteoParameterCategory → Nat
  | .temperature => 0 | .moisture => 1 | .momentum => 2 | .mass => 3 | .cloud => 6
  | .miscellaneous => 191 | .missing => 255 | .unknown c => c

def categoryOk : MeteoParameterCategory → Prop
  | .unknown c => c < 256 ∧ c ∉ [0, 1, 2, 3, 6, 191, 255]
  | _ => True

def fieldTypeCode : OriginalFieldType → Nat
  | .floatingPoint => 0 | .integer => 1 | .missing => 255 | .unknown c => c

def fieldTypeOk : OriginalFieldType → Prop
  | .unknown c => c < 256 ∧ c ∉ [0, 1, 255]
  | _ => True

/-! ## Numbers -/

/-- The three fields of an IEEE binary32 word. -/
structure F32Word where
  sign : Bool
  exponent : Nat
  fraction : Nat

def F32Word.ok (w : F32Word) : Prop := w.exponent < 256 ∧ w.fraction < 2 ^ 23

/-- The 32-bit word. -/
def F32Word.bits (w : F32Word) : Nat :=
  (if w.sign then 2 ^ 31 else 0) + w.exponent * 2 ^ 23 + w.fraction

/-- The datum denoted by the word (IEEE 754-2008, 3.4). -/
def F32Word.value (w : F32Word) : Fl :=
  if w.exponent = 255 then
    if w.fraction = 0 then (if w.sign then .ninf else .pinf) else .nan
  else
    let magnitude : Rat :=
      if w.exponent = 0 then (2 : Rat) ^ (-126 : Int) * (w.fraction / 2 ^ 23)
      else (2 : Rat) ^ ((w.exponent : Int) - 127) * (1 + w.fraction / 2 ^ 23)
    .fin (if w.sign then -magnitude else magnitude)

/-- Sign-and-magnitude 16-bit encoding (regulation 92.1.5). -/
def signMagnitude16 (d : Int) : Nat := if d < 0 then 2 ^ 15 + d.natAbs else d.natAbs

/-- Two's complement 8-bit encoding. -/
def twosComplement8 (d : Int) : Nat := (d % 256).toNat

/-- A number of micro-degrees as a binary32 number of degrees: both the conversion of the integer and
the division are rounded. -/
def angleValue (microDegrees : Nat) : Fl := rnd f32 (rndq f32 microDegrees / 1000000)

/-! ## Messages -/

/-- Content of grid definition template 3.0 (angles in micro-degrees, non-negative). -/
structure Grid3_0 where
  shape : ShapeOfEarth
  radius : ScaleFactorValue
  major : ScaleFactorValue
  minor : ScaleFactorValue
  ni : Nat
  nj : Nat
  basicAngle : Nat
  subdivision : Nat
  la1 : Nat
  lo1 : Nat
  resolution : Nat
  la2 : Nat
  lo2 : Nat
  di : Nat
  dj : Nat
  scanning : Nat

inductive Grid where
  | latLon (g : Grid3_0)
  | unstructured (shape : ShapeOfEarth) (number inRef uuid : Nat)

inductive Product where
  | p4_0 (category : MeteoParameterCategory) (number : Nat) (rest : List UInt8)
  | p4_1 (t : ProductTemplate4_1)
  | p4_8 (category : MeteoParameterCategory) (number : Nat) (rest : List UInt8)
      (numTimeRanges : Nat) (timeRanges : List UInt8)
  | other (templateNumber : Nat) (content : List UInt8)

inductive Packing where
  | simple (reference : F32Word) (binaryScale decimalScale : Int) (numberOfBits : Nat)
      (fieldType : OriginalFieldType)
  | other (templateNumber : Nat) (content : List UInt8)

/-- Abstract content of a GRIB2 message. -/
structure Msg where
  reserved : List UInt8
  discipline : Discipline
  edition : Nat
  totalLength : Nat
  center : Nat
  subcenter : Nat
  masterTable : Nat
  localTable : Nat
  significance : RefTimeSignificance
  time : DateTime
  status : ProductionStatus
  dataType : ProcessedDataType
  section1Tail : List UInt8
  localUse : List UInt8
  source : GridDefinitionSource
  numberOfPoints : Nat
  interpretation : OptionalPointInterpretation
  grid : Grid
  product : Product
  coordinates : List F32Word
  numberOfValues : Nat
  packing : Packing
  bitmapIndicator : Nat
  bitmap : List UInt8
  data : List Nat

def encScale (s : ScaleFactorValue) : List UInt8 := be 1 s.factor ++ be 4 s.value

def encGrid : Grid → List UInt8
  | .latLon g =>
    be 2 0 ++ be 1 (shapeCode g.shape) ++ encScale g.radius ++ encScale g.major ++ encScale g.minor
      ++ be 4 g.ni ++ be 4 g.nj ++ be 4 g.basicAngle ++ be 4 g.subdivision
      ++ be 4 g.la1 ++ be 4 g.lo1 ++ be 1 g.resolution ++ be 4 g.la2 ++ be 4 g.lo2
      ++ be 4 g.di ++ be 4 g.dj ++ be 1 g.scanning
  | .unstructured shape number inRef uuid =>
    be 2 101 ++ be 1 (shapeCode shape) ++ be 3 number ++ be 1 inRef ++ be 16 uuid

def productNumber : Product → Nat
  | .p4_0 .. => 0
  | .p4_1 .. => 1
  | .p4_8 .. => 8
  | .other n _ => n

def encProduct : Product → List UInt8
  | .p4_0 category number rest => be 1 (categoryCode category) ++ be 1 number ++ rest
  | .p4_1 t =>
    be 1 (categoryCode t.category) ++ be 1 t.number ++ be 1 t.typeOfGeneratingProcess
      ++ be 1 t.backgroundProcess ++ be 1 t.forecastProcess ++ be 2 t.hoursAfterRef
      ++ be 1 t.minutesAfterRef ++ be 1 t.timeRangeUnit ++ be 4 t.forecastTime
      ++ be 1 t.firstSurfaceType ++ be 1 (twosComplement8 t.firstSurfaceScaleFactor)
      ++ be 4 t.firstSurfaceScaledValue ++ be 1 t.secondSurfaceType
      ++ be 1 (twosComplement8 t.secondSurfaceScaleFactor) ++ be 4 t.secondSurfaceScaledValue
      ++ be 1 t.ensembleType ++ be 1 t.perturbationNumber ++ be 1 t.numberOfForecasts
  | .p4_8 category number rest n timeRanges =>
    be 1 (categoryCode category) ++ be 1 number ++ rest ++ be 1 n ++ timeRanges
  | .other _ content => content

def packingNumber : Packing → Nat
  | .simple .. => 0
  | .other n _ => n

def encPacking : Packing → List UInt8
  | .simple r e d bits ft =>
    be 4 r.bits ++ be 2 (signMagnitude16 e) ++ be 2 (signMagnitude16 d) ++ be 1 bits
      ++ be 1 (fieldTypeCode ft)
  | .other _ content => content

/-- Length of section 3 without/with the template. -/
def section3Length (m : Msg) : Nat := 12 + (encGrid m.grid).length
def section4Length (m : Msg) : Nat := 9 + (encProduct m.product).length + 4 * m.coordinates.length
def section5Length (m : Msg) : Nat := 11 + (encPacking m.packing).length

def encSection0 (m : Msg) : List UInt8 :=
  [0x47, 0x52, 0x49, 0x42] ++ m.reserved ++ be 1 (disciplineCode m.discipline) ++ be 1 m.edition
    ++ be 8 m.totalLength

def encSection1 (m : Msg) : List UInt8 :=
  be 4 (21 + m.section1Tail.length) ++ be 1 1 ++ be 2 m.center ++ be 2 m.subcenter
    ++ be 1 m.masterTable ++ be 1 m.localTable ++ be 1 (significanceCode m.significance)
    ++ be 2 m.time.year ++ be 1 m.time.month ++ be 1 m.time.day ++ be 1 m.time.hour
    ++ be 1 m.time.minute ++ be 1 m.time.second
    ++ be 1 (statusCode m.status) ++ be 1 (dataTypeCode m.dataType) ++ m.section1Tail

def encSection2 (m : Msg) : List UInt8 :=
  be 4 (5 + m.localUse.length) ++ be 1 2 ++ m.localUse

def encSection3 (m : Msg) : List UInt8 :=
  be 4 (section3Length m) ++ be 1 3 ++ be 1 (sourceCode m.source) ++ be 4 m.numberOfPoints
    ++ be 1 0 ++ be 1 (interpretationCode m.interpretation) ++ encGrid m.grid

def encSection4 (m : Msg) : List UInt8 :=
  be 4 (section4Length m) ++ be 1 4 ++ be 2 m.coordinates.length ++ be 2 (productNumber m.product)
    ++ encProduct m.product ++ m.coordinates.flatMap (fun w => be 4 w.bits)

def encSection5 (m : Msg) : List UInt8 :=
  be 4 (section5Length m) ++ be 1 5 ++ be 4 m.numberOfValues ++ be 2 (packingNumber m.packing)
    ++ encPacking m.packing

def encSection6 (m : Msg) : List UInt8 :=
  be 4 (6 + m.bitmap.length) ++ be 1 6 ++ be 1 m.bitmapIndicator ++ m.bitmap

def encSection7 (m : Msg) : List UInt8 :=
  be 4 (5 + 2 * m.data.length) ++ be 1 7 ++ m.data.flatMap (be 2)

/-- The byte string of a message. -/
def encode (m : Msg) : List UInt8 :=
  encSection0 m ++ encSection1 m ++ encSection2 m ++ encSection3 m ++ encSection4 m
    ++ encSection5 m ++ encSection6 m ++ encSection7 m ++ [0x37, 0x37, 0x37, 0x37]

/-! ## Well-formedness: every field fits into its octets -/

def scaleOk (s : ScaleFactorValue) : Prop := s.factor < 256 ∧ s.value < 2 ^ 32

def gridOk : Grid → Prop
  | .latLon g => shapeOk g.shape ∧ scaleOk g.radius ∧ scaleOk g.major ∧ scaleOk g.minor
      ∧ g.ni < 2 ^ 32 ∧ g.nj < 2 ^ 32 ∧ g.basicAngle < 2 ^ 32 ∧ g.subdivision < 2 ^ 32
      ∧ g.la1 < 2 ^ 32 ∧ g.lo1 < 2 ^ 32 ∧ g.resolution < 256 ∧ g.la2 < 2 ^ 32 ∧ g.lo2 < 2 ^ 32
      ∧ g.di < 2 ^ 32 ∧ g.dj < 2 ^ 32 ∧ g.scanning < 256
  | .unstructured shape number inRef uuid =>
      shapeOk shape ∧ number < 2 ^ 24 ∧ inRef < 256 ∧ uuid < 2 ^ 128

def productOk : Product → Prop
  | .p4_0 category number rest => categoryOk category ∧ number < 256 ∧ rest.length = 23
  | .p4_1 t => categoryOk t.category ∧ t.number < 256 ∧ t.typeOfGeneratingProcess < 256
      ∧ t.backgroundProcess < 256 ∧ t.forecastProcess < 256 ∧ t.hoursAfterRef < 2 ^ 16
      ∧ t.minutesAfterRef < 256 ∧ t.timeRangeUnit < 256 ∧ t.forecastTime < 2 ^ 32
      ∧ t.firstSurfaceType < 256 ∧ (-128 ≤ t.firstSurfaceScaleFactor ∧ t.firstSurfaceScaleFactor < 128)
      ∧ t.firstSurfaceScaledValue < 2 ^ 32 ∧ t.secondSurfaceType < 256
      ∧ (-128 ≤ t.secondSurfaceScaleFactor ∧ t.secondSurfaceScaleFactor < 128)
      ∧ t.secondSurfaceScaledValue < 2 ^ 32 ∧ t.ensembleType < 256 ∧ t.perturbationNumber < 256
      ∧ t.numberOfForecasts < 256
  | .p4_8 category number rest n timeRanges =>
      categoryOk category ∧ number < 256 ∧ rest.length = 30 ∧ n < 256
      ∧ timeRanges.length = 4 + 12 * n
  | .other n _ => n < 2 ^ 16 ∧ n ∉ [0, 1, 8]

def packingOk : Packing → Prop
  | .simple r e d bits ft => r.ok ∧ (-32767 ≤ e ∧ e ≤ 32767) ∧ (-32767 ≤ d ∧ d ≤ 32767) ∧ bits < 256
      ∧ fieldTypeOk ft
  | .other n _ => n < 2 ^ 16 ∧ n ≠ 0

/-- A date and time of day that exists (Gregorian calendar). -/
def timeOk (t : DateTime) : Prop :=
  t.year < 2 ^ 16 ∧ 1 ≤ t.month ∧ t.month ≤ 12 ∧ 1 ≤ t.day ∧
  t.day ≤ (if t.month = 2 then
      (if (t.year % 4 = 0 ∧ t.year % 100 ≠ 0) ∨ t.year % 400 = 0 then 29 else 28)
    else if t.month = 4 ∨ t.month = 6 ∨ t.month = 9 ∨ t.month = 11 then 30 else 31) ∧
  t.hour < 24 ∧ t.minute < 60 ∧ t.second < 60

/-- The product template is one of those the reader knows. -/
def Product.known : Product → Prop
  | .other _ _ => False
  | _ => True

/-- Every field is in range. -/
def Msg.ok (m : Msg) : Prop :=
  m.reserved.length = 2 ∧ disciplineOk m.discipline ∧ m.edition < 256 ∧ m.totalLength < 2 ^ 64
  ∧ m.center < 2 ^ 16 ∧ m.subcenter < 2 ^ 16 ∧ m.masterTable < 256 ∧ m.localTable < 256
  ∧ significanceOk m.significance ∧ timeOk m.time ∧ statusOk m.status ∧ dataTypeOk m.dataType
  ∧ 21 + m.section1Tail.length < 2 ^ 32 ∧ 5 + m.localUse.length < 2 ^ 32
  ∧ sourceOk m.source ∧ m.numberOfPoints < 2 ^ 32 ∧ interpretationOk m.interpretation
  ∧ gridOk m.grid ∧ productOk m.product ∧ section4Length m < 2 ^ 32
  ∧ m.coordinates.length < 2 ^ 16 ∧ (∀ w ∈ m.coordinates, w.ok)
  ∧ m.numberOfValues < 2 ^ 32 ∧ packingOk m.packing ∧ section5Length m < 2 ^ 32
  ∧ m.bitmapIndicator < 256 ∧ 6 + m.bitmap.length < 2 ^ 32
  ∧ (∀ v ∈ m.data, v < 2 ^ 16) ∧ 5 + 2 * m.data.length < 2 ^ 32

/-! ## The document described by a message -/

/-- Bit `k` (least significant first) of a flag octet is clear. -/
def clear (octet k : Nat) : Bool := octet / 2 ^ k % 2 == 0

def gridDoc : Grid → GridTemplate
  | .latLon g => .latitudeLongitude
    { shapeOfEarth := g.shape, sphericalEarthRadius := g.radius, majorAxis := g.major
      minorAxis := g.minor, pointsAlongParallel := g.ni, pointsAlongMeridian := g.nj
      basicAngle := g.basicAngle, subdivision := g.subdivision
      firstLat := angleValue g.la1, firstLon := angleValue g.lo1
      resolutionFlags := ⟨clear g.resolution 2, clear g.resolution 3, clear g.resolution 4⟩
      lastLat := angleValue g.la2, lastLon := angleValue g.lo2
      iIncrement := angleValue g.di, jIncrement := angleValue g.dj
      scanningMode := ⟨clear g.scanning 0, clear g.scanning 1, clear g.scanning 2,
        clear g.scanning 3, clear g.scanning 4, clear g.scanning 5, clear g.scanning 6,
        clear g.scanning 7⟩ }
  | .unstructured shape number inRef uuid => .unstructuredGrid
    { shapeOfEarth := shape, numberOfGrid := number, numberOfGridInRef := inRef, horGridUuid := uuid }

def productDoc : Product → ProductTemplate
  | .p4_0 category number _ => .t4_0 { category, number }
  | .p4_1 t => .t4_1 t
  | .p4_8 category number _ _ _ => .t4_8 { category, number }
  | .other n _ => .unknown n

def packingDoc : Packing → DataTemplate
  | .simple r e d bits ft => .simplePacking
    { referenceValue := r.value, binaryScale := e, decimalScale := d, numberOfBits := bits
      fieldType := ft }
  | .other n _ => .unknown n

/-- The document described by a message. -/
def Msg.doc (m : Msg) : Document :=
  { section0 := { discipline := m.discipline, edition := m.edition, length := m.totalLength }
    section1 := { length := 21 + m.section1Tail.length, center := m.center, subcenter := m.subcenter
                  masterTableVersion := m.masterTable, localTableVersion := m.localTable
                  refTimeSignificance := m.significance, refTime := m.time
                  productionStatus := m.status, processedDataType := m.dataType }
    section2 := { length := 5 + m.localUse.length }
    section3 := { length := section3Length m, source := m.source
                  numberOfDatapoints := m.numberOfPoints, optionalPointLength := 0
                  optionalPointInterpretation := m.interpretation, template := gridDoc m.grid }
    section4 := { length := section4Length m, coordinateValues := m.coordinates.map F32Word.value
                  template := productDoc m.product }
    section5 := { length := section5Length m, dataPoints := m.numberOfValues
                  template := packingDoc m.packing }
    section6 := { length := 6 + m.bitmap.length, bitmapIndicator := m.bitmapIndicator
                  bitmap := m.bitmap }
    section7 := { length := 5 + 2 * m.data.length, dataPoints := m.data } }

/-! ## Framing and hazards (properties C04, C05) -/

/-- Big-endian number in the first four bytes of a section: its declared length. -/
def declaredLength (s : List UInt8) : Nat :=
  (s.getD 0 0).toNat * 2 ^ 24 + (s.getD 1 0).toNat * 2 ^ 16 + (s.getD 2 0).toNat * 2 ^ 8
    + (s.getD 3 0).toNat

/-- The section starting here carries section number `k` in its fifth byte. -/
def HasNumber (k : UInt8) (s : List UInt8) : Prop := s[4]? = some k

/-- The date and time stored in bytes 12..18 of an identification section. -/
def storedTime (s : List UInt8) : DateTime :=
  { year := (s.getD 12 0).toNat * 256 + (s.getD 13 0).toNat, month := (s.getD 14 0).toNat
    day := (s.getD 15 0).toNat, hour := (s.getD 16 0).toNat, minute := (s.getD 17 0).toNat
    second := (s.getD 18 0).toNat }

/-- The byte strings on which reading section `k` crashes: an impossible date, or a declared length
below the length of the fixed part of the section. -/
def Hazard (k : Nat) (s : List UInt8) : Prop :=
  match k with
  | 1 => 19 ≤ s.length ∧ (¬ timeOk (storedTime s) ∨
           (21 ≤ s.length ∧ HasNumber 1 s ∧ declaredLength s < 21))
  | 2 => 5 ≤ s.length ∧ HasNumber 2 s ∧ declaredLength s < 5
  | 4 => 9 ≤ s.length ∧ declaredLength s < 9
  | 5 => 11 ≤ s.length ∧ declaredLength s < 11
  | 6 => 6 ≤ s.length ∧ declaredLength s < 6
  | 7 => 5 ≤ s.length ∧ declaredLength s < 5
  | _ => False

end Verif.Spec.Grib2
