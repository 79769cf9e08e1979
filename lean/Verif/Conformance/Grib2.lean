import Verif.Model.Grib2

/-!
# The project's own unit tests, replayed: GRIB2

Every `example` is one test of the project, with its bytes and its expected results (see `Verif/Conformance/Geo.lean`).
The position of the stream after reading is the number of bytes consumed.  The tests named
`it_detects_an_incorrect_section_number` call the constructor of a section directly; here the section is read from bytes
with that number.
-/

namespace Verif.Conformance.Grib2

open Verif Verif.Grib2 Rd

/-- The value read and the position of the stream afterwards. -/
def run {α : Type} (m : Rd α) (s : List UInt8) : Res (α × Nat) :=
  (m s).bind fun p => .ok (p.1, s.length - p.2.length)

/-! ## `src/grib2/common/signed_number.rs` -/

/-- `it_converts_plus1_correctly`, `it_converts_minus1_correctly`, `it_converts_most_positive_value_correctly`,
`it_converts_most_negative_value_correctly` -/
example : signedNumberOfU16 0x0001 = 1 ∧ signedNumberOfU16 0x8001 = -1 ∧ signedNumberOfU16 0x7FFF = 0x7FFF ∧
    signedNumberOfU16 0xFFFF = -0x7FFF := by decide +kernel

/-! ## Section 0 -/

/-- `section0_reader.rs`: `it_correctly_parses_section0` -/
example : run readSection0 [
    0x47, 0x52, 0x49, 0x42, 0xFF, 0xFF, 0x00, 0x02, 0x00, 0x00, 0x00, 0x00, 0x00, 0x18, 0xC4, 0xBD] =
    .ok ({ discipline := .meteorological, edition := 2, length := 1623229 }, 16) := by decide +kernel

/-- `section0.rs`: `it_detects_an_incorrect_section_number` (the magic `MEEP`) -/
example : run readSection0 [0x4D, 0x45, 0x45, 0x50, 0, 0, 255, 0, 0, 0, 0, 0, 0, 0, 0, 0] = .err := by decide +kernel

/-! ## Section 1 -/

/-- `section1_reader.rs`: `it_correctly_parses_section1` -/
example : run readSection1 [
    0x00, 0x00, 0x00, 0x15, 0x01, 0x00, 0x4E, 0x00, 0xFF, 0x13, 0x01, 0x01, 0x07, 0xE6, 0x04, 0x11, 0x00, 0x00, 0x00, 0x00,
    0x01] =
    .ok ({ length := 21, center := 78, subcenter := 255, masterTableVersion := 19, localTableVersion := 1,
           refTimeSignificance := .startOfForecast, refTime := ⟨2022, 4, 17, 0, 0, 0⟩,
           productionStatus := .operational, processedDataType := .forecast }, 21) := by decide +kernel

/-- `section1.rs`: `it_detects_an_incorrect_section_number` -/
example : run readSection1 [0, 0, 0, 0, 0, 0, 0, 0, 0, 0, 0, 255, 0x07, 0xE6, 4, 18, 0, 0, 0, 255, 255] = .err := by
  decide +kernel

/-! ## Section 2 -/

/-- `section2_reader.rs`: `it_correctly_parses_section2` -/
example : run readSection2 [
    0x00, 0x00, 0x00, 0x1B, 0x02, 0xFE, 0x00, 0x07, 0xE6, 0x04, 0x11, 0x00, 0x29, 0x38, 0x00, 0x00, 0x00, 0x00, 0x00, 0x00,
    0x00, 0x00, 0x00, 0x00, 0x00, 0x00, 0x01] =
    .ok ({ length := 27 }, 27) := by decide +kernel

/-- `section2.rs`: `it_detects_an_incorrect_section_number` -/
example : run readSection2 [0, 0, 0, 5, 0] = .err := by decide +kernel

/-! ## Section 3 -/

/-- `section3_reader.rs`: `it_correctly_parses_section3_with_a_regular_lat_lon_grid` -/
example : (run readSection3 [
    0x00, 0x00, 0x00, 0x48, 0x03, 0x00, 0x00, 0x0D, 0xD4, 0x96, 0x00, 0x00, 0x00, 0x00, 0x06, 0xFF, 0xFF, 0xFF, 0xFF, 0xFF,
    0xFF, 0xFF, 0xFF, 0xFF, 0xFF, 0xFF, 0xFF, 0xFF, 0xFF, 0xFF, 0x00, 0x00, 0x04, 0xBF, 0x00, 0x00, 0x02, 0xEA, 0x00, 0x00,
    0x00, 0x00, 0xFF, 0xFF, 0xFF, 0xFF, 0x02, 0x92, 0xDF, 0xE0, 0x15, 0x39, 0x0B, 0x60, 0x30, 0x03, 0x76, 0x3B, 0x00, 0x01,
    0x36, 0x5D, 0x20, 0x00, 0x00, 0x4E, 0x20, 0x00, 0x00, 0x4E, 0x20, 0x40]).bind
      (fun p => .ok ((p.1.length, p.1.source, p.1.numberOfDatapoints), p.1.optionalPointLength,
        p.1.optionalPointInterpretation, (match p.1.template with | .latitudeLongitude _ => true | _ => false), p.2)) =
    .ok ((72, .gridDefinitionTemplate, 906390), 0, .none, true, 72) := by decide +kernel

/-- `section3_reader.rs`: `it_correctly_parses_section3_with_an_unstructured_grid` -/
example : (run readSection3 [
    0x00, 0x00, 0x00, 0x23, 0x03, 0x00, 0x00, 0x2D, 0x00, 0x00, 0x00, 0x00, 0x00, 0x65, 0x06, 0x00, 0x00, 0x1A, 0x01, 0xA2,
    0x7B, 0x8D, 0xE6, 0x18, 0xC4, 0x11, 0xE4, 0x82, 0x0A, 0xB5, 0xB0, 0x98, 0xC6, 0xA5, 0xC0]).bind
      (fun p => .ok ((p.1.length, p.1.source, p.1.numberOfDatapoints), p.1.optionalPointLength,
        p.1.optionalPointInterpretation, (match p.1.template with | .unstructuredGrid _ => true | _ => false), p.2)) =
    .ok ((35, .gridDefinitionTemplate, 2949120), 0, .none, true, 35) := by decide +kernel

/-- `section3.rs`: `it_detects_an_incorrect_section_number` (with the grid of the last test) -/
example : run readSection3 ([0, 0, 0, 0, 0] ++ List.drop 5 [
    0x00, 0x00, 0x00, 0x23, 0x03, 0x00, 0x00, 0x2D, 0x00, 0x00, 0x00, 0x00, 0x00, 0x65, 0x06, 0x00, 0x00, 0x1A, 0x01, 0xA2,
    0x7B, 0x8D, 0xE6, 0x18, 0xC4, 0x11, 0xE4, 0x82, 0x0A, 0xB5, 0xB0, 0x98, 0xC6, 0xA5, 0xC0]) =
    .err := by decide +kernel

/-- `section3_template_3_0_reader.rs`: `it_correctly_parses_template_3_0` -/
example : run readGridTemplate3_0 [
    0x06, 0xFF, 0xFF, 0xFF, 0xFF, 0xFF, 0xFF, 0xFF, 0xFF, 0xFF, 0xFF, 0xFF, 0xFF, 0xFF, 0xFF, 0xFF, 0x00, 0x00, 0x04, 0xBF,
    0x00, 0x00, 0x02, 0xEA, 0x00, 0x00, 0x00, 0x00, 0xFF, 0xFF, 0xFF, 0xFF, 0x02, 0x92, 0xDF, 0xE0, 0x15, 0x39, 0x0B, 0x60,
    0x30, 0x03, 0x76, 0x3B, 0x00, 0x01, 0x36, 0x5D, 0x20, 0x00, 0x00, 0x4E, 0x20, 0x00, 0x00, 0x4E, 0x20, 0x40] =
    .ok ({ shapeOfEarth := .sphericalRadius6371229, sphericalEarthRadius := ⟨255, 4294967295⟩,
           majorAxis := ⟨255, 4294967295⟩, minorAxis := ⟨255, 4294967295⟩, pointsAlongParallel := 1215,
           pointsAlongMeridian := 746, basicAngle := 0, subdivision := 4294967295, firstLat := lit 43.18,
           firstLon := lit 356.06, resolutionFlags := ⟨true, true, false⟩, lastLat := lit 58.08,
           lastLon := lit 20.34, iIncrement := lit 0.02, jIncrement := lit 0.02,
           scanningMode := ⟨true, true, true, true, true, true, false, true⟩ }, 58) := by decide +kernel

/-- `section3_template_3_101_reader.rs`: `it_correctly_parses_template_3_101` -/
example : run readGridTemplate3_101 [
    0x06, 0x00, 0x00, 0x1A, 0x01, 0xA2, 0x7B, 0x8D, 0xE6, 0x18, 0xC4, 0x11, 0xE4, 0x82, 0x0A, 0xB5, 0xB0, 0x98, 0xC6, 0xA5,
    0xC0] =
    .ok ({ shapeOfEarth := .sphericalRadius6371229, numberOfGrid := 26, numberOfGridInRef := 1,
           horGridUuid := 0xA27B8DE618C411E4820AB5B098C6A5C0 }, 21) := by decide +kernel

/-! ## Section 4 -/

/-- Which template a section 4 has. -/
def template4 : ProductTemplate → Nat
  | .t4_0 _ => 0
  | .t4_1 _ => 1
  | .t4_8 _ => 8
  | _ => 99

/-- What the tests of `section4_reader.rs` look at. -/
def summary4 (s : List UInt8) : Res (Nat × Nat × Nat × Nat) :=
  (run readSection4 s).bind fun p =>
    .ok (p.1.length, p.1.coordinateValues.length, template4 p.1.template, p.2)

/-- `section4_reader.rs`: `it_correctly_parses_section4_with_a_tpl_4_0` -/
example : summary4 [
    0x00, 0x00, 0x00, 0x22, 0x04, 0x00, 0x00, 0x00, 0x00, 0x06, 0xC7, 0x02, 0x00, 0x0B, 0x00, 0x00, 0x00, 0x00, 0x00, 0x00,
    0x00, 0x00, 0x01, 0x00, 0x00, 0x00, 0x00, 0x00, 0xFF, 0xFF, 0xFF, 0xFF, 0xFF, 0xFF] =
    .ok (34, 0, 0, 34) := by decide +kernel

/-- `section4_reader.rs`: `it_correctly_parses_section4_with_a_tpl_4_1` -/
example : summary4 [
    0x00, 0x00, 0x00, 0x25, 0x04, 0x00, 0x00, 0x00, 0x01, 0x00, 0x00, 0x04, 0x00, 0x8D, 0x00, 0x00, 0x00, 0x00, 0x00, 0x00,
    0x00, 0x00, 0x01, 0x00, 0x00, 0x00, 0x00, 0x00, 0xFF, 0xFF, 0xFF, 0xFF, 0xFF, 0xFF, 0xC0, 0x00, 0x0B] =
    .ok (37, 0, 1, 37) := by decide +kernel

/-- `section4_reader.rs`: `it_correctly_parses_section4_with_a_tpl_4_8` -/
example : summary4 [
    0x00, 0x00, 0x00, 0x3A, 0x04, 0x00, 0x00, 0x00, 0x08, 0x01, 0x34, 0x02, 0x00, 0x0B, 0x00, 0x00, 0x00, 0x00, 0x00, 0x00,
    0x00, 0x00, 0x01, 0x00, 0x00, 0x00, 0x00, 0x00, 0xFF, 0xFF, 0xFF, 0xFF, 0xFF, 0xFF, 0x07, 0xE6, 0x04, 0x19, 0x01, 0x00,
    0x00, 0x01, 0x00, 0x00, 0x00, 0x00, 0x01, 0x02, 0x00, 0x00, 0x00, 0x00, 0x3C, 0xFF, 0x00, 0x00, 0x00, 0x00] =
    .ok (58, 0, 8, 58) := by decide +kernel

/-- `section4_reader.rs`: `it_correctly_parses_section4_with_coordinate_values_after_tpl` -/
example : summary4 [
    0x00, 0x00, 0x00, 0x3A, 0x04, 0x00, 0x06, 0x00, 0x00, 0x03, 0x06, 0x02, 0x00, 0x0B, 0x00, 0x00, 0x00, 0x00, 0x00, 0x00,
    0x00, 0x00, 0x96, 0x00, 0x00, 0x00, 0x00, 0x01, 0x65, 0x00, 0x00, 0x00, 0x00, 0x00, 0x42, 0x84, 0x00, 0x00, 0x40, 0x80,
    0x00, 0x00, 0xBD, 0x5C, 0xDE, 0xAE, 0x09, 0x7E, 0xDC, 0xB9, 0x01, 0x3D, 0xC2, 0x85, 0xE5, 0x5B, 0x2D, 0x80] =
    .ok (58, 6, 0, 58) := by decide +kernel

/-- `section4.rs`: `it_detects_an_incorrect_section_number` (with the template of the first test) -/
example : summary4 ([0, 0, 0, 34, 0] ++ List.drop 5 [
    0x00, 0x00, 0x00, 0x22, 0x04, 0x00, 0x00, 0x00, 0x00, 0x06, 0xC7, 0x02, 0x00, 0x0B, 0x00, 0x00, 0x00, 0x00, 0x00, 0x00,
    0x00, 0x00, 0x01, 0x00, 0x00, 0x00, 0x00, 0x00, 0xFF, 0xFF, 0xFF, 0xFF, 0xFF, 0xFF]) =
    .err := by decide +kernel

/-- `section4_template_4_0_reader.rs`: `it_correctly_parses_template_4_0` -/
example : (readProductTemplate4_0 [
    0x06, 0xC7, 0x02, 0x00, 0x0B, 0x00, 0x00, 0x00, 0x00, 0x00, 0x00, 0x00, 0x00, 0x01, 0x00, 0x00, 0x00, 0x00, 0x00, 0xFF,
    0xFF, 0xFF, 0xFF, 0xFF, 0xFF]).bind
      (fun p => .ok p.1) = .ok { category := .cloud, number := 199 } := by decide +kernel

/-- `section4_template_4_0_reader.rs`: `it_correctly_parses_template_4_0_of_a_hhl_layer` -/
example : (readProductTemplate4_0 [
    0x03, 0x06, 0x02, 0x00, 0x0B, 0x00, 0x00, 0x00, 0x00, 0x00, 0x00, 0x00, 0x00, 0x96, 0x00, 0x00, 0x00, 0x00, 0x01, 0x65,
    0x00, 0x00, 0x00, 0x00, 0x00]).bind
      (fun p => .ok p.1) = .ok { category := .mass, number := 6 } := by decide +kernel

/-- `section4_template_4_8_reader.rs`: `it_correctly_parses_template_4_8` (the test uses the reader of template 4.0) -/
example : (readProductTemplate4_0 [
    0x01, 0x34, 0x02, 0x00, 0x0B, 0x00, 0x00, 0x00, 0x00, 0x00, 0x00, 0x00, 0x00, 0x01, 0x00, 0x00, 0x00, 0x00, 0x00, 0xFF,
    0xFF, 0xFF, 0xFF, 0xFF, 0xFF, 0x07, 0xE6, 0x04, 0x19, 0x01, 0x00, 0x00, 0x01, 0x00, 0x00, 0x00, 0x00, 0x01, 0x02, 0x00,
    0x00, 0x00, 0x00, 0x3C, 0xFF, 0x00, 0x00, 0x00, 0x00]).bind
      (fun p => .ok p.1) = .ok { category := .moisture, number := 52 } := by decide +kernel

/-! ## Section 5 -/

/-- `data_representation_template_5_0_reader.rs`: `it_correctly_parses_template_5_0` -/
example : run readDataTemplate5_0 [
    0x00, 0x00, 0x00, 0x00, 0x80, 0x0F, 0x00, 0x00, 0x10, 0x00] =
    .ok ({ referenceValue := lit 0, binaryScale := -15, decimalScale := 0, numberOfBits := 16,
           fieldType := .floatingPoint }, 10) := by decide +kernel

/-- What the tests of `section5_reader.rs` look at. -/
def summary5 (s : List UInt8) : Res (Nat × Nat × Bool × Nat) :=
  (run readSection5 s).bind fun p =>
    .ok (p.1.length, p.1.dataPoints, (match p.1.template with | .simplePacking _ => true | _ => false), p.2)

/-- `section5_reader.rs`: `it_correctly_parses_section5` -/
example : summary5 [
    0x00, 0x00, 0x00, 0x15, 0x05, 0x00, 0x0B, 0x84, 0xAE, 0x00, 0x00, 0x00, 0x00, 0x00, 0x00, 0x80, 0x0F, 0x00, 0x00, 0x10,
    0x00] =
    .ok (21, 754862, true, 21) := by decide +kernel

/-- `section5_reader.rs`: `it_correctly_parses_a_section5_for_data_rep_tpl_23774` -/
example : summary5 [
    0x00, 0x00, 0x00, 0x15, 0x05, 0x00, 0x0B, 0x84, 0xAE, 0x00, 0x00, 0xC2, 0x4F, 0xBA, 0x60, 0x80, 0x03, 0x00, 0x00, 0x10,
    0x00] =
    .ok (21, 754862, true, 21) := by decide +kernel

/-- `section5.rs`: `it_detects_an_incorrect_section_number` (with the template of the first test) -/
example : summary5 ([0, 0, 0, 21, 0] ++ List.drop 5 [
    0x00, 0x00, 0x00, 0x15, 0x05, 0x00, 0x0B, 0x84, 0xAE, 0x00, 0x00, 0x00, 0x00, 0x00, 0x00, 0x80, 0x0F, 0x00, 0x00, 0x10,
    0x00]) =
    .err := by decide +kernel

/-! ## Sections 6, 7 and 8 -/

/-- `section6_reader.rs`: `it_correctly_parses_section6_without_a_bitmap` -/
example : run readSection6 [
    0x00, 0x00, 0x00, 0x06, 0x06, 0xFF] =
    .ok ({ length := 6, bitmapIndicator := 255, bitmap := [] }, 6) := by decide +kernel

/-- `section6_reader.rs`: `it_correctly_parses_section6_with_a_bitmap` -/
example : (run readSection6 [
    0x00, 0x00, 0x00, 0x10, 0x06, 0x00, 0x01, 0x02, 0x03, 0x04, 0x05, 0x06, 0x07, 0x08, 0x09, 0x0A]).bind
      (fun p => .ok (p.1.length, p.1.bitmapIndicator, p.1.bitmap.length, p.1.bitmap.head?, p.2)) =
    .ok (16, 0, 10, some 0x01, 16) := by decide +kernel

/-- `section6.rs`: `it_detects_an_incorrect_section_number` -/
example : run readSection6 [0, 0, 0, 6, 0, 0] = .err := by decide +kernel

/-- `section7_reader.rs`: `it_correctly_parses_section7` -/
example : (run readSection7 [
    0x00, 0x00, 0x00, 0x0F, 0x07, 0x79, 0x45, 0x79, 0x84, 0x79, 0x8F, 0x79, 0x51, 0x79, 0x23]).bind
      (fun p => .ok (p.1.length, p.2)) = .ok (15, 15) := by decide +kernel

/-- `section7.rs`: `it_detects_an_incorrect_section_number` -/
example : run readSection7 [0, 0, 0, 11, 0, 0, 1, 0, 2, 0, 3] = .err := by decide +kernel

/-- `section8_reader.rs`: `it_correctly_parses_section8` -/
example : run readSection8 [
    0x37, 0x37, 0x37, 0x37] = .ok ((), 4) := by
  decide +kernel

/-- `section8.rs`: `it_detects_an_incorrect_section_number` (the text `MEEP`) -/
example : run readSection8 [0x4D, 0x45, 0x45, 0x50] = .err := by decide +kernel

end Verif.Conformance.Grib2
