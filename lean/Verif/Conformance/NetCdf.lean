import Verif.Model.Small

/-!
# The project's own unit tests, replayed: NetCDF

Every `example` is one test of the project, with its bytes and its expected results (see `Verif/Conformance/Geo.lean`).
-/

namespace Verif.Conformance.NetCdf

open Verif Verif.NetCdf Rd

/-- The value read and the position of the stream afterwards. -/
def run {α : Type} (m : Rd α) (s : List UInt8) : Res (α × Nat) :=
  (m s).bind fun p => .ok (p.1, s.length - p.2.length)

/-- The bytes of an ASCII text. -/
def ascii (s : String) : List UInt8 := s.toList.map fun c => UInt8.ofNat c.toNat

/-- The twelve bytes 1 to 12 that several tests read. -/
def twelve : List UInt8 := [1, 2, 3, 4, 5, 6, 7, 8, 9, 10, 11, 12]

/-! ## `src/netcdf/common/netcdf_values_reader.rs` -/

/-- `it_reads_byte_values_correctly` -/
example : run (readValues 9 .ncByte) twelve = .ok (.bytes [1, 2, 3, 4, 5, 6, 7, 8, 9], 12) := by decide +kernel

/-- `it_reads_char_values_correctly` -/
example : run (readValues 6 .ncChar) [
    0x76, 0x65, 0x72, 0x74, 0x65, 0x78, 0x00, 0x00] =
    .ok (.chars (ascii "vertex"), 8) := by decide +kernel

/-- `it_reads_short_values_correctly` -/
example : run (readValues 3 .ncShort) twelve = .ok (.shorts [0x102, 0x304, 0x506], 8) := by decide +kernel

/-- `it_reads_int_values_correctly` -/
example : run (readValues 2 .ncInt) twelve = .ok (.ints [0x01020304, 0x05060708], 8) := by decide +kernel

/-- `it_reads_float_values_correctly` -/
example : (run (readValues 2 .ncFloat) twelve).bind (fun p => match p.1 with
      | .floats v => .ok (v.length, p.2)
      | _ => .err) = .ok (2, 8) := by decide +kernel

/-- `it_reads_double_values_correctly` -/
example : (run (readValues 1 .ncDouble) ([0, 0, 0, 0] ++ twelve.drop 4)).bind (fun p => match p.1 with
      | .doubles v => .ok (v.length, p.2)
      | _ => .err) = .ok (1, 8) := by decide +kernel

/-- `it_pads_bytes_correctly` -/
example : run (do let _ ← u8; readPadding 1 1) twelve = .ok ((), 4) := by decide +kernel

/-- `it_pads_shorts_correctly` -/
example : run (do let _ ← u16; let _ ← u16; let _ ← u16; readPadding 3 2) twelve = .ok ((), 8) := by decide +kernel

/-! ## `src/netcdf/header/netcdf_attr_list_reader.rs`, `netcdf_attr_reader.rs` -/

/-- What the tests compare of an attribute: name, type and values. -/
def attr (name : String) (text : String) : Attr := ⟨ascii name, .ncChar, .chars (ascii text)⟩

/-- `netcdf_attr_list_reader.rs`: `it_correctly_parses_the_num_recs`.  The test leaves out the values of the fourth
attribute (its text ends in a control character). -/
example : run (readAttrList crash) [
    0x00, 0x00, 0x00, 0x0C, 0x00, 0x00, 0x00, 0x15, 0x00, 0x00, 0x00, 0x05, 0x74, 0x69, 0x74, 0x6C, 0x65, 0x00, 0x00, 0x00,
    0x00, 0x00, 0x00, 0x02, 0x00, 0x00, 0x00, 0x15, 0x49, 0x43, 0x4F, 0x4E, 0x20, 0x67, 0x72, 0x69, 0x64, 0x20, 0x64, 0x65,
    0x73, 0x63, 0x72, 0x69, 0x70, 0x74, 0x69, 0x6F, 0x6E, 0x00, 0x00, 0x00, 0x00, 0x00, 0x00, 0x07, 0x68, 0x69, 0x73, 0x74,
    0x6F, 0x72, 0x79, 0x00, 0x00, 0x00, 0x00, 0x02, 0x00, 0x00, 0x00, 0x4E, 0x2F, 0x70, 0x61, 0x6E, 0x66, 0x73, 0x2F, 0x65,
    0x2F, 0x76, 0x6F, 0x6C, 0x32, 0x2F, 0x67, 0x7A, 0x61, 0x65, 0x6E, 0x67, 0x6C, 0x2F, 0x69, 0x63, 0x6F, 0x6E, 0x2D, 0x64,
    0x65, 0x76, 0x2F, 0x62, 0x75, 0x69, 0x6C, 0x64, 0x2F, 0x78, 0x38, 0x36, 0x5F, 0x36, 0x34, 0x2D, 0x75, 0x6E, 0x6B, 0x6E,
    0x6F, 0x77, 0x6E, 0x2D, 0x6C, 0x69, 0x6E, 0x75, 0x78, 0x2D, 0x67, 0x6E, 0x75, 0x2F, 0x62, 0x69, 0x6E, 0x2F, 0x67, 0x72,
    0x69, 0x64, 0x5F, 0x63, 0x6F, 0x6D, 0x6D, 0x61, 0x6E, 0x64, 0x00, 0x00, 0x00, 0x00, 0x00, 0x0B, 0x69, 0x6E, 0x73, 0x74,
    0x69, 0x74, 0x75, 0x74, 0x69, 0x6F, 0x6E, 0x00, 0x00, 0x00, 0x00, 0x02, 0x00, 0x00, 0x00, 0x3B, 0x4D, 0x61, 0x78, 0x20,
    0x50, 0x6C, 0x61, 0x6E, 0x63, 0x6B, 0x20, 0x49, 0x6E, 0x73, 0x74, 0x69, 0x74, 0x75, 0x74, 0x65, 0x20, 0x66, 0x6F, 0x72,
    0x20, 0x4D, 0x65, 0x74, 0x65, 0x6F, 0x72, 0x6F, 0x6C, 0x6F, 0x67, 0x79, 0x2F, 0x44, 0x65, 0x75, 0x74, 0x73, 0x63, 0x68,
    0x65, 0x72, 0x20, 0x57, 0x65, 0x74, 0x74, 0x65, 0x72, 0x64, 0x69, 0x65, 0x6E, 0x73, 0x74, 0x00, 0x00, 0x00, 0x00, 0x06,
    0x73, 0x6F, 0x75, 0x72, 0x63, 0x65, 0x00, 0x00, 0x00, 0x00, 0x00, 0x02, 0x00, 0x00, 0x00, 0x0A, 0x69, 0x63, 0x6F, 0x6E,
    0x2D, 0x64, 0x65, 0x76, 0x08, 0x00, 0x00, 0x00, 0x00, 0x00, 0x00, 0x0B, 0x75, 0x75, 0x69, 0x64, 0x4F, 0x66, 0x48, 0x47,
    0x72, 0x69, 0x64, 0x00, 0x00, 0x00, 0x00, 0x02, 0x00, 0x00, 0x00, 0x24, 0x61, 0x32, 0x37, 0x62, 0x38, 0x64, 0x65, 0x36,
    0x2D, 0x31, 0x38, 0x63, 0x34, 0x2D, 0x31, 0x31, 0x65, 0x34, 0x2D, 0x38, 0x32, 0x30, 0x61, 0x2D, 0x62, 0x35, 0x62, 0x30,
    0x39, 0x38, 0x63, 0x36, 0x61, 0x35, 0x63, 0x30, 0x00, 0x00, 0x00, 0x13, 0x6E, 0x75, 0x6D, 0x62, 0x65, 0x72, 0x5F, 0x6F,
    0x66, 0x5F, 0x67, 0x72, 0x69, 0x64, 0x5F, 0x75, 0x73, 0x65, 0x64, 0x00, 0x00, 0x00, 0x00, 0x04, 0x00, 0x00, 0x00, 0x01,
    0x00, 0x00, 0x00, 0x1A, 0x00, 0x00, 0x00, 0x12, 0x49, 0x43, 0x4F, 0x4E, 0x5F, 0x67, 0x72, 0x69, 0x64, 0x5F, 0x66, 0x69,
    0x6C, 0x65, 0x5F, 0x75, 0x72, 0x69, 0x00, 0x00, 0x00, 0x00, 0x00, 0x02, 0x00, 0x00, 0x00, 0x4B, 0x68, 0x74, 0x74, 0x70,
    0x3A, 0x2F, 0x2F, 0x69, 0x63, 0x6F, 0x6E, 0x2D, 0x64, 0x6F, 0x77, 0x6E, 0x6C, 0x6F, 0x61, 0x64, 0x73, 0x2E, 0x6D, 0x70,
    0x69, 0x6D, 0x65, 0x74, 0x2E, 0x6D, 0x70, 0x67, 0x2E, 0x64, 0x65, 0x2F, 0x67, 0x72, 0x69, 0x64, 0x73, 0x2F, 0x70, 0x75,
    0x62, 0x6C, 0x69, 0x63, 0x2F, 0x69, 0x63, 0x6F, 0x6E, 0x5F, 0x67, 0x72, 0x69, 0x64, 0x5F, 0x30, 0x30, 0x32, 0x36, 0x5F,
    0x52, 0x30, 0x33, 0x42, 0x30, 0x37, 0x5F, 0x47, 0x2E, 0x6E, 0x63, 0x00, 0x00, 0x00, 0x00, 0x06, 0x63, 0x65, 0x6E, 0x74,
    0x72, 0x65, 0x00, 0x00, 0x00, 0x00, 0x00, 0x04, 0x00, 0x00, 0x00, 0x01, 0x00, 0x00, 0x00, 0x4E, 0x00, 0x00, 0x00, 0x09,
    0x73, 0x75, 0x62, 0x63, 0x65, 0x6E, 0x74, 0x72, 0x65, 0x00, 0x00, 0x00, 0x00, 0x00, 0x00, 0x04, 0x00, 0x00, 0x00, 0x01,
    0x00, 0x00, 0x00, 0xFF, 0x00, 0x00, 0x00, 0x0D, 0x6F, 0x75, 0x74, 0x6E, 0x61, 0x6D, 0x65, 0x5F, 0x73, 0x74, 0x79, 0x6C,
    0x65, 0x00, 0x00, 0x00, 0x00, 0x00, 0x00, 0x04, 0x00, 0x00, 0x00, 0x01, 0x00, 0x00, 0x00, 0x02, 0x00, 0x00, 0x00, 0x11,
    0x67, 0x72, 0x69, 0x64, 0x5F, 0x6D, 0x61, 0x70, 0x70, 0x69, 0x6E, 0x67, 0x5F, 0x6E, 0x61, 0x6D, 0x65, 0x00, 0x00, 0x00,
    0x00, 0x00, 0x00, 0x02, 0x00, 0x00, 0x00, 0x12, 0x6C, 0x61, 0x74, 0x5F, 0x6C, 0x6F, 0x6E, 0x67, 0x5F, 0x6F, 0x6E, 0x5F,
    0x73, 0x70, 0x68, 0x65, 0x72, 0x65, 0x00, 0x00, 0x00, 0x00, 0x00, 0x06, 0x63, 0x72, 0x73, 0x5F, 0x69, 0x64, 0x00, 0x00,
    0x00, 0x00, 0x00, 0x02, 0x00, 0x00, 0x00, 0x1C, 0x75, 0x72, 0x6E, 0x3A, 0x6F, 0x67, 0x63, 0x3A, 0x64, 0x65, 0x66, 0x3A,
    0x63, 0x73, 0x3A, 0x45, 0x50, 0x53, 0x47, 0x3A, 0x36, 0x2E, 0x30, 0x3A, 0x36, 0x34, 0x32, 0x32, 0x00, 0x00, 0x00, 0x08,
    0x63, 0x72, 0x73, 0x5F, 0x6E, 0x61, 0x6D, 0x65, 0x00, 0x00, 0x00, 0x02, 0x00, 0x00, 0x00, 0x1E, 0x53, 0x70, 0x68, 0x65,
    0x72, 0x69, 0x63, 0x61, 0x6C, 0x20, 0x32, 0x44, 0x20, 0x43, 0x6F, 0x6F, 0x72, 0x64, 0x69, 0x6E, 0x61, 0x74, 0x65, 0x20,
    0x53, 0x79, 0x73, 0x74, 0x65, 0x6D, 0x00, 0x00, 0x00, 0x00, 0x00, 0x0E, 0x65, 0x6C, 0x6C, 0x69, 0x70, 0x73, 0x6F, 0x69,
    0x64, 0x5F, 0x6E, 0x61, 0x6D, 0x65, 0x00, 0x00, 0x00, 0x00, 0x00, 0x02, 0x00, 0x00, 0x00, 0x06, 0x53, 0x70, 0x68, 0x65,
    0x72, 0x65, 0x00, 0x00, 0x00, 0x00, 0x00, 0x0F, 0x73, 0x65, 0x6D, 0x69, 0x5F, 0x6D, 0x61, 0x6A, 0x6F, 0x72, 0x5F, 0x61,
    0x78, 0x69, 0x73, 0x00, 0x00, 0x00, 0x00, 0x06, 0x00, 0x00, 0x00, 0x01, 0x41, 0x58, 0x4D, 0xE7, 0x40, 0x00, 0x00, 0x00,
    0x00, 0x00, 0x00, 0x12, 0x69, 0x6E, 0x76, 0x65, 0x72, 0x73, 0x65, 0x5F, 0x66, 0x6C, 0x61, 0x74, 0x74, 0x65, 0x6E, 0x69,
    0x6E, 0x67, 0x00, 0x00, 0x00, 0x00, 0x00, 0x06, 0x00, 0x00, 0x00, 0x01, 0x00, 0x00, 0x00, 0x00, 0x00, 0x00, 0x00, 0x00,
    0x00, 0x00, 0x00, 0x0A, 0x67, 0x72, 0x69, 0x64, 0x5F, 0x6C, 0x65, 0x76, 0x65, 0x6C, 0x00, 0x00, 0x00, 0x00, 0x00, 0x04,
    0x00, 0x00, 0x00, 0x01, 0x00, 0x00, 0x00, 0x07, 0x00, 0x00, 0x00, 0x09, 0x67, 0x72, 0x69, 0x64, 0x5F, 0x72, 0x6F, 0x6F,
    0x74, 0x00, 0x00, 0x00, 0x00, 0x00, 0x00, 0x04, 0x00, 0x00, 0x00, 0x01, 0x00, 0x00, 0x00, 0x03, 0x00, 0x00, 0x00, 0x07,
    0x67, 0x72, 0x69, 0x64, 0x5F, 0x49, 0x44, 0x00, 0x00, 0x00, 0x00, 0x04, 0x00, 0x00, 0x00, 0x01, 0x00, 0x00, 0x00, 0x01,
    0x00, 0x00, 0x00, 0x0E, 0x70, 0x61, 0x72, 0x65, 0x6E, 0x74, 0x5F, 0x67, 0x72, 0x69, 0x64, 0x5F, 0x49, 0x44, 0x00, 0x00,
    0x00, 0x00, 0x00, 0x04, 0x00, 0x00, 0x00, 0x01, 0x00, 0x00, 0x00, 0x00, 0x00, 0x00, 0x00, 0x0C, 0x6D, 0x61, 0x78, 0x5F,
    0x63, 0x68, 0x69, 0x6C, 0x64, 0x64, 0x6F, 0x6D, 0x00, 0x00, 0x00, 0x04, 0x00, 0x00, 0x00, 0x01, 0x00, 0x00, 0x00, 0x01] =
    .ok ([attr "title" "ICON grid description",
      attr "history" "/panfs/e/vol2/gzaengl/icon-dev/build/x86_64-unknown-linux-gnu/bin/grid_command",
      attr "institution" "Max Planck Institute for Meteorology/Deutscher Wetterdienst",
      ⟨ascii "source", .ncChar, .chars (ascii "icon-dev" ++ [8, 0])⟩,
      attr "uuidOfHGrid" "a27b8de6-18c4-11e4-820a-b5b098c6a5c0",
      ⟨ascii "number_of_grid_used", .ncInt, .ints [26]⟩,
      attr "ICON_grid_file_uri" "http://icon-downloads.mpimet.mpg.de/grids/public/icon_grid_0026_R03B07_G.nc",
      ⟨ascii "centre", .ncInt, .ints [78]⟩,
      ⟨ascii "subcentre", .ncInt, .ints [255]⟩,
      ⟨ascii "outname_style", .ncInt, .ints [2]⟩,
      attr "grid_mapping_name" "lat_long_on_sphere",
      attr "crs_id" "urn:ogc:def:cs:EPSG:6.0:6422",
      attr "crs_name" "Spherical 2D Coordinate System",
      attr "ellipsoid_name" "Sphere",
      ⟨ascii "semi_major_axis", .ncDouble, .doubles [.fin 6371229]⟩,
      ⟨ascii "inverse_flattening", .ncDouble, .doubles [.fin 0]⟩,
      ⟨ascii "grid_level", .ncInt, .ints [7]⟩,
      ⟨ascii "grid_root", .ncInt, .ints [3]⟩,
      ⟨ascii "grid_ID", .ncInt, .ints [1]⟩,
      ⟨ascii "parent_grid_ID", .ncInt, .ints [0]⟩,
      ⟨ascii "max_childdom", .ncInt, .ints [1]⟩], 960) := by decide +kernel

/-- The getters used by that test. -/
example : (attr "title" "ICON grid description").values.getChars = .ok (ascii "ICON grid description") ∧
    (Values.ints [26]).getInts = .ok [26] ∧ (Values.doubles [.fin 6371229]).getDoubles = .ok [.fin 6371229] := by
  decide +kernel

/-- `netcdf_attr_list_reader.rs`: `it_correctly_parses_an_absent_attr_list` -/
example : run (readAttrList crash) [0, 0, 0, 0, 0, 0, 0, 0] = .ok ([], 8) := by decide +kernel

/-- `netcdf_attr_reader.rs`: `it_correctly_parses_an_attr_entry` -/
example : run (readAttr crash) [
    0x00, 0x00, 0x00, 0x05, 0x74, 0x69, 0x74, 0x6C, 0x65, 0x00, 0x00, 0x00, 0x00, 0x00, 0x00, 0x02, 0x00, 0x00, 0x00, 0x15,
    0x49, 0x43, 0x4F, 0x4E, 0x20, 0x67, 0x72, 0x69, 0x64, 0x20, 0x64, 0x65, 0x73, 0x63, 0x72, 0x69, 0x70, 0x74, 0x69, 0x6F,
    0x6E, 0x00, 0x00, 0x00] =
    .ok (attr "title" "ICON grid description", 44) := by decide +kernel

/-! ## `src/netcdf/header/netcdf_dim_list_reader.rs`, `netcdf_dim_reader.rs` -/

/-- `netcdf_dim_list_reader.rs`: `it_correctly_parses_the_dim_list` -/
example : run readDimList [
    0x00, 0x00, 0x00, 0x0A, 0x00, 0x00, 0x00, 0x0E, 0x00, 0x00, 0x00, 0x04, 0x63, 0x65, 0x6C, 0x6C, 0x00, 0x2D, 0x00, 0x00,
    0x00, 0x00, 0x00, 0x06, 0x76, 0x65, 0x72, 0x74, 0x65, 0x78, 0x00, 0x00, 0x00, 0x16, 0x80, 0x02, 0x00, 0x00, 0x00, 0x04,
    0x65, 0x64, 0x67, 0x65, 0x00, 0x43, 0x80, 0x00, 0x00, 0x00, 0x00, 0x02, 0x6E, 0x63, 0x00, 0x00, 0x00, 0x00, 0x00, 0x02,
    0x00, 0x00, 0x00, 0x02, 0x6E, 0x76, 0x00, 0x00, 0x00, 0x00, 0x00, 0x03, 0x00, 0x00, 0x00, 0x02, 0x6E, 0x65, 0x00, 0x00,
    0x00, 0x00, 0x00, 0x06, 0x00, 0x00, 0x00, 0x02, 0x6E, 0x6F, 0x00, 0x00, 0x00, 0x00, 0x00, 0x04, 0x00, 0x00, 0x00, 0x07,
    0x74, 0x77, 0x6F, 0x5F, 0x67, 0x72, 0x66, 0x00, 0x00, 0x00, 0x00, 0x02, 0x00, 0x00, 0x00, 0x09, 0x6D, 0x61, 0x78, 0x5F,
    0x63, 0x68, 0x64, 0x6F, 0x6D, 0x00, 0x00, 0x00, 0x00, 0x00, 0x00, 0x01, 0x00, 0x00, 0x00, 0x08, 0x63, 0x65, 0x6C, 0x6C,
    0x5F, 0x67, 0x72, 0x66, 0x00, 0x00, 0x00, 0x0E, 0x00, 0x00, 0x00, 0x08, 0x65, 0x64, 0x67, 0x65, 0x5F, 0x67, 0x72, 0x66,
    0x00, 0x00, 0x00, 0x18, 0x00, 0x00, 0x00, 0x08, 0x76, 0x65, 0x72, 0x74, 0x5F, 0x67, 0x72, 0x66, 0x00, 0x00, 0x00, 0x0D,
    0x00, 0x00, 0x00, 0x0D, 0x63, 0x65, 0x6C, 0x6C, 0x5F, 0x64, 0x65, 0x6C, 0x61, 0x75, 0x6E, 0x61, 0x79, 0x00, 0x00, 0x00,
    0x00, 0x59, 0xFF, 0xFC, 0x00, 0x00, 0x00, 0x0D, 0x76, 0x65, 0x72, 0x74, 0x5F, 0x64, 0x65, 0x6C, 0x61, 0x75, 0x6E, 0x61,
    0x79, 0x00, 0x00, 0x00, 0x00, 0x00, 0x00, 0x03] =
    .ok ([⟨ascii "cell", 2949120⟩, ⟨ascii "vertex", 1474562⟩, ⟨ascii "edge", 4423680⟩, ⟨ascii "nc", 2⟩,
      ⟨ascii "nv", 3⟩, ⟨ascii "ne", 6⟩, ⟨ascii "no", 4⟩, ⟨ascii "two_grf", 2⟩, ⟨ascii "max_chdom", 1⟩,
      ⟨ascii "cell_grf", 14⟩, ⟨ascii "edge_grf", 24⟩, ⟨ascii "vert_grf", 13⟩, ⟨ascii "cell_delaunay", 5898236⟩,
      ⟨ascii "vert_delaunay", 3⟩], 228) := by decide +kernel

/-- `netcdf_dim_list_reader.rs`: `it_correctly_parses_an_absent_dim_list` -/
example : run readDimList [0, 0, 0, 0, 0, 0, 0, 0] = .ok ([], 8) := by decide +kernel

/-- `netcdf_dim_reader.rs`: `it_correctly_parses_a_dim_entry_without_padding` -/
example : run readDim [
    0x00, 0x00, 0x00, 0x04, 0x63, 0x65, 0x6C, 0x6C, 0x00, 0x2D, 0x00, 0x00] =
    .ok (⟨ascii "cell", 0x002D0000⟩, 12) := by decide +kernel

/-- `netcdf_dim_reader.rs`: `it_correctly_parses_a_dim_entry_with_padding` -/
example : run readDim [
    0x00, 0x00, 0x00, 0x06, 0x76, 0x65, 0x72, 0x74, 0x65, 0x78, 0x00, 0x00, 0x00, 0x16, 0x80, 0x02] =
    .ok (⟨ascii "vertex", 0x00168002⟩, 16) := by decide +kernel

/-! ## `src/netcdf/header/netcdf_header_reader.rs`, `netcdf_magic.rs`, `netcdf_magic_reader.rs` -/

/-- `netcdf_header_reader.rs`: `it_correctly_parses_a_header_of_an_file_with_empty_lists` -/
example : (run readHeader [
    0x43, 0x44, 0x46, 0x02, 0x00, 0x00, 0x00, 0x00, 0x00, 0x00, 0x00, 0x00, 0x00, 0x00, 0x00, 0x00, 0x00, 0x00, 0x00, 0x00,
    0x00, 0x00, 0x00, 0x00, 0x00, 0x00, 0x00, 0x00, 0x00, 0x00, 0x00, 0x00]).bind
      (fun p => .ok (p.1.magic.magic, p.1.magic.version, p.1.dimList.length, p.1.attList.length, p.1.varList.length,
        p.2)) = .ok (ascii "CDF", 2, 0, 0, 0, 32) := by decide +kernel

/-- `netcdf_magic.rs`: `it_verifies_the_correct_magic`, `it_verifies_the_supported_version` -/
example : Magic.new (ascii "TODO") 2 = .err ∧ Magic.new netcdfMagic 3 = .err := by decide +kernel

/-- `netcdf_magic_reader.rs`: `it_correctly_parses_the_magic` -/
example : run readMagic [0x43, 0x44, 0x46, 0x02] = .ok (⟨ascii "CDF", 2⟩, 4) := by decide +kernel

/-! ## `src/netcdf/header/netcdf_var_list_reader.rs`, `netcdf_var_reader.rs` -/

/-- `netcdf_var_list_reader.rs`: `it_correctly_parses_the_var_list` -/
example : (run (readVarList crash) [
    0x00, 0x00, 0x00, 0x0B, 0x00, 0x00, 0x00, 0x05, 0x00, 0x00, 0x00, 0x04, 0x63, 0x6C, 0x6F, 0x6E, 0x00, 0x00, 0x00, 0x01,
    0x00, 0x00, 0x00, 0x00, 0x00, 0x00, 0x00, 0x0C, 0x00, 0x00, 0x00, 0x04, 0x00, 0x00, 0x00, 0x09, 0x6C, 0x6F, 0x6E, 0x67,
    0x5F, 0x6E, 0x61, 0x6D, 0x65, 0x00, 0x00, 0x00, 0x00, 0x00, 0x00, 0x02, 0x00, 0x00, 0x00, 0x10, 0x63, 0x65, 0x6E, 0x74,
    0x65, 0x72, 0x20, 0x6C, 0x6F, 0x6E, 0x67, 0x69, 0x74, 0x75, 0x64, 0x65, 0x00, 0x00, 0x00, 0x05, 0x75, 0x6E, 0x69, 0x74,
    0x73, 0x00, 0x00, 0x00, 0x00, 0x00, 0x00, 0x02, 0x00, 0x00, 0x00, 0x06, 0x72, 0x61, 0x64, 0x69, 0x61, 0x6E, 0x00, 0x00,
    0x00, 0x00, 0x00, 0x0D, 0x73, 0x74, 0x61, 0x6E, 0x64, 0x61, 0x72, 0x64, 0x5F, 0x6E, 0x61, 0x6D, 0x65, 0x00, 0x00, 0x00,
    0x00, 0x00, 0x00, 0x02, 0x00, 0x00, 0x00, 0x0E, 0x67, 0x72, 0x69, 0x64, 0x5F, 0x6C, 0x6F, 0x6E, 0x67, 0x69, 0x74, 0x75,
    0x64, 0x65, 0x00, 0x00, 0x00, 0x00, 0x00, 0x06, 0x62, 0x6F, 0x75, 0x6E, 0x64, 0x73, 0x00, 0x00, 0x00, 0x00, 0x00, 0x02,
    0x00, 0x00, 0x00, 0x0D, 0x63, 0x6C, 0x6F, 0x6E, 0x5F, 0x76, 0x65, 0x72, 0x74, 0x69, 0x63, 0x65, 0x73, 0x00, 0x00, 0x00,
    0x00, 0x00, 0x00, 0x06, 0x01, 0x68, 0x00, 0x00, 0x00, 0x00, 0x00, 0x00, 0x00, 0x00, 0x21, 0x28, 0x00, 0x00, 0x00, 0x04,
    0x63, 0x6C, 0x61, 0x74, 0x00, 0x00, 0x00, 0x01, 0x00, 0x00, 0x00, 0x00, 0x00, 0x00, 0x00, 0x0C, 0x00, 0x00, 0x00, 0x04,
    0x00, 0x00, 0x00, 0x09, 0x6C, 0x6F, 0x6E, 0x67, 0x5F, 0x6E, 0x61, 0x6D, 0x65, 0x00, 0x00, 0x00, 0x00, 0x00, 0x00, 0x02,
    0x00, 0x00, 0x00, 0x0F, 0x63, 0x65, 0x6E, 0x74, 0x65, 0x72, 0x20, 0x6C, 0x61, 0x74, 0x69, 0x74, 0x75, 0x64, 0x65, 0x00,
    0x00, 0x00, 0x00, 0x05, 0x75, 0x6E, 0x69, 0x74, 0x73, 0x00, 0x00, 0x00, 0x00, 0x00, 0x00, 0x02, 0x00, 0x00, 0x00, 0x06,
    0x72, 0x61, 0x64, 0x69, 0x61, 0x6E, 0x00, 0x00, 0x00, 0x00, 0x00, 0x0D, 0x73, 0x74, 0x61, 0x6E, 0x64, 0x61, 0x72, 0x64,
    0x5F, 0x6E, 0x61, 0x6D, 0x65, 0x00, 0x00, 0x00, 0x00, 0x00, 0x00, 0x02, 0x00, 0x00, 0x00, 0x0D, 0x67, 0x72, 0x69, 0x64,
    0x5F, 0x6C, 0x61, 0x74, 0x69, 0x74, 0x75, 0x64, 0x65, 0x00, 0x00, 0x00, 0x00, 0x00, 0x00, 0x06, 0x62, 0x6F, 0x75, 0x6E,
    0x64, 0x73, 0x00, 0x00, 0x00, 0x00, 0x00, 0x02, 0x00, 0x00, 0x00, 0x0D, 0x63, 0x6C, 0x61, 0x74, 0x5F, 0x76, 0x65, 0x72,
    0x74, 0x69, 0x63, 0x65, 0x73, 0x00, 0x00, 0x00, 0x00, 0x00, 0x00, 0x06, 0x01, 0x68, 0x00, 0x00, 0x00, 0x00, 0x00, 0x00,
    0x01, 0x68, 0x21, 0x28, 0x00, 0x00, 0x00, 0x0D, 0x63, 0x6C, 0x6F, 0x6E, 0x5F, 0x76, 0x65, 0x72, 0x74, 0x69, 0x63, 0x65,
    0x73, 0x00, 0x00, 0x00, 0x00, 0x00, 0x00, 0x02, 0x00, 0x00, 0x00, 0x00, 0x00, 0x00, 0x00, 0x04, 0x00, 0x00, 0x00, 0x0C,
    0x00, 0x00, 0x00, 0x01, 0x00, 0x00, 0x00, 0x05, 0x75, 0x6E, 0x69, 0x74, 0x73, 0x00, 0x00, 0x00, 0x00, 0x00, 0x00, 0x02,
    0x00, 0x00, 0x00, 0x06, 0x72, 0x61, 0x64, 0x69, 0x61, 0x6E, 0x00, 0x00, 0x00, 0x00, 0x00, 0x06, 0x04, 0x38, 0x00, 0x00,
    0x00, 0x00, 0x00, 0x00, 0x02, 0xD0, 0x21, 0x28, 0x00, 0x00, 0x00, 0x0D, 0x63, 0x6C, 0x61, 0x74, 0x5F, 0x76, 0x65, 0x72,
    0x74, 0x69, 0x63, 0x65, 0x73, 0x00, 0x00, 0x00, 0x00, 0x00, 0x00, 0x02, 0x00, 0x00, 0x00, 0x00, 0x00, 0x00, 0x00, 0x04,
    0x00, 0x00, 0x00, 0x0C, 0x00, 0x00, 0x00, 0x01, 0x00, 0x00, 0x00, 0x05, 0x75, 0x6E, 0x69, 0x74, 0x73, 0x00, 0x00, 0x00,
    0x00, 0x00, 0x00, 0x02, 0x00, 0x00, 0x00, 0x06, 0x72, 0x61, 0x64, 0x69, 0x61, 0x6E, 0x00, 0x00, 0x00, 0x00, 0x00, 0x06,
    0x04, 0x38, 0x00, 0x00, 0x00, 0x00, 0x00, 0x00, 0x07, 0x08, 0x21, 0x28, 0x00, 0x00, 0x00, 0x04, 0x76, 0x6C, 0x6F, 0x6E,
    0x00, 0x00, 0x00, 0x01, 0x00, 0x00, 0x00, 0x01, 0x00, 0x00, 0x00, 0x0C, 0x00, 0x00, 0x00, 0x04, 0x00, 0x00, 0x00, 0x09,
    0x6C, 0x6F, 0x6E, 0x67, 0x5F, 0x6E, 0x61, 0x6D, 0x65, 0x00, 0x00, 0x00, 0x00, 0x00, 0x00, 0x02, 0x00, 0x00, 0x00, 0x10,
    0x76, 0x65, 0x72, 0x74, 0x65, 0x78, 0x20, 0x6C, 0x6F, 0x6E, 0x67, 0x69, 0x74, 0x75, 0x64, 0x65, 0x00, 0x00, 0x00, 0x05,
    0x75, 0x6E, 0x69, 0x74, 0x73, 0x00, 0x00, 0x00, 0x00, 0x00, 0x00, 0x02, 0x00, 0x00, 0x00, 0x06, 0x72, 0x61, 0x64, 0x69,
    0x61, 0x6E, 0x00, 0x00, 0x00, 0x00, 0x00, 0x0D, 0x73, 0x74, 0x61, 0x6E, 0x64, 0x61, 0x72, 0x64, 0x5F, 0x6E, 0x61, 0x6D,
    0x65, 0x00, 0x00, 0x00, 0x00, 0x00, 0x00, 0x02, 0x00, 0x00, 0x00, 0x0E, 0x67, 0x72, 0x69, 0x64, 0x5F, 0x6C, 0x6F, 0x6E,
    0x67, 0x69, 0x74, 0x75, 0x64, 0x65, 0x00, 0x00, 0x00, 0x00, 0x00, 0x06, 0x62, 0x6F, 0x75, 0x6E, 0x64, 0x73, 0x00, 0x00,
    0x00, 0x00, 0x00, 0x02, 0x00, 0x00, 0x00, 0x0D, 0x76, 0x6C, 0x6F, 0x6E, 0x5F, 0x76, 0x65, 0x72, 0x74, 0x69, 0x63, 0x65,
    0x73, 0x00, 0x00, 0x00, 0x00, 0x00, 0x00, 0x06, 0x00, 0xB4, 0x00, 0x10, 0x00, 0x00, 0x00, 0x00, 0x0B, 0x40, 0x21, 0x28]).bind
      (fun p => .ok (p.1.map fun v => (v.name, v.ncType, v.size, v.begin), p.2)) =
    .ok ([(ascii "clon", .ncDouble, 23592960, 8488), (ascii "clat", .ncDouble, 23592960, 23601448),
      (ascii "clon_vertices", .ncDouble, 70778880, 47194408), (ascii "clat_vertices", .ncDouble, 70778880, 117973288),
      (ascii "vlon", .ncDouble, 11796496, 188752168)], 740) := by decide +kernel

/-- `netcdf_var_list_reader.rs`: `it_correctly_parses_an_absent_var_list` -/
example : run (readVarList crash) [0, 0, 0, 0, 0, 0, 0, 0] = .ok ([], 8) := by decide +kernel

/-- `netcdf_var_reader.rs`: `it_correctly_parses_a_var_entry` -/
example : run (readVar crash) [
    0x00, 0x00, 0x00, 0x04, 0x63, 0x6C, 0x6F, 0x6E, 0x00, 0x00, 0x00, 0x01, 0x00, 0x00, 0x00, 0x00, 0x00, 0x00, 0x00, 0x0C,
    0x00, 0x00, 0x00, 0x04, 0x00, 0x00, 0x00, 0x09, 0x6C, 0x6F, 0x6E, 0x67, 0x5F, 0x6E, 0x61, 0x6D, 0x65, 0x00, 0x00, 0x00,
    0x00, 0x00, 0x00, 0x02, 0x00, 0x00, 0x00, 0x10, 0x63, 0x65, 0x6E, 0x74, 0x65, 0x72, 0x20, 0x6C, 0x6F, 0x6E, 0x67, 0x69,
    0x74, 0x75, 0x64, 0x65, 0x00, 0x00, 0x00, 0x05, 0x75, 0x6E, 0x69, 0x74, 0x73, 0x00, 0x00, 0x00, 0x00, 0x00, 0x00, 0x02,
    0x00, 0x00, 0x00, 0x06, 0x72, 0x61, 0x64, 0x69, 0x61, 0x6E, 0x00, 0x00, 0x00, 0x00, 0x00, 0x0D, 0x73, 0x74, 0x61, 0x6E,
    0x64, 0x61, 0x72, 0x64, 0x5F, 0x6E, 0x61, 0x6D, 0x65, 0x00, 0x00, 0x00, 0x00, 0x00, 0x00, 0x02, 0x00, 0x00, 0x00, 0x0E,
    0x67, 0x72, 0x69, 0x64, 0x5F, 0x6C, 0x6F, 0x6E, 0x67, 0x69, 0x74, 0x75, 0x64, 0x65, 0x00, 0x00, 0x00, 0x00, 0x00, 0x06,
    0x62, 0x6F, 0x75, 0x6E, 0x64, 0x73, 0x00, 0x00, 0x00, 0x00, 0x00, 0x02, 0x00, 0x00, 0x00, 0x0D, 0x63, 0x6C, 0x6F, 0x6E,
    0x5F, 0x76, 0x65, 0x72, 0x74, 0x69, 0x63, 0x65, 0x73, 0x00, 0x00, 0x00, 0x00, 0x00, 0x00, 0x06, 0x01, 0x68, 0x00, 0x00,
    0x00, 0x00, 0x00, 0x00, 0x00, 0x00, 0x21, 0x28] =
    .ok ({ name := ascii "clon", dimIds := [0],
           attributes := [attr "long_name" "center longitude", attr "units" "radian",
             attr "standard_name" "grid_longitude", attr "bounds" "clon_vertices"],
           ncType := .ncDouble, size := 23592960, begin := 8488 }, 188) := by decide +kernel

/-- `netcdf_var_reader.rs`: `it_correctly_parses_a_var_entry_without_attributes` -/
example : (run (readVar crash) [
    0x00, 0x00, 0x00, 0x0B, 0x63, 0x63, 0x5F, 0x64, 0x65, 0x6C, 0x61, 0x75, 0x6E, 0x61, 0x79, 0x00, 0x00, 0x00, 0x00, 0x02,
    0x00, 0x00, 0x00, 0x0D, 0x00, 0x00, 0x00, 0x0C, 0x00, 0x00, 0x00, 0x00, 0x00, 0x00, 0x00, 0x00, 0x00, 0x00, 0x00, 0x04,
    0x00, 0x01, 0xDF, 0xD0, 0x00, 0x00, 0x00, 0x00, 0x00, 0x35, 0xF1, 0x84]).bind
      (fun p => .ok (p.1.name, p.1.dimIds, p.1.attributes.length, p.1.size, p.1.begin, p.2)) =
    .ok (ascii "cc_delaunay", [13, 12], 0, 122832, 3535236, 52) := by decide +kernel

end Verif.Conformance.NetCdf
