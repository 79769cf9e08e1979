import Verif.Model.Bytes
import Verif.Model.Geo

/-!
# Model of `src/netcdf/`

Rust strings are represented by their UTF-8 bytes; a `char` made from a byte (`value as char`) by that
byte.  `seek_relative` by a few bytes never fails, not even past the end of the file; from there on
every non-empty read fails.
-/

namespace Verif.NetCdf

open Verif Rd

/-! ## UTF-8 validation -/

/-- What may follow while validating UTF-8. -/
inductive Utf8State where
  | start | need1 | need2 | need3 | afterE0 | afterED | afterF0 | afterF4
  deriving DecidableEq, Repr

/-- One byte of the validation done by `std::str::from_utf8` (well-formed byte sequences of the
Unicode standard, table 3-7: no overlong forms, no surrogates, nothing above U+10FFFF). -/
def utf8Step (st : Utf8State) (b : UInt8) : Option Utf8State :=
  let n := b.toNat
  let cont := 0x80 ≤ n ∧ n ≤ 0xBF
  match st with
  | .start =>
    if n ≤ 0x7F then some .start
    else if 0xC2 ≤ n ∧ n ≤ 0xDF then some .need1
    else if n = 0xE0 then some .afterE0
    else if n = 0xED then some .afterED
    else if 0xE1 ≤ n ∧ n ≤ 0xEF then some .need2
    else if n = 0xF0 then some .afterF0
    else if 0xF1 ≤ n ∧ n ≤ 0xF3 then some .need3
    else if n = 0xF4 then some .afterF4
    else none
  | .need1 => if cont then some .start else none
  | .need2 => if cont then some .need1 else none
  | .need3 => if cont then some .need2 else none
  | .afterE0 => if 0xA0 ≤ n ∧ n ≤ 0xBF then some .need1 else none
  | .afterED => if 0x80 ≤ n ∧ n ≤ 0x9F then some .need1 else none
  | .afterF0 => if 0x90 ≤ n ∧ n ≤ 0xBF then some .need2 else none
  | .afterF4 => if 0x80 ≤ n ∧ n ≤ 0x8F then some .need2 else none

/-- Running the validation from a state. -/
def utf8Run : Utf8State → List UInt8 → Bool
  | st, [] => decide (st = .start)
  | st, b :: bs =>
    match utf8Step st b with
    | some st' => utf8Run st' bs
    | none => false

/-- `StringReader::read_n_chars` (`src/netcdf/common/string_reader.rs` 10-17). -/
def readNChars (size : Nat) : Rd (List UInt8) := do
  let buf ← bytes size
  if utf8Run .start buf then pure buf else fail

/-! ## Values -/

/-- `src/netcdf/common/netcdf_value_type.rs` 4-11. -/
inductive ValueType where
  | ncByte | ncChar | ncShort | ncInt | ncFloat | ncDouble
  deriving DecidableEq, Repr

/-- `get_byte_size` (`src/netcdf/common/netcdf_value_type.rs` 15-24). -/
def ValueType.byteSize : ValueType → Nat
  | .ncByte => 1
  | .ncChar => 1
  | .ncShort => 2
  | .ncInt => 4
  | .ncFloat => 4
  | .ncDouble => 8

/-- `NetCdfValueTypeReader::read` (`src/netcdf/common/netcdf_value_type_reader.rs` 11-26).  The
parameter says what happens for an unknown type number: a panic in the code (line 20). -/
def readValueType (unknown : Rd ValueType) : Rd ValueType := do
  let n ← u32
  if n = 1 then pure .ncByte
  else if n = 2 then pure .ncChar
  else if n = 3 then pure .ncShort
  else if n = 4 then pure .ncInt
  else if n = 5 then pure .ncFloat
  else if n = 6 then pure .ncDouble
  else unknown

/-- `src/netcdf/common/netcdf_values.rs` 4-11. -/
inductive Values where
  | bytes (v : List UInt8)
  | chars (v : List UInt8)
  | shorts (v : List Int)
  | ints (v : List Int)
  | floats (v : List Fl)
  | doubles (v : List Fl)
  deriving DecidableEq, Repr

/-- `get_doubles` (`src/netcdf/common/netcdf_values.rs` 55-60): panics on any other kind of values.
The five other getters (lines 15-52) are alike. -/
def Values.getDoubles : Values → Res (List Fl)
  | .doubles v => .ok v
  | _ => .panic

/-- `seek_relative` by `n` bytes. -/
def skip (n : Nat) : Rd Unit := fun s => .ok ((), s.drop n)

/-- `read_padding` (`src/netcdf/common/netcdf_values_reader.rs` 95-102). -/
def readPadding (len size : Nat) : Rd Unit :=
  if len * size % 4 > 0 then skip (4 - len * size % 4) else pure ()

/-- `NetCdfValuesReader::read` (`src/netcdf/common/netcdf_values_reader.rs` 12-92).  The bulk reads of
`byteorder` fail as a whole, which is the same as failing at the first missing value. -/
def readValues (count : Nat) : ValueType → Rd Values
  | .ncByte => do
    let v ← bytes count
    readPadding count 1
    pure (.bytes v)
  | .ncChar => do
    let v ← times u8 count
    readPadding count 1
    pure (.chars (v.map UInt8.ofNat))
  | .ncShort => do
    let v ← times u16 count
    readPadding count 2
    pure (.shorts (v.map (signedOfBits 16)))
  | .ncInt => do
    let v ← times u32 count
    pure (.ints (v.map (signedOfBits 32)))
  | .ncFloat => do
    let v ← times u32 count
    pure (.floats (v.map f32OfBits))
  | .ncDouble => do
    let v ← times u64 count
    pure (.doubles (v.map f64OfBits))

/-! ## Header -/

/-- `src/netcdf/header/netcdf_dim.rs` 6-9. -/
structure Dim where
  name : List UInt8
  length : Nat
  deriving DecidableEq, Repr

/-- `src/netcdf/header/netcdf_attr.rs` 8-12. -/
structure Attr where
  name : List UInt8
  ncType : ValueType
  values : Values
  deriving DecidableEq, Repr

/-- `src/netcdf/header/netcdf_var.rs` 9-16. -/
structure Var where
  name : List UInt8
  dimIds : List Nat
  attributes : List Attr
  ncType : ValueType
  size : Nat
  begin : Nat
  deriving DecidableEq, Repr

/-- `src/netcdf/header/netcdf_magic.rs` 6-9. -/
structure Magic where
  magic : List UInt8
  version : Nat
  deriving DecidableEq, Repr

/-- `src/netcdf/header/netcdf_header.rs` 11-17. -/
structure Header where
  magic : Magic
  numRecs : Nat
  dimList : List Dim
  attList : List Attr
  varList : List Var
  deriving DecidableEq, Repr

/-- `NETCDF_MAGIC` = "CDF" (`src/netcdf/header/netcdf_magic.rs` 12). -/
def netcdfMagic : List UInt8 := [0x43, 0x44, 0x46]

/-- `NetCdfMagic::new` (`src/netcdf/header/netcdf_magic.rs` 16-36). -/
def Magic.new (magic : List UInt8) (version : Nat) : Res Magic :=
  if magic ≠ netcdfMagic then .err
  else if version ≠ 2 then .err
  else .ok ⟨magic, version⟩

/-- `NetCdfMagicReader::read` (`src/netcdf/header/netcdf_magic_reader.rs` 13-23). -/
def readMagic : Rd Magic := do
  let magic ← readNChars 3
  let version ← u8
  lift (Magic.new magic version)

/-- `NetCdfNameReader::read_name` (`src/netcdf/header/netcdf_name_reader.rs` 12-22); its padding rule
is that of `read_padding` with size 1. -/
def readName : Rd (List UInt8) := do
  let len ← u32
  let name ← readNChars len
  readPadding len 1
  pure name

/-- `NetCdfDimReader::read` (`src/netcdf/header/netcdf_dim_reader.rs` 12-22). -/
def readDim : Rd Dim := do
  let name ← readName
  let len ← u32
  pure ⟨name, len⟩

/-- `NetCdfAttrReader::read` (`src/netcdf/header/netcdf_attr_reader.rs` 14-27). -/
def readAttr (unknown : Rd ValueType) : Rd Attr := do
  let name ← readName
  let ty ← readValueType unknown
  let len ← u32
  let values ← readValues len ty
  pure ⟨name, ty, values⟩

/-- The common shape of the three list readers: `NetCdfDimListReader::read`
(`src/netcdf/header/netcdf_dim_list_reader.rs` 14-34), `NetCdfAttrListReader::read`
(`src/netcdf/header/netcdf_attr_list_reader.rs` 16-37) and `NetCdfVarListReader::read`
(`src/netcdf/header/netcdf_var_list_reader.rs` 14-35), which differ in tag and element reader. -/
def readList {α : Type} (tag : Nat) (item : Rd α) : Rd (List α) := do
  let t ← u32
  let n ← u32
  if t = 0 ∧ n = 0 then pure []
  else if t = tag ∧ n > 0 then times item n
  else fail

/-- `NetCdfDimListReader::read` (`src/netcdf/header/netcdf_dim_list_reader.rs` 12-34). -/
def readDimList : Rd (List Dim) := readList 0x0A readDim
/-- `NetCdfAttrListReader::read` (`src/netcdf/header/netcdf_attr_list_reader.rs` 14-37). -/
def readAttrList (unknown : Rd ValueType) : Rd (List Attr) := readList 0x0C (readAttr unknown)

/-- `NetCdfVarReader::read` (`src/netcdf/header/netcdf_var_reader.rs` 14-37). -/
def readVar (unknown : Rd ValueType) : Rd Var := do
  let name ← readName
  let n ← u32
  let dimIds ← times u32 n
  let attributes ← readAttrList unknown
  let ty ← readValueType unknown
  let size ← u32
  let begin ← u64
  pure ⟨name, dimIds, attributes, ty, size, begin⟩

/-- `NetCdfVarListReader::read` (`src/netcdf/header/netcdf_var_list_reader.rs` 12-35). -/
def readVarList (unknown : Rd ValueType) : Rd (List Var) := readList 0x0B (readVar unknown)

/-- `NetCdfHeaderReader::read` (`src/netcdf/header/netcdf_header_reader.rs` 16-32), with the treatment
of unknown type numbers as parameter. -/
def readHeaderWith (unknown : Rd ValueType) : Rd Header := do
  let magic ← readMagic
  let numRecs ← u32
  let dimList ← readDimList
  let attList ← readAttrList unknown
  let varList ← readVarList unknown
  pure ⟨magic, numRecs, dimList, attList, varList⟩

/-- `NetCdfHeaderReader::read` (`src/netcdf/header/netcdf_header_reader.rs` 16-32): unknown type
numbers panic (`src/netcdf/common/netcdf_value_type_reader.rs` 20). -/
def readHeader : Rd Header := readHeaderWith crash

/-! ## Data -/

/-- `get_variable_idx` and the indexing after it (`src/netcdf/data/netcdf_data_reader.rs` 26-27,
39-47): the first variable of the name. -/
def findVar (name : List UInt8) : List Var → Option Var
  | [] => none
  | v :: vs => if v.name = name then some v else findVar name vs

/-- `get_entry_count` (`src/netcdf/data/netcdf_data_reader.rs` 50-55). -/
def entryCount (v : Var) : Nat := v.size / v.ncType.byteSize

/-- `read_data_by_var` (`src/netcdf/data/netcdf_data_reader.rs` 25-36), for a file with the given
content.  Seeking to an offset that does not fit `i64` is an error of the operating system. -/
def readDataByVar (file : List UInt8) (header : Header) (name : List UInt8) : Res Values :=
  match findVar name header.varList with
  | none => .err
  | some v =>
    if v.begin ≥ 2 ^ 63 then .err
    else
      match readValues (entryCount v) v.ncType (file.drop v.begin) with
      | .ok (values, _) => .ok values
      | .err => .err
      | .panic => .panic

/-- `read_data_map` (`src/netcdf/data/netcdf_data_reader.rs` 14-22): the hash map is a list of pairs,
newest first. -/
def readDataMap (file : List UInt8) (header : Header) : List (List UInt8) → Res (List (List UInt8 × Values))
  | names => go [] names
where
  /-- The loop. -/
  go (acc : List (List UInt8 × Values)) : List (List UInt8) → Res (List (List UInt8 × Values))
    | [] => .ok acc
    | n :: ns => do
      let data ← readDataByVar file header n
      go ((n, data) :: acc) ns

/-- `src/netcdf/document/netcdf_document.rs` 9-12. -/
structure Document where
  header : Header
  dataMap : List (List UInt8 × Values)
  deriving DecidableEq, Repr

/-- `NetCdfDocumentReader::read` (`src/netcdf/document/netcdf_document_reader.rs` 22-32). -/
def readDocument (file : List UInt8) (names : List (List UInt8)) : Res Document := do
  match readHeader file with
  | .ok (header, _) =>
    let m ← readDataMap file header names
    .ok ⟨header, m⟩
  | .err => .err
  | .panic => .panic

/-- `data_map.get(name)`. -/
def Document.get (d : Document) (name : List UInt8) : Option Values := (d.dataMap.find? (·.1 = name)).map (·.2)

/-- `std::f64::consts::PI`. -/
def pi64 : Fl := .fin (884279719003555 / 281474976710656)

/-- `f64::to_degrees`: `self * (180.0f64 / consts::PI)`. -/
def toDegrees (v : Fl) : Fl := Fl.mul f64 v (Fl.div f64 (.fin 180) pi64)

/-- `CLAT_VAR_NAME` (`src/netcdf/converter/netcdf_to_grid_converter.rs` 6). -/
def clat : List UInt8 := [0x63, 0x6C, 0x61, 0x74]
/-- `CLON_VAR_NAME` (`src/netcdf/converter/netcdf_to_grid_converter.rs` 7). -/
def clon : List UInt8 := [0x63, 0x6C, 0x6F, 0x6E]

/-- `get_lat_lon_values_from_netcdf` (`src/netcdf/converter/netcdf_to_grid_converter.rs` 13-38). -/
def getLatLonValues (doc : Document) : Res (List LatLon) :=
  match doc.get clat, doc.get clon with
  | some lat, some lon => do
    let lats ← lat.getDoubles
    let lons ← lon.getDoubles
    if lats.length ≠ lons.length then .err
    else .ok ((lats.zip lons).map fun p =>
      LatLon.new (Fl.convert f32 (toDegrees p.1)) (Fl.convert f32 (toDegrees p.2)))
  | _, _ => .err

end Verif.NetCdf
