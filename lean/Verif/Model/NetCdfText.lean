import Verif.Model.NetCdf
import Verif.Model.Text

/-!
# Model of the texts of `src/netcdf/`

The `Display` implementations.  How Rust shows a floating-point number is a parameter (`Shows`).  As everywhere in this model, zero
has no sign; Rust shows the negative zero as `-0`.
-/

namespace Verif.NetCdf

open Verif

/-- What the texts depend on besides the code of `src/netcdf/`. -/
structure Shows where
  /-- `format!("{}", v)` for an `f32`. -/
  float : Fl → Text
  /-- `format!("{}", v)` for an `f64`. -/
  double : Fl → Text

/-- The characters of a Rust string with the given UTF-8 bytes. -/
def stringText (b : List UInt8) : Text := (b.toByteArray.utf8Decode?.getD #[]).toList

/-- `format!("{}", i)` for a signed number. -/
def decInt (i : Int) : Text := if i < 0 then '-' :: dec i.natAbs else dec i.natAbs

/-- `values.iter().fold(String::new(), |val, acc| format!("{} {}", acc, val))` (`src/netcdf/common/netcdf_values.rs` 67, 69-72).
The first parameter of the closure is what has been collected so far, the second the next value. -/
def foldText {α : Type} (shown : α → Text) (values : List α) : Text :=
  values.foldl (fun val acc => shown acc ++ ' ' :: val) []

/-- `Display for NetCdfValues` (`src/netcdf/common/netcdf_values.rs` 64-75).  The characters are bytes read `as char`
(`src/netcdf/common/netcdf_values_reader.rs` 37-46), that is, the first 256 characters of Unicode. -/
def Values.text (s : Shows) : Values → Text
  | .bytes v => foldText (fun b => dec b.toNat) v
  | .chars v => v.map fun b => Char.ofNat b.toNat
  | .shorts v => foldText decInt v
  | .ints v => foldText decInt v
  | .floats v => foldText s.float v
  | .doubles v => foldText s.double v

/-- `Display for NetCdfValueType` (`src/netcdf/common/netcdf_value_type.rs` 28-39). -/
def ValueType.text : ValueType → Text
  | .ncByte => "Byte".toList
  | .ncChar => "Char".toList
  | .ncShort => "Short".toList
  | .ncInt => "Int".toList
  | .ncFloat => "Float".toList
  | .ncDouble => "Double".toList

/-- `writeln!(f, "  key: {}", value)`. -/
def line (key : String) (value : Text) : Text := "  ".toList ++ key.toList ++ ": ".toList ++ value ++ ['\n']

/-- `Display for NetCdfMagic` (`src/netcdf/header/netcdf_magic.rs` 40-47). -/
def Magic.text (m : Magic) : Text := line "magic" (stringText m.magic) ++ line "version" (dec m.version)

/-- `Display for NetCdfDim` (`src/netcdf/header/netcdf_dim.rs` 12-20). -/
def Dim.text (d : Dim) : Text := "DIM:\n".toList ++ line "name" (stringText d.name) ++ line "length" (dec d.length)

/-- `Display for NetCdfAttr` (`src/netcdf/header/netcdf_attr.rs` 15-24). -/
def Attr.text (s : Shows) (a : Attr) : Text :=
  "ATTR:\n".toList ++ line "name" (stringText a.name) ++ line "type" a.ncType.text ++ line "values" (a.values.text s)

/-- `Display for NetCdfVar` (`src/netcdf/header/netcdf_var.rs` 19-37). -/
def Var.text (s : Shows) (v : Var) : Text :=
  "VAR:\n".toList ++ line "name" (stringText v.name) ++ line "nc_type" v.ncType.text ++ line "size" (dec v.size) ++
    line "begin" (dec v.begin) ++ line "dim_ids" (v.dimIds.flatMap fun i => dec i ++ [' ']) ++
    line "attributes" (dec v.attributes.length) ++ v.attributes.flatMap (Attr.text s) ++ ['\n']

/-- `Display for NetCdfHeader` (`src/netcdf/header/netcdf_header.rs` 20-42). -/
def Header.text (s : Shows) (h : Header) : Text :=
  "HEADER:\n".toList ++ h.magic.text ++ line "num_recs" (dec h.numRecs) ++
    line "dim_list" (dec h.dimList.length) ++ h.dimList.flatMap Dim.text ++ ['\n'] ++
    line "att_list" (dec h.attList.length) ++ h.attList.flatMap (Attr.text s) ++ ['\n'] ++
    line "var_list" (dec h.varList.length) ++ h.varList.flatMap (Var.text s) ++ ['\n']

end Verif.NetCdf
