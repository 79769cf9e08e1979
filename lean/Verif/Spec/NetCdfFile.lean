import Verif.Spec.NetCdf

/-!
# When bytes are the header of a NetCDF file

The grammar of the NetCDF "classic format specification" as a relation between headers and byte
strings, with the one freedom readers are expected to grant: the fill bytes after names and attribute
values may be any bytes.
-/

namespace Verif.Spec.NetCdf

open Verif.Spec.Grib2 (be)

/-- Fill bytes after `n` bytes, up to the next multiple of four. -/
def Fill (n : Nat) (pad : List UInt8) : Prop := pad.length < 4 ∧ 4 ∣ n + pad.length

/-- `name = nelems namestring`, filled up. -/
def IsName (name : List Char) (s : List UInt8) : Prop :=
  ∃ pad, Fill (utf8 name).length pad ∧ s = be 4 (utf8 name).length ++ (utf8 name ++ pad)

/-- `dim = name dim_length`. -/
def IsDim (d : Dim) (s : List UInt8) : Prop := ∃ n, IsName d.name n ∧ s = n ++ be 4 d.length

/-- `attr = name nc_type nelems [values ...]`, filled up. -/
def IsAttr (a : Attr) (s : List UInt8) : Prop :=
  ∃ n pad, IsName a.name n ∧ Fill a.data.encode.length pad ∧
    s = n ++ (be 4 a.data.typeNumber ++ (be 4 a.data.count ++ (a.data.encode ++ pad)))

/-- `ABSENT | tag nelems [elements ...]`. -/
def IsList {α : Type} (tag : Nat) (P : α → List UInt8 → Prop) (l : List α) (s : List UInt8) : Prop :=
  (l = [] ∧ s = be 4 0 ++ be 4 0) ∨
  (l ≠ [] ∧ ∃ parts, List.Forall₂ P l parts ∧ s = be 4 tag ++ (be 4 l.length ++ parts.flatten))

/-- `var = name nelems [dimid ...] vatt_list nc_type vsize begin`. -/
def IsVar (v : Var) (s : List UInt8) : Prop :=
  ∃ n as, IsName v.name n ∧ IsList 12 IsAttr v.attributes as ∧
    s = n ++ (be 4 v.dimIds.length ++ (v.dimIds.flatMap (be 4) ++ (as ++ (be 4 v.type ++ (be 4 v.size ++ be 8 v.begin)))))

/-- `header = magic numrecs dim_list gatt_list var_list`. -/
def IsHeader (h : Header) (s : List UInt8) : Prop :=
  ∃ ds as vs, IsList 10 IsDim h.dims ds ∧ IsList 12 IsAttr h.attributes as ∧ IsList 11 IsVar h.vars vs ∧
    s = [0x43, 0x44, 0x46, 2] ++ (be 4 h.numRecs ++ (ds ++ (as ++ vs)))

end Verif.Spec.NetCdf
