import Verif.Spec.Grib2

/-!
# Specification of the NetCDF classic format with 64-bit offsets

Written from the NetCDF "classic format specification" (grammar of the file header), independently of
the reader in the repository.  Names are sequences of Unicode characters.
-/

namespace Verif.Spec.NetCdf

open Verif
open Verif.Spec.Grib2 (be F32Word)

/-- The three fields of an IEEE binary64 word. -/
structure F64Word where
  sign : Bool
  exponent : Nat
  fraction : Nat

def F64Word.ok (w : F64Word) : Prop := w.exponent < 2048 ∧ w.fraction < 2 ^ 52

/-- The 64-bit word. -/
def F64Word.bits (w : F64Word) : Nat :=
  (if w.sign then 2 ^ 63 else 0) + w.exponent * 2 ^ 52 + w.fraction

/-- The datum denoted by the word (IEEE 754-2008, 3.4). -/
def F64Word.value (w : F64Word) : Fl :=
  if w.exponent = 2047 then
    if w.fraction = 0 then (if w.sign then .ninf else .pinf) else .nan
  else
    let magnitude : Rat :=
      if w.exponent = 0 then (2 : Rat) ^ (-1022 : Int) * (w.fraction / 2 ^ 52)
      else (2 : Rat) ^ ((w.exponent : Int) - 1023) * (1 + w.fraction / 2 ^ 52)
    .fin (if w.sign then -magnitude else magnitude)

/-- A sequence of values of one type. -/
inductive Data where
  | byte (v : List UInt8)
  | char (v : List UInt8)
  | short (v : List Int)
  | int (v : List Int)
  | float (v : List F32Word)
  | double (v : List F64Word)

namespace Data

def ok : Data → Prop
  | byte _ => True
  | char _ => True
  | short v => ∀ d ∈ v, -2 ^ 15 ≤ d ∧ d < 2 ^ 15
  | int v => ∀ d ∈ v, -2 ^ 31 ≤ d ∧ d < 2 ^ 31
  | float v => ∀ w ∈ v, w.ok
  | double v => ∀ w ∈ v, w.ok

def count : Data → Nat
  | byte v => v.length
  | char v => v.length
  | short v => v.length
  | int v => v.length
  | float v => v.length
  | double v => v.length

/-- The number of the type. -/
def typeNumber : Data → Nat
  | byte _ => 1
  | char _ => 2
  | short _ => 3
  | int _ => 4
  | float _ => 5
  | double _ => 6

/-- The big-endian bytes of the values, two's complement for integers. -/
def encode : Data → List UInt8
  | byte v => v
  | char v => v
  | short v => v.flatMap fun d => be 2 (d % 2 ^ 16).toNat
  | int v => v.flatMap fun d => be 4 (d % 2 ^ 32).toNat
  | float v => v.flatMap fun w => be 4 w.bits
  | double v => v.flatMap fun w => be 8 w.bits

end Data

/-- Zero bytes up to the next multiple of four. -/
def padding (n : Nat) : List UInt8 := List.replicate ((4 - n % 4) % 4) 0

/-- The UTF-8 bytes of a name. -/
def utf8 (name : List Char) : List UInt8 := name.flatMap String.utf8EncodeChar

def encodeName (name : List Char) : List UInt8 :=
  be 4 (utf8 name).length ++ utf8 name ++ padding (utf8 name).length

structure Dim where
  name : List Char
  length : Nat

structure Attr where
  name : List Char
  data : Data

structure Var where
  name : List Char
  dimIds : List Nat
  attributes : List Attr
  type : Nat
  size : Nat
  begin : Nat

structure Header where
  numRecs : Nat
  dims : List Dim
  attributes : List Attr
  vars : List Var

/-- A length that fits its field. -/
def Name.ok (name : List Char) : Prop := (utf8 name).length < 2 ^ 32

def Dim.ok (d : Dim) : Prop := Name.ok d.name ∧ d.length < 2 ^ 32
def Attr.ok (a : Attr) : Prop := Name.ok a.name ∧ a.data.ok ∧ a.data.count < 2 ^ 32
def Var.ok (v : Var) : Prop :=
  Name.ok v.name ∧ v.dimIds.length < 2 ^ 32 ∧ (∀ d ∈ v.dimIds, d < 2 ^ 32) ∧
  v.attributes.length < 2 ^ 32 ∧ (∀ a ∈ v.attributes, a.ok) ∧ 1 ≤ v.type ∧ v.type ≤ 6 ∧
  v.size < 2 ^ 32 ∧ v.begin < 2 ^ 64
def Header.ok (h : Header) : Prop :=
  h.numRecs < 2 ^ 32 ∧ h.dims.length < 2 ^ 32 ∧ (∀ d ∈ h.dims, d.ok) ∧
  h.attributes.length < 2 ^ 32 ∧ (∀ a ∈ h.attributes, a.ok) ∧
  h.vars.length < 2 ^ 32 ∧ (∀ v ∈ h.vars, v.ok)

def encodeDim (d : Dim) : List UInt8 := encodeName d.name ++ be 4 d.length

def encodeAttr (a : Attr) : List UInt8 :=
  encodeName a.name ++ be 4 a.data.typeNumber ++ be 4 a.data.count ++ a.data.encode
    ++ padding a.data.encode.length

/-- A list: absent (two zero words), or tag, length and elements. -/
def encodeList {α : Type} (tag : Nat) (enc : α → List UInt8) (l : List α) : List UInt8 :=
  if l.length = 0 then be 4 0 ++ be 4 0 else be 4 tag ++ be 4 l.length ++ l.flatMap enc

def encodeVar (v : Var) : List UInt8 :=
  encodeName v.name ++ be 4 v.dimIds.length ++ v.dimIds.flatMap (be 4)
    ++ encodeList 12 encodeAttr v.attributes ++ be 4 v.type ++ be 4 v.size ++ be 8 v.begin

/-- The file header: "CDF", version 2, number of records, dimensions, attributes, variables. -/
def encodeHeader (h : Header) : List UInt8 :=
  [0x43, 0x44, 0x46] ++ be 1 2 ++ be 4 h.numRecs ++ encodeList 10 encodeDim h.dims
    ++ encodeList 12 encodeAttr h.attributes ++ encodeList 11 encodeVar h.vars

end Verif.Spec.NetCdf
