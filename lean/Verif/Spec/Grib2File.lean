import Verif.Spec.Grib2

/-!
# The GRIB2 messages a reader accepts that does not check all declared lengths

`IsMessage m l s`: the bytes `s` hold a message with the content `m` whose headers declare the lengths
`l`, which may be wrong.  `Msg.doc` with these lengths is what a reader reports.
-/

namespace Verif.Spec.Grib2

open Verif Verif.Grib2

/-- Lengths a message declares about itself: octet 11 of section 3, and the lengths of the sections 3, 4,
5 and 7. -/
structure Declared where
  optional : Nat
  length3 : Nat
  length4 : Nat
  length5 : Nat
  length7 : Nat

/-- The right values. -/
def Msg.declared (m : Msg) : Declared :=
  ⟨0, section3Length m, section4Length m, section5Length m, 5 + 2 * m.data.length⟩

/-- How far the declared lengths must be right: the number of values of section 7 follows from its length
and so does the extent of templates that are unknown. -/
def Declared.ok (l : Declared) (m : Msg) : Prop :=
  l.optional < 256 ∧ l.length3 < 2 ^ 32 ∧ 9 ≤ l.length4 ∧ l.length4 < 2 ^ 32 ∧ 11 ≤ l.length5 ∧
  l.length5 < 2 ^ 32 ∧ (l.length7 = 5 + 2 * m.data.length ∨ l.length7 = 6 + 2 * m.data.length) ∧
  l.length7 < 2 ^ 32 ∧
  (∀ n c, m.product = .other n c → l.length4 = 9 + c.length) ∧
  (∀ n c, m.packing = .other n c → l.length5 = 11 + c.length)

/-- All of `Msg.ok` but the lengths of sections 4, 5 and 7. -/
def Msg.fields (m : Msg) : Prop :=
  m.reserved.length = 2 ∧ disciplineOk m.discipline ∧ m.edition < 256 ∧ m.totalLength < 2 ^ 64
  ∧ m.center < 2 ^ 16 ∧ m.subcenter < 2 ^ 16 ∧ m.masterTable < 256 ∧ m.localTable < 256
  ∧ significanceOk m.significance ∧ timeOk m.time ∧ statusOk m.status ∧ dataTypeOk m.dataType
  ∧ 21 + m.section1Tail.length < 2 ^ 32 ∧ 5 + m.localUse.length < 2 ^ 32
  ∧ sourceOk m.source ∧ m.numberOfPoints < 2 ^ 32 ∧ interpretationOk m.interpretation
  ∧ gridOk m.grid ∧ productOk m.product
  ∧ m.coordinates.length < 2 ^ 16 ∧ (∀ w ∈ m.coordinates, w.ok)
  ∧ m.numberOfValues < 2 ^ 32 ∧ packingOk m.packing
  ∧ m.bitmapIndicator < 256 ∧ 6 + m.bitmap.length < 2 ^ 32
  ∧ (∀ v ∈ m.data, v < 2 ^ 16)

/-- A scale factor: sign and magnitude, where zero may carry a sign. -/
def IsScale (d : Int) (s : List UInt8) : Prop := s = be 2 (signMagnitude16 d) ∨ (d = 0 ∧ s = be 2 (2 ^ 15))

def IsPacking : Packing → List UInt8 → Prop
  | .simple r e d bits ft, s => ∃ e' d', IsScale e e' ∧ IsScale d d' ∧
      s = be 4 r.bits ++ (e' ++ (d' ++ (be 1 bits ++ be 1 (fieldTypeCode ft))))
  | .other _ content, s => s = content

def looseSection3 (m : Msg) (l : Declared) : List UInt8 :=
  be 4 l.length3 ++ be 1 3 ++ be 1 (sourceCode m.source) ++ be 4 m.numberOfPoints
    ++ be 1 l.optional ++ be 1 (interpretationCode m.interpretation) ++ encGrid m.grid

def looseSection4 (m : Msg) (l : Declared) : List UInt8 :=
  be 4 l.length4 ++ be 1 4 ++ be 2 m.coordinates.length ++ be 2 (productNumber m.product)
    ++ encProduct m.product ++ m.coordinates.flatMap (fun w => be 4 w.bits)

def looseSection5 (m : Msg) (l : Declared) (packing : List UInt8) : List UInt8 :=
  be 4 l.length5 ++ be 1 5 ++ be 4 m.numberOfValues ++ be 2 (packingNumber m.packing) ++ packing

def looseSection7 (m : Msg) (l : Declared) : List UInt8 :=
  be 4 l.length7 ++ be 1 7 ++ m.data.flatMap (be 2)

/-- The bytes of a message that declares the given lengths. -/
def IsMessage (m : Msg) (l : Declared) (s : List UInt8) : Prop :=
  ∃ packing, IsPacking m.packing packing ∧
    s = encSection0 m ++ encSection1 m ++ encSection2 m ++ looseSection3 m l ++ looseSection4 m l
      ++ looseSection5 m l packing ++ encSection6 m ++ looseSection7 m l ++ [0x37, 0x37, 0x37, 0x37]

/-- The document described by a message that declares the given lengths. -/
def Msg.docWith (m : Msg) (l : Declared) : Document :=
  { m.doc with
    section3 := { m.doc.section3 with length := l.length3, optionalPointLength := l.optional }
    section4 := { m.doc.section4 with length := l.length4 }
    section5 := { m.doc.section5 with length := l.length5 }
    section7 := { m.doc.section7 with length := l.length7 } }

end Verif.Spec.Grib2
