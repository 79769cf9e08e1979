import Verif.Spec.Grib2

/-!
# Specification of GRIB2 data decoding (independent of the model)

WMO GRIB2: section 6 is a bit map, most significant bit first; packed values exist only for the
points whose bit is set; the value of packed integer `X` is `(R + X * 2^E) / 10^D`.
-/

namespace Verif.Spec.Decode

/-- Bit `i` of a byte string, most significant bit first (false past the end). -/
def bitSet (bytes : List UInt8) (i : Nat) : Bool :=
  (bytes.getD (i / 8) 0).toNat / 2 ^ (7 - i % 8) % 2 == 1

/-- Grid point `i` has a packed value: there is no bitmap, or its bit is set. -/
def present (bitmap : List UInt8) (i : Nat) : Bool := bitmap.isEmpty || bitSet bitmap i

/-- Number of points before point `i` that have a packed value. -/
def rank (bitmap : List UInt8) (i : Nat) : Nat := (List.range i).countP (present bitmap)

/-- The bitmap (if any) has a bit for each of the `n` points. -/
def bitmapCovers (bitmap : List UInt8) (n : Nat) : Prop := bitmap = [] ∨ n ≤ 8 * bitmap.length

/-- The number formed by bits `start, …, start + w - 1` of a byte string. -/
def bitsNumber (bytes : List UInt8) (start : Nat) : Nat → Nat
  | 0 => 0
  | w + 1 => 2 * bitsNumber bytes start w + (bitSet bytes (start + w)).toNat

/-- The packed integers of width `w` (in bits) contained in a byte string. -/
def unpackBits (w : Nat) (bytes : List UInt8) : List Nat :=
  (List.range (8 * bytes.length / w)).map (fun k => bitsNumber bytes (k * w) w)

/-- The angle denoted by a 32-bit sign-magnitude number of micro-degrees. -/
def signedAngle (word : Nat) : Rat :=
  if word < 2 ^ 31 then (word : Rat) / 1000000 else -((word - 2 ^ 31 : Nat) : Rat) / 1000000

end Verif.Spec.Decode
