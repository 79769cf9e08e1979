import Verif.Model.Res
import Verif.Model.Float

/-!
# Byte streams

A `&mut impl Read` is modelled by the list of bytes that can still be read from it; a reading
function takes the stream and returns its result together with the remaining stream.
The end of the list stands for end-of-file and for any I/O error: from then on every
non-empty read fails.  Allocation failure for absurdly large declared sizes is not modelled.
-/

namespace Verif

/-- A reading function: stream in, outcome and remaining stream out. -/
def Rd (α : Type) : Type := List UInt8 → Res (α × List UInt8)

namespace Rd

/-- Do nothing. -/
def ret {α : Type} (a : α) : Rd α := fun s => .ok (a, s)

/-- Sequencing with `?`. -/
def bind {α β : Type} (m : Rd α) (f : α → Rd β) : Rd β := fun s =>
  match m s with
  | .ok (a, s') => f a s'
  | .err => .err
  | .panic => .panic

instance : Monad Rd where
  pure := ret
  bind := bind

/-- `return Err(..)`. -/
def fail {α : Type} : Rd α := fun _ => .err
/-- A panic. -/
def crash {α : Type} : Rd α := fun _ => .panic

/-- A computation that does not touch the stream (`Result` or panic). -/
def lift {α : Type} (x : Res α) : Rd α := fun s =>
  match x with
  | .ok a => .ok (a, s)
  | .err => .err
  | .panic => .panic

/-- `read_exact` into a buffer of `n` bytes.
`src/grib2/common/byte_reader.rs` 9-14 (`ByteReader::read_n_bytes`) and the `byteorder` reads. -/
def bytes (n : Nat) : Rd (List UInt8) := fun s =>
  if n ≤ s.length then .ok (s.take n, s.drop n) else .err

/-- `let _ = ByteReader::read_n_bytes(reader, n);` : the result, including an error, is dropped.
After a failed `read_exact` the stream is at its end. -/
def bytesIgnoringError (n : Nat) : Rd Unit := fun s =>
  if n ≤ s.length then .ok ((), s.drop n) else .ok ((), [])

end Rd

/-- Big-endian value of a byte string. -/
def beNat (bs : List UInt8) : Nat := bs.foldl (fun acc b => acc * 256 + b.toNat) 0

namespace Rd

/-- `read_u8`, `read_u16::<BigEndian>`, `read_u24`, `read_u32`, `read_u64`, `read_u128`
of the `byteorder` crate, for `n` = 1, 2, 3, 4, 8, 16 bytes. -/
def uint (n : Nat) : Rd Nat := do
  let b ← bytes n
  pure (beNat b)

/-- `read_u8` -/
def u8 : Rd Nat := uint 1
/-- `read_u16::<BigEndian>` -/
def u16 : Rd Nat := uint 2
/-- `read_u32::<BigEndian>` -/
def u32 : Rd Nat := uint 4
/-- `read_u64::<BigEndian>` -/
def u64 : Rd Nat := uint 8

/-- Read `n` items one after the other. -/
def times {α : Type} (m : Rd α) : Nat → Rd (List α)
  | 0 => pure []
  | n + 1 => do
    let a ← m
    let as ← times m n
    pure (a :: as)

end Rd

/-- The `f32` with the given 32-bit pattern (`f32::from_bits`, used by `read_f32`). -/
def f32OfBits (b : Nat) : Fl :=
  let s : Nat := b / 2 ^ 31 % 2
  let e : Nat := b / 2 ^ 23 % 2 ^ 8
  let m : Nat := b % 2 ^ 23
  if e = 255 then
    if m = 0 then (if s = 1 then .ninf else .pinf) else .nan
  else
    let v : Rat := if e = 0 then (m : Rat) * pow2 (-149)
      else ((m + 2 ^ 23 : Nat) : Rat) * pow2 ((e : Int) - 150)
    .fin (if s = 1 then -v else v)

/-- The `f64` with the given 64-bit pattern (`f64::from_bits`, used by `read_f64`). -/
def f64OfBits (b : Nat) : Fl :=
  let s : Nat := b / 2 ^ 63 % 2
  let e : Nat := b / 2 ^ 52 % 2 ^ 11
  let m : Nat := b % 2 ^ 52
  if e = 2047 then
    if m = 0 then (if s = 1 then .ninf else .pinf) else .nan
  else
    let v : Rat := if e = 0 then (m : Rat) * pow2 (-1074)
      else ((m + 2 ^ 52 : Nat) : Rat) * pow2 ((e : Int) - 1075)
    .fin (if s = 1 then -v else v)

/-- Two's complement reading of an `n`-bit word (`read_i8`, `read_i16`, `read_i32`). -/
def signedOfBits (bits : Nat) (w : Nat) : Int :=
  if w < 2 ^ (bits - 1) then (w : Int) else (w : Int) - 2 ^ bits

end Verif
