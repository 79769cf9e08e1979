import Mathlib.Data.Rat.Floor

/-!
# IEEE-754 binary floating point (model of Rust's `f32` and `f64`)

This file models no file of the repository but the floating point type the repository uses
everywhere.  Values are `nan`, the infinities and finite rationals; the elementary operations are
the exact rational operations followed by rounding to nearest, ties to even
(IEEE-754 `roundTiesToEven`, the only mode Rust uses), including gradual underflow and overflow to
infinity.

Simplifications: the sign of zero and NaN payloads are not represented.
-/

namespace Verif

/-- A binary floating point format: precision in bits, exponent of the smallest subnormal,
exponent of the overflow threshold. -/
structure Fmt where
  prec : Nat
  emin : Int
  emax : Int

/-- Rust `f32` = IEEE binary32. -/
def f32 : Fmt := ⟨24, -149, 128⟩
/-- Rust `f64` = IEEE binary64. -/
def f64 : Fmt := ⟨53, -1074, 1024⟩

/-- A floating point datum. -/
inductive Fl where
  | nan
  | ninf
  | pinf
  | fin (q : Rat)
  deriving DecidableEq, Repr

/-- `2^k` for an integer `k`. -/
def pow2 : Int → Rat
  | .ofNat n => ((2 ^ n : Nat) : Rat)
  | .negSucc n => mkRat 1 (2 ^ (n + 1))

/-- `floor(log2 |q|)` for `q ≠ 0`. -/
def ilog2 (q : Rat) : Int :=
  let k : Int := (q.num.natAbs.log2 : Int) - (q.den.log2 : Int)
  if pow2 k ≤ |q| then k else k - 1

/-- Round a rational to the nearest integer, ties to even. -/
def rhe (q : Rat) : Int :=
  let f := ⌊q⌋
  let r := q - f
  if r < 1 / 2 then f
  else if 1 / 2 < r then f + 1
  else if f % 2 = 0 then f else f + 1

/-- Exponent of the unit in the last place used to round `q`. -/
def expo (F : Fmt) (q : Rat) : Int :=
  max (ilog2 q - (F.prec - 1)) F.emin

/-- Rounding with unbounded exponent range above (before the overflow check). -/
def rndq (F : Fmt) (q : Rat) : Rat :=
  if q = 0 then 0 else (rhe (q / pow2 (expo F q)) : Rat) * pow2 (expo F q)

/-- IEEE rounding of an exact result. -/
def rnd (F : Fmt) (q : Rat) : Fl :=
  let v := rndq F q
  if pow2 F.emax ≤ v then .pinf
  else if v ≤ -pow2 F.emax then .ninf
  else .fin v

namespace Fl

/-- IEEE `a < b` (false if a NaN is involved). -/
def lt : Fl → Fl → Bool
  | nan, _ => false
  | _, nan => false
  | _, ninf => false
  | ninf, _ => true
  | pinf, _ => false
  | fin _, pinf => true
  | fin a, fin b => decide (a < b)

/-- IEEE `a <= b` (false if a NaN is involved). -/
def le : Fl → Fl → Bool
  | nan, _ => false
  | _, nan => false
  | ninf, _ => true
  | _, pinf => true
  | _, ninf => false
  | pinf, fin _ => false
  | fin a, fin b => decide (a ≤ b)

/-- IEEE `a == b` (false if a NaN is involved). -/
def feq : Fl → Fl → Bool
  | ninf, ninf => true
  | pinf, pinf => true
  | fin a, fin b => decide (a = b)
  | _, _ => false

/-- `a > b` -/
def gt (a b : Fl) : Bool := lt b a
/-- `a >= b` -/
def ge (a b : Fl) : Bool := le b a

/-- Negation (exact). -/
def neg : Fl → Fl
  | nan => nan
  | ninf => pinf
  | pinf => ninf
  | fin a => fin (-a)

/-- Absolute value (exact). -/
def abs : Fl → Fl
  | nan => nan
  | ninf => pinf
  | pinf => pinf
  | fin a => fin |a|

/-- `a + b` -/
def add (F : Fmt) : Fl → Fl → Fl
  | nan, _ => nan
  | _, nan => nan
  | ninf, pinf => nan
  | pinf, ninf => nan
  | ninf, _ => ninf
  | _, ninf => ninf
  | pinf, _ => pinf
  | _, pinf => pinf
  | fin a, fin b => rnd F (a + b)

/-- `a - b` -/
def sub (F : Fmt) (a b : Fl) : Fl := add F a (neg b)

/-- An infinity with the sign of `q` (NaN for zero): used for `inf * q` and `q / 0`. -/
def infSign (q : Rat) : Fl := if 0 < q then pinf else if q < 0 then ninf else nan

/-- `a * b` -/
def mul (F : Fmt) : Fl → Fl → Fl
  | nan, _ => nan
  | _, nan => nan
  | pinf, pinf => pinf
  | pinf, ninf => ninf
  | ninf, pinf => ninf
  | ninf, ninf => pinf
  | pinf, fin b => infSign b
  | ninf, fin b => neg (infSign b)
  | fin a, pinf => infSign a
  | fin a, ninf => neg (infSign a)
  | fin a, fin b => rnd F (a * b)

/-- `a / b`; a zero divisor counts as `+0` (no divisor in the modelled code can be `-0`). -/
def div (F : Fmt) : Fl → Fl → Fl
  | nan, _ => nan
  | _, nan => nan
  | pinf, fin b => if b < 0 then ninf else pinf
  | ninf, fin b => if b < 0 then pinf else ninf
  | pinf, _ => nan
  | ninf, _ => nan
  | fin _, pinf => fin 0
  | fin _, ninf => fin 0
  | fin a, fin b => if b = 0 then infSign a else rnd F (a / b)

/-- `floor()` (always exactly representable). -/
def floor : Fl → Fl
  | fin a => fin (⌊a⌋ : Rat)
  | x => x

/-- `ceil()` (always exactly representable). -/
def ceil : Fl → Fl
  | fin a => fin (⌈a⌉ : Rat)
  | x => x

/-- Round half away from zero, on rationals. -/
def roundAway (q : Rat) : Int := if 0 ≤ q then ⌊q + 1 / 2⌋ else -⌊-q + 1 / 2⌋

/-- `round()` (half away from zero; always exactly representable). -/
def round : Fl → Fl
  | fin a => fin (roundAway a : Rat)
  | x => x

/-- Truncation towards zero, on rationals. -/
def truncQ (q : Rat) : Int := if 0 ≤ q then ⌊q⌋ else -⌊-q⌋

/-- `a % b` (C `fmod`, exact) for a non-zero finite `b`; NaN when undefined. -/
def rem : Fl → Fl → Fl
  | fin a, fin b => if b = 0 then nan else fin (a - b * truncQ (a / b))
  | fin a, pinf => fin a
  | fin a, ninf => fin a
  | _, _ => nan

/-- `f32::rem_euclid` of the Rust standard library:
`let r = self % rhs; if r < 0.0 { r + rhs.abs() } else { r }`. -/
def remEuclid (F : Fmt) (a b : Fl) : Fl :=
  let r := rem a b
  if lt r (fin 0) then add F r (abs b) else r

/-- `f32::min` (the other operand is returned if one is NaN). -/
def fmin (a b : Fl) : Fl :=
  match a, b with
  | nan, b => b
  | a, nan => a
  | a, b => if lt b a then b else a

/-- `f32::max` (the other operand is returned if one is NaN). -/
def fmax (a b : Fl) : Fl :=
  match a, b with
  | nan, b => b
  | a, nan => a
  | a, b => if lt a b then b else a

/-- Rust `x as uN` with `maxv = 2^N - 1`: truncate towards zero, saturate, NaN gives 0. -/
def toUInt (maxv : Nat) : Fl → Nat
  | nan => 0
  | ninf => 0
  | pinf => maxv
  | fin a => min (⌊a⌋.toNat) maxv

/-- Rust `x as u8`. -/
def toU8 (x : Fl) : Nat := toUInt 255 x
/-- Rust `x as u32`. -/
def toU32 (x : Fl) : Nat := toUInt (2 ^ 32 - 1) x
/-- Rust `x as usize` (64-bit target). -/
def toUSize (x : Fl) : Nat := toUInt (2 ^ 64 - 1) x

/-- Rust `x as i32`: truncate towards zero, saturate, NaN gives 0. -/
def toI32 : Fl → Int
  | nan => 0
  | ninf => -(2 ^ 31)
  | pinf => 2 ^ 31 - 1
  | fin a => max (min (truncQ a) (2 ^ 31 - 1)) (-(2 ^ 31))

/-- Rust `n as f32` / `n as f64` for an unsigned integer. -/
def ofNat (F : Fmt) (n : Nat) : Fl := rnd F (n : Rat)
/-- Rust `n as f32` / `n as f64` for a signed integer. -/
def ofInt (F : Fmt) (n : Int) : Fl := rnd F (n : Rat)

/-- Rust `x as f32` for an `f64` (and the lossless `f32 as f64`). -/
def convert (F : Fmt) : Fl → Fl
  | fin a => rnd F a
  | x => x

/-- `powi` as computed by compiler-rt `__powisf2`/`__powidf2` for a non-negative exponent:
`r = 1; loop { if b & 1 { r *= a }; b /= 2; if b == 0 break; a *= a }`. -/
def powNat (F : Fmt) (a : Fl) (b : Nat) (r : Fl) : Fl :=
  let r' := if b % 2 = 1 then mul F r a else r
  if h : b / 2 = 0 then r' else powNat F (mul F a a) (b / 2) r'
termination_by b
decreasing_by omega

/-- `f32::powi(a, n)`: `__powisf2`, reciprocal for negative exponents. -/
def powi (F : Fmt) (a : Fl) (n : Int) : Fl :=
  let r := powNat F a n.natAbs (fin 1)
  if n < 0 then div F (fin 1) r else r

/-- Integer square root scaled: the correctly rounded square root of a non-negative rational,
computed as round-to-odd of a sufficiently precise truncated root followed by rounding.
`sqrtAux q k` is `floor(sqrt(q * 4^k))`. -/
def sqrtAux (q : Rat) (k : Int) : Nat := Nat.sqrt ⌊q * pow2 (2 * k)⌋.toNat

/-- Correctly rounded `sqrt` on rationals: take the root truncated to an integer number of
units `2^-k` with at least two more bits than the target precision, set the last bit if inexact
("round to odd"), and round. -/
def sqrtQ (F : Fmt) (q : Rat) : Fl :=
  if q = 0 then fin 0 else
  -- number of fractional bits: enough that the truncated root has ≥ prec+2 bits and reaches
  -- below the smallest subnormal.
  let k : Int := max (F.prec + 2 - ilog2 q / 2) (2 - F.emin)
  let s := sqrtAux q k
  let m : Nat := 2 * s + (if ((s * s : Nat) : Rat) = q * pow2 (2 * k) then 0 else 1)
  rnd F ((m : Rat) * pow2 (-k - 1))

/-- `sqrt()`. -/
def sqrt (F : Fmt) : Fl → Fl
  | nan => nan
  | ninf => nan
  | pinf => pinf
  | fin a => if a < 0 then nan else sqrtQ F a

/-- Is the datum a NaN? -/
def isNan : Fl → Bool
  | nan => true
  | _ => false

end Fl

/-- A rational that is a value of the format (up to the overflow bound). -/
def Rep (F : Fmt) (q : Rat) : Prop :=
  ∃ (m e : Int), q = (m : Rat) * pow2 e ∧ |m| ≤ 2 ^ F.prec ∧ F.emin ≤ e

/-- A datum that is a value of the format. -/
def IsFl (F : Fmt) : Fl → Prop
  | .fin q => Rep F q ∧ |q| < pow2 F.emax
  | _ => True

/-- Model of a Rust `f32` literal: the decimal is rounded to nearest. -/
def lit (q : Rat) : Fl := rnd f32 q

end Verif
